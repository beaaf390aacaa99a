import Verif.Lemmas.Expand
import Mathlib.Analysis.Calculus.Deriv.Pow
import Mathlib.Analysis.Calculus.Deriv.Mul

/-! # The order of a composition of kicks and drifts -/

namespace Pmesh

open Asymptotics Filter Topology

section
variable {E : Type} [NormedAddCommGroup E] [NormedSpace ℝ E]

def V0 (f : ℝ → E) (c0 : E) : Prop := Expands 0 f fun _ => c0
def V1 (f : ℝ → E) (c0 c1 : E) : Prop := Expands 1 f fun t => c0 + t • c1
def V2 (f : ℝ → E) (c0 c1 c2 : E) : Prop := Expands 2 f fun t => c0 + t • c1 + t ^ 2 • c2
def V3 (f : ℝ → E) (c0 c1 c2 c3 : E) : Prop := Expands 3 f fun t => c0 + t • c1 + t ^ 2 • c2 + t ^ 3 • c3

theorem V3.to2 {f : ℝ → E} {c0 c1 c2 c3 : E} (h : V3 f c0 c1 c2 c3) : V2 f c0 c1 c2 :=
  (Expands.lower h (by omega : 2 ≤ 3)).cut _ (fun _ => c3) (by fun_prop) fun _ => rfl

theorem V2.to1 {f : ℝ → E} {c0 c1 c2 : E} (h : V2 f c0 c1 c2) : V1 f c0 c1 :=
  (Expands.lower h (by omega : 1 ≤ 2)).cut _ (fun _ => c2) (by fun_prop) fun _ => rfl

theorem V1.to0 {f : ℝ → E} {c0 c1 : E} (h : V1 f c0 c1) : V0 f c0 :=
  (Expands.lower h (by omega : 0 ≤ 1)).cut _ (fun _ => c1) (by fun_prop) fun t => by simp

theorem V3.add {f g : ℝ → E} {c0 c1 c2 c3 d0 d1 d2 d3 : E} (h : V3 f c0 c1 c2 c3) (h' : V3 g d0 d1 d2 d3) :
    V3 (fun t => f t + g t) (c0 + d0) (c1 + d1) (c2 + d2) (c3 + d3) := (Expands.add h h').congr fun t => by module

theorem V2.add {f g : ℝ → E} {c0 c1 c2 d0 d1 d2 : E} (h : V2 f c0 c1 c2) (h' : V2 g d0 d1 d2) :
    V2 (fun t => f t + g t) (c0 + d0) (c1 + d1) (c2 + d2) := (Expands.add h h').congr fun t => by module

theorem V1.add {f g : ℝ → E} {c0 c1 d0 d1 : E} (h : V1 f c0 c1) (h' : V1 g d0 d1) :
    V1 (fun t => f t + g t) (c0 + d0) (c1 + d1) := (Expands.add h h').congr fun t => by module

theorem V3.const (c : E) : V3 (fun _ => c) c 0 0 0 := (Expands.refl 3 _).congr fun t => by module
theorem V2.const (c : E) : V2 (fun _ => c) c 0 0 := (Expands.refl 2 _).congr fun t => by module
theorem V1.const (c : E) : V1 (fun _ => c) c 0 := (Expands.refl 1 _).congr fun t => by module

theorem V3.as {f g : ℝ → E} {c0 c1 c2 c3 d0 d1 d2 d3 : E} (h : V3 g d0 d1 d2 d3) (e : ∀ t, f t = g t) (e0 : c0 = d0) (e1 : c1 = d1) (e2 : c2 = d2)
    (e3 : c3 = d3) : V3 f c0 c1 c2 c3 := by
  rwa [show f = g from funext e, e0, e1, e2, e3]

theorem V3.diff {f g : ℝ → E} {c0 c1 c2 c3 d0 d1 d2 d3 : E} (h : V3 f c0 c1 c2 c3) (h' : V3 g d0 d1 d2 d3) (e0 : c0 = d0) (e1 : c1 = d1) (e2 : c2 = d2)
    (e3 : c3 = d3) : (fun t => f t - g t) =o[𝓝 0] fun t : ℝ => t ^ 3 := by
  rw [← e0, ← e1, ← e2, ← e3] at h'
  exact Expands.diff h h'

theorem V2.as {f g : ℝ → E} {c0 c1 c2 d0 d1 d2 : E} (h : V2 g d0 d1 d2) (e : ∀ t, f t = g t) (e0 : c0 = d0) (e1 : c1 = d1) (e2 : c2 = d2) :
    V2 f c0 c1 c2 := by
  rwa [show f = g from funext e, e0, e1, e2]

theorem V1.as {f g : ℝ → E} {c0 c1 d0 d1 : E} (h : V1 g d0 d1) (e : ∀ t, f t = g t) (e0 : c0 = d0) (e1 : c1 = d1) : V1 f c0 c1 := by
  rwa [show f = g from funext e, e0, e1]

theorem V0.smul {c : ℝ → ℝ} {f : ℝ → E} {d0 : ℝ} {p0 : E} (hc : V0 c d0) (h : V0 f p0) : V0 (fun t => c t • f t) (d0 • p0) :=
  Expands.smul hc h continuous_const continuous_const

theorem V1.smul {c : ℝ → ℝ} {f : ℝ → E} {d0 d1 : ℝ} {p0 p1 : E} (hc : V1 c d0 d1) (h : V1 f p0 p1) :
    V1 (fun t => c t • f t) (d0 • p0) (d0 • p1 + d1 • p0) :=
  (Expands.smul hc h (by fun_prop) (by fun_prop)).cut _ (fun _ => d1 • p1) (by fun_prop) fun t => by simp only [smul_eq_mul]; module

theorem V2.smul {c : ℝ → ℝ} {f : ℝ → E} {d0 d1 d2 : ℝ} {p0 p1 p2 : E} (hc : V2 c d0 d1 d2) (h : V2 f p0 p1 p2) :
    V2 (fun t => c t • f t) (d0 • p0) (d0 • p1 + d1 • p0) (d0 • p2 + d1 • p1 + d2 • p0) :=
  (Expands.smul hc h (by fun_prop) (by fun_prop)).cut _ (fun t => d1 • p2 + d2 • p1 + t • d2 • p2) (by fun_prop) fun t => by
    simp only [smul_eq_mul]; module

theorem V1.raise {c : ℝ → ℝ} {f : ℝ → E} {d1 : ℝ} {p0 : E} (hc : V1 c 0 d1) (h : V0 f p0) : V1 (fun t => c t • f t) 0 (d1 • p0) :=
  ((Expands.raise (n := 0) (d := fun _ => d1) (Expands.congr hc fun t => by simp) h (by fun_prop) (by fun_prop))).congr fun t => by module

theorem V2.raise {c : ℝ → ℝ} {f : ℝ → E} {d1 d2 : ℝ} {p0 p1 : E} (hc : V2 c 0 d1 d2) (h : V1 f p0 p1) :
    V2 (fun t => c t • f t) 0 (d1 • p0) (d1 • p1 + d2 • p0) :=
  ((Expands.raise (n := 1) (d := fun t => d1 + t * d2) (Expands.congr hc fun t => by simp; ring) h (by fun_prop) (by fun_prop))).cut _
    (fun t => d2 • p1) (by fun_prop) fun t => by module

theorem V3.raise {c : ℝ → ℝ} {f : ℝ → E} {d1 d2 d3 : ℝ} {p0 p1 p2 : E} (hc : V3 c 0 d1 d2 d3) (h : V2 f p0 p1 p2) :
    V3 (fun t => c t • f t) 0 (d1 • p0) (d1 • p1 + d2 • p0) (d1 • p2 + d2 • p1 + d3 • p0) :=
  ((Expands.raise (n := 2) (d := fun t => d1 + t * d2 + t ^ 2 * d3) (Expands.congr hc fun t => by simp; ring) h (by fun_prop) (by fun_prop))).cut _
    (fun t => d2 • p2 + d3 • p1 + t • d3 • p2) (by fun_prop) fun t => by module

theorem V0.integrate {y g : ℝ → E} {p0 : E} (hy : ∀ᶠ t in 𝓝 0, HasDerivAt y (g t) t) (h : V0 g p0) : V1 y (y 0) p0 := by
  refine (Expands.integrate (P := fun t => t • p0) hy (fun t => ?_) h).congr fun t => by module
  simpa using (hasDerivAt_id t).smul_const p0

theorem V1.integrate {y g : ℝ → E} {p0 p1 : E} (hy : ∀ᶠ t in 𝓝 0, HasDerivAt y (g t) t) (h : V1 g p0 p1) : V2 y (y 0) p0 ((1 / 2 : ℝ) • p1) := by
  refine (Expands.integrate (P := fun t => t • p0 + t ^ 2 • (1 / 2 : ℝ) • p1) hy (fun t => ?_) h).congr fun t => by module
  refine (((hasDerivAt_id t).smul_const p0).add ((hasDerivAt_pow 2 t).smul_const ((1 / 2 : ℝ) • p1))).congr_deriv ?_
  norm_num
  module

theorem V2.integrate {y g : ℝ → E} {p0 p1 p2 : E} (hy : ∀ᶠ t in 𝓝 0, HasDerivAt y (g t) t) (h : V2 g p0 p1 p2) :
    V3 y (y 0) p0 ((1 / 2 : ℝ) • p1) ((1 / 3 : ℝ) • p2) := by
  refine (Expands.integrate (P := fun t => t • p0 + t ^ 2 • (1 / 2 : ℝ) • p1 + t ^ 3 • (1 / 3 : ℝ) • p2) hy (fun t => ?_) h).congr fun t => by module
  refine ((((hasDerivAt_id t).smul_const p0).add ((hasDerivAt_pow 2 t).smul_const ((1 / 2 : ℝ) • p1))).add
    ((hasDerivAt_pow 3 t).smul_const ((1 / 3 : ℝ) • p2))).congr_deriv ?_
  norm_num
  module

theorem V0.comp {F : E → E} {x : E} {B : E →L[ℝ] E} {C : E →L[ℝ] E →L[ℝ] E} (hF : Taylor2 F x B C) {f : ℝ → E} (h : V0 f x) :
    V0 (fun t => F (f t)) (F x) :=
  (Expands.comp hF (by omega) (d := fun _ => 0) (Expands.congr h fun t => by module) (by fun_prop)).congr fun t => by simp

theorem V1.comp {F : E → E} {x : E} {B : E →L[ℝ] E} {C : E →L[ℝ] E →L[ℝ] E} (hF : Taylor2 F x B C) {f : ℝ → E} {a : E} (h : V1 f x a) :
    V1 (fun t => F (f t)) (F x) (B a) :=
  (Expands.comp hF (by omega) (d := fun _ => a) h (by fun_prop)).cut _ (fun _ => (1 / 2 : ℝ) • C a a) (by fun_prop) fun t => by module

theorem V2.comp {F : E → E} {x : E} {B : E →L[ℝ] E} {C : E →L[ℝ] E →L[ℝ] E} (hF : Taylor2 F x B C) {f : ℝ → E} {a b : E} (h : V2 f x a b) :
    V2 (fun t => F (f t)) (F x) (B a) (B b + (1 / 2 : ℝ) • C a a) :=
  (Expands.comp hF (by omega) (d := fun t => a + t • b) (Expands.congr h fun t => by module) (by fun_prop)).cut _
    (fun t => (1 / 2 : ℝ) • (C a b + C b a + t • C b b)) (by fun_prop) fun t => by
      simp only [map_add, map_smul, add_apply, smul_apply]
      module

omit [NormedSpace ℝ E] in
theorem Expands.scale {n : ℕ} {f p : ℝ → E} (c : ℝ) (h : Expands n f p) : Expands n (fun t => f (c * t)) fun t => p (c * t) := by
  have hz : Tendsto (fun t : ℝ => c * t) (𝓝 0) (𝓝 0) := by
    have : Continuous fun t : ℝ => c * t := by fun_prop
    simpa using this.tendsto 0
  refine (IsLittleO.comp_tendsto h hz).trans_isBigO ?_
  refine IsBigO.of_bound (|c| ^ n) (Eventually.of_forall fun t => ?_)
  simp [mul_pow]

/-! ## The exact motion -/

/-- `x' = α v`, `v' = β F(x)` near 0. -/
structure Motion (F : E → E) (α β : ℝ → ℝ) (x v : ℝ → E) : Prop where
  dx : ∀ᶠ t in 𝓝 0, HasDerivAt x (α t • v t) t
  dv : ∀ᶠ t in 𝓝 0, HasDerivAt v (β t • F (x t)) t

section
variable {F : E → E} {α β : ℝ → ℝ} {x v : ℝ → E} {B : E →L[ℝ] E} {C : E →L[ℝ] E →L[ℝ] E} {a0 a1 a2 b0 b1 b2 : ℝ}

omit [NormedSpace ℝ E] in
theorem continuous_V0 {f : ℝ → E} (h : ContinuousAt f 0) : V0 f (f 0) := by
  unfold V0 Expands
  have : Tendsto (fun t => f t - f 0) (𝓝 0) (𝓝 0) := by simpa using h.tendsto.sub_const (f 0)
  exact ((isLittleO_one_iff ℝ).2 this).congr_right fun t => (pow_zero t).symm

theorem Motion.first (h : Motion F α β x v) (hF : Taylor2 F (x 0) B C) (hα : V0 α a0) (hβ : V0 β b0) :
    V1 x (x 0) (a0 • v 0) ∧ V1 v (v 0) (b0 • F (x 0)) :=
  ⟨V0.integrate h.dx (hα.smul (continuous_V0 h.dv.self_of_nhds.continuousAt)),
    V0.integrate h.dv (hβ.smul (V0.comp hF (continuous_V0 h.dx.self_of_nhds.continuousAt)))⟩

theorem Motion.second (h : Motion F α β x v) (hF : Taylor2 F (x 0) B C) (hα : V1 α a0 a1) (hβ : V1 β b0 b1) :
    V2 x (x 0) (a0 • v 0) ((1 / 2 : ℝ) • (a0 • b0 • F (x 0) + a1 • v 0)) ∧
    V2 v (v 0) (b0 • F (x 0)) ((1 / 2 : ℝ) • (b0 • B (a0 • v 0) + b1 • F (x 0))) :=
  ⟨V1.integrate h.dx (hα.smul (h.first hF hα.to0 hβ.to0).2), V1.integrate h.dv (hβ.smul (V1.comp hF (h.first hF hα.to0 hβ.to0).1))⟩

theorem Motion.third (h : Motion F α β x v) (hF : Taylor2 F (x 0) B C) (hα : V2 α a0 a1 a2) (hβ : V2 β b0 b1 b2) :
    V3 x (x 0) (a0 • v 0) ((1 / 2 : ℝ) • (a0 • b0 • F (x 0) + a1 • v 0))
      ((1 / 3 : ℝ) • (a0 • (1 / 2 : ℝ) • (b0 • B (a0 • v 0) + b1 • F (x 0)) + a1 • b0 • F (x 0) + a2 • v 0)) ∧
    V3 v (v 0) (b0 • F (x 0)) ((1 / 2 : ℝ) • (b0 • B (a0 • v 0) + b1 • F (x 0)))
      ((1 / 3 : ℝ) • (b0 • (B ((1 / 2 : ℝ) • (a0 • b0 • F (x 0) + a1 • v 0)) + (1 / 2 : ℝ) • C (a0 • v 0) (a0 • v 0)) + b1 • B (a0 • v 0) + b2 • F (x 0))) :=
  ⟨V2.integrate h.dx (hα.smul (h.second hF hα.to1 hβ.to1).2), V2.integrate h.dv (hβ.smul (V2.comp hF (h.second hF hα.to1 hβ.to1).1))⟩

end

/-! ## The factors of a substep -/

theorem span1 {P α : ℝ → ℝ} {a0 : ℝ} (hP : ∀ᶠ t in 𝓝 0, HasDerivAt P (α t) t) (hα : V0 α a0) (c c' : ℝ) :
    V1 (fun h => P (c' * h) - P (c * h)) 0 ((c' - c) * a0) := by
  have h := V0.integrate hP hα
  exact (IsLittleO.sub (Expands.scale c' h) (Expands.scale c h)).congr_left fun t => by simp only [smul_eq_mul]; ring

theorem span2 {P α : ℝ → ℝ} {a0 a1 : ℝ} (hP : ∀ᶠ t in 𝓝 0, HasDerivAt P (α t) t) (hα : V1 α a0 a1) (c c' : ℝ) :
    V2 (fun h => P (c' * h) - P (c * h)) 0 ((c' - c) * a0) ((c' ^ 2 - c ^ 2) / 2 * a1) := by
  have h := V1.integrate hP hα
  exact (IsLittleO.sub (Expands.scale c' h) (Expands.scale c h)).congr_left fun t => by simp only [smul_eq_mul]; ring

theorem span3 {P α : ℝ → ℝ} {a0 a1 a2 : ℝ} (hP : ∀ᶠ t in 𝓝 0, HasDerivAt P (α t) t) (hα : V2 α a0 a1 a2) (c c' : ℝ) :
    V3 (fun h => P (c' * h) - P (c * h)) 0 ((c' - c) * a0) ((c' ^ 2 - c ^ 2) / 2 * a1) ((c' ^ 3 - c ^ 3) / 3 * a2) := by
  have h := V2.integrate hP hα
  exact (IsLittleO.sub (Expands.scale c' h) (Expands.scale c h)).congr_left fun t => by simp only [smul_eq_mul]; ring

/-! ## One step of the schemes -/

variable {F : E → E} {α β P Q : ℝ → ℝ} {x v : ℝ → E} {B : E →L[ℝ] E} {C : E →L[ℝ] E →L[ℝ] E} {a0 a1 a2 b0 b1 b2 : ℝ}

theorem order1 (h : Motion F α β x v) (hF : Taylor2 F (x 0) B C) (hP : ∀ᶠ t in 𝓝 0, HasDerivAt P (α t) t) (hQ : ∀ᶠ t in 𝓝 0, HasDerivAt Q (β t) t)
    (hα : V0 α a0) (hβ : V0 β b0) {v1 x1 : ℝ → E} (e1 : ∀ t, v1 t = v 0 + (Q t - Q 0) • F (x 0)) (e2 : ∀ t, x1 t = x 0 + (P t - P 0) • v1 t) :
    (fun t => x1 t - x t) =o[𝓝 0] (fun t : ℝ => t ^ 1) ∧ (fun t => v1 t - v t) =o[𝓝 0] fun t : ℝ => t ^ 1 := by
  have dP := fun c c' => span1 hP hα c c'
  have dQ := fun c c' => span1 hQ hβ c c'
  obtain ⟨hx, hv⟩ := h.first hF hα hβ
  have s1 : V1 v1 (v 0) (b0 • F (x 0)) :=
    ((V1.const (v 0)).add ((dQ 0 1).raise (V1.const (F (x 0))).to0)).as (fun t => by rw [e1, zero_mul, one_mul]) (by module) (by module)
  have s2 : V1 x1 (x 0) (a0 • v 0) :=
    ((V1.const (x 0)).add ((dP 0 1).raise s1.to0)).as (fun t => by rw [e2, zero_mul, one_mul]) (by module) (by module)
  exact ⟨Expands.diff s2 hx, Expands.diff s1 hv⟩

theorem order2 (h : Motion F α β x v) (hF : Taylor2 F (x 0) B C) (hP : ∀ᶠ t in 𝓝 0, HasDerivAt P (α t) t) (hQ : ∀ᶠ t in 𝓝 0, HasDerivAt Q (β t) t)
    (hα : V1 α a0 a1) (hβ : V1 β b0 b1) {v1 x1 v2 : ℝ → E} (e1 : ∀ t, v1 t = v 0 + (Q (1 / 2 * t) - Q 0) • F (x 0))
    (e2 : ∀ t, x1 t = x 0 + (P t - P 0) • v1 t) (e3 : ∀ t, v2 t = v1 t + (Q t - Q (1 / 2 * t)) • F (x1 t)) :
    (fun t => x1 t - x t) =o[𝓝 0] (fun t : ℝ => t ^ 2) ∧ (fun t => v2 t - v t) =o[𝓝 0] fun t : ℝ => t ^ 2 := by
  have dP := fun c c' => span2 hP hα c c'
  have dQ := fun c c' => span2 hQ hβ c c'
  obtain ⟨hx, hv⟩ := h.second hF hα hβ
  have s1 := ((V2.const (v 0)).add ((dQ 0 (1 / 2)).raise (V2.const (F (x 0))).to1)).as (f := v1) (fun t => by rw [e1, zero_mul]) rfl rfl rfl
  have s2 : V2 x1 (x 0) (a0 • v 0) ((1 / 2 : ℝ) • (a0 • b0 • F (x 0) + a1 • v 0)) :=
    ((V2.const (x 0)).add ((dP 0 1).raise s1.to1)).as (fun t => by rw [e2, zero_mul, one_mul]) (by module) (by module) (by module)
  have s3 : V2 v2 (v 0) (b0 • F (x 0)) ((1 / 2 : ℝ) • (b0 • B (a0 • v 0) + b1 • F (x 0))) :=
    (s1.add ((dQ (1 / 2) 1).raise (V1.comp hF s2.to1))).as (fun t => by rw [e3, one_mul]) (by module) (by module) (by module)
  exact ⟨Expands.diff s2 hx, Expands.diff s3 hv⟩

theorem order3 (h : Motion F α β x v) (hF : Taylor2 F (x 0) B C) (hP : ∀ᶠ t in 𝓝 0, HasDerivAt P (α t) t) (hQ : ∀ᶠ t in 𝓝 0, HasDerivAt Q (β t) t)
    (hα : V2 α a0 a1 a2) (hβ : V2 β b0 b1 b2) {v1 x1 v2 x2 v3 x3 : ℝ → E}
    (e1 : ∀ t, x1 t = x 0 + (P t - P 0) • v 0)
    (e2 : ∀ t, v1 t = v 0 + (Q (-1 / 24 * t) - Q 0) • F (x1 t))
    (e3 : ∀ t, x2 t = x1 t + (P (1 / 3 * t) - P t) • v1 t)
    (e4 : ∀ t, v2 t = v1 t + (Q (17 / 24 * t) - Q (-1 / 24 * t)) • F (x2 t))
    (e5 : ∀ t, x3 t = x2 t + (P t - P (1 / 3 * t)) • v2 t)
    (e6 : ∀ t, v3 t = v2 t + (Q t - Q (17 / 24 * t)) • F (x3 t)) :
    (fun t => x3 t - x t) =o[𝓝 0] (fun t : ℝ => t ^ 3) ∧ (fun t => v3 t - v t) =o[𝓝 0] fun t : ℝ => t ^ 3 := by
  have dP := fun c c' => span3 hP hα c c'
  have dQ := fun c c' => span3 hQ hβ c c'
  obtain ⟨hx, hv⟩ := h.third hF hα hβ
  have s1 : V3 x1 (x 0) (a0 • v 0) ((1 / 2 * a1) • v 0) ((1 / 3 * a2) • v 0) :=
    ((V3.const (x 0)).add ((dP 0 1).raise (V3.const (v 0)).to2)).as (fun t => by rw [e1, zero_mul, one_mul]) (by module) (by module) (by module) (by module)
  have s2 := ((V3.const (v 0)).add ((dQ 0 (-1 / 24)).raise (V2.comp hF s1.to2))).as (f := v1) (fun t => by rw [e2, zero_mul]) rfl rfl rfl rfl
  have s2' : V2 v1 (v 0) _ _ := s2.to2.as (fun _ => rfl) (by module) rfl rfl
  have s3 := (s1.add ((dP 1 (1 / 3)).raise s2')).as (f := x2) (fun t => by rw [e3, one_mul]) rfl rfl rfl rfl
  have s3' : V2 x2 (x 0) _ _ := s3.to2.as (fun _ => rfl) (by module) rfl rfl
  have s4 := (s2.add ((dQ (-1 / 24) (17 / 24)).raise (V2.comp hF s3'))).as (f := v2) (fun t => by rw [e4]) rfl rfl rfl rfl
  have s5 := (s3.add ((dP (1 / 3) 1).raise s4.to2)).as (f := x3) (fun t => by rw [e5, one_mul]) rfl rfl rfl rfl
  have s5' : V2 x3 (x 0) _ _ := s5.to2.as (fun _ => rfl) (by module) rfl rfl
  have s6 := (s4.add ((dQ (17 / 24) 1).raise (V2.comp hF s5'))).as (f := v3) (fun t => by rw [e6, one_mul]) rfl rfl rfl rfl
  refine ⟨s5.diff hx ?_ ?_ ?_ ?_, s6.diff hv ?_ ?_ ?_ ?_⟩
  all_goals
    simp only [map_add, map_smul, add_apply, smul_apply, add_zero, zero_add]
    try module

end

end Pmesh
