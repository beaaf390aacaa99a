import Mathlib.Analysis.Calculus.MeanValue
import Mathlib.Analysis.Asymptotics.Defs
import Mathlib.Analysis.Asymptotics.Lemmas
import Mathlib.Analysis.Normed.Operator.BoundedLinearMaps
import Mathlib.Analysis.Calculus.FDeriv.Symmetric
import Mathlib.Analysis.Calculus.FDeriv.Bilinear
import Mathlib.Analysis.Calculus.Taylor
import Mathlib.Tactic.Module

/-! # Expansions at 0 up to the third order -/

namespace Pmesh

open Asymptotics Filter Topology

section
variable {E : Type} [NormedAddCommGroup E] [NormedSpace ℝ E]

/-- `f = p` up to `o(h^n)`. -/
def Expands (n : ℕ) (f p : ℝ → E) : Prop := (fun h => f h - p h) =o[𝓝 0] fun h : ℝ => h ^ n

theorem Expands.congr {n : ℕ} {f p p' : ℝ → E} (h : Expands n f p) (e : ∀ t, p t = p' t) : Expands n f p' := by
  rwa [show p' = p from funext fun t => (e t).symm]

theorem Expands.refl (n : ℕ) (f : ℝ → E) : Expands n f f := by
  unfold Expands
  simp only [sub_self]
  exact isLittleO_zero _ _

theorem Expands.add {n : ℕ} {f g p q : ℝ → E} (h : Expands n f p) (h' : Expands n g q) : Expands n (fun t => f t + g t) fun t => p t + q t := by
  unfold Expands at *
  refine (IsLittleO.add h h').congr_left fun t => ?_
  module

omit [NormedSpace ℝ E] in
theorem Expands.diff {n : ℕ} {f g p : ℝ → E} (h : Expands n f p) (h' : Expands n g p) : (fun t => f t - g t) =o[𝓝 0] fun t : ℝ => t ^ n := by
  refine (IsLittleO.sub h h').congr_left fun t => ?_
  abel

/-- Terms of higher order do not matter. -/
theorem Expands.cut {n : ℕ} {f p : ℝ → E} (q : ℝ → E) (r : ℝ → E) (h : Expands n f p) (hr : Continuous r) (e : ∀ t, p t = q t + t ^ (n + 1) • r t) :
    Expands n f q := by
  have hr' : r =O[𝓝 0] fun _ : ℝ => (1 : ℝ) := hr.continuousAt.isBigO_one ℝ
  have h0 : (fun t : ℝ => t) =o[𝓝 0] fun _ : ℝ => (1 : ℝ) := by
    rw [isLittleO_one_iff]
    exact tendsto_id
  have h1 : (fun t : ℝ => t ^ (n + 1) • r t) =o[𝓝 0] fun t : ℝ => t ^ n := by
    have a := ((isBigO_refl (fun t : ℝ => t ^ n) (𝓝 0)).mul_isLittleO h0).smul_isBigO hr'
    refine (a.congr_left fun t => ?_).congr_right fun t => ?_
    · rw [pow_succ]
    · simp
  refine (IsLittleO.add h h1).congr_left fun t => ?_
  rw [e]
  abel

theorem pow_le_pow (n m : ℕ) (h : m ≤ n) : (fun t : ℝ => t ^ n) =O[𝓝 0] fun t : ℝ => t ^ m := by
  obtain ⟨k, rfl⟩ := Nat.exists_eq_add_of_le h
  have : (fun t : ℝ => t ^ k) =O[𝓝 0] fun _ : ℝ => (1 : ℝ) := (continuous_pow k).continuousAt.isBigO_one ℝ
  exact (((isBigO_refl (fun t : ℝ => t ^ m) (𝓝 0)).mul this).congr_left fun t => (pow_add t m k).symm).congr_right fun t => mul_one _

omit [NormedSpace ℝ E] in
theorem Expands.lower {n m : ℕ} {f p : ℝ → E} (h : Expands n f p) (hm : m ≤ n) : Expands m f p := IsLittleO.trans_isBigO h (pow_le_pow n m hm)

theorem Expands.bounded {n : ℕ} {f p : ℝ → E} (h : Expands n f p) (hp : Continuous p) : f =O[𝓝 0] fun _ : ℝ => (1 : ℝ) := by
  have h0 : Expands 0 f p := h.lower (Nat.zero_le n)
  have h1 : (fun t => f t - p t) =O[𝓝 0] fun _ : ℝ => (1 : ℝ) := (IsLittleO.isBigO h0).congr_right fun t => by simp
  refine (h1.add (hp.continuousAt.isBigO_one ℝ)).congr_left fun t => ?_
  abel

/-- A factor of order `h` raises the order by one. -/
theorem Expands.raise {n : ℕ} {c d : ℝ → ℝ} {f p : ℝ → E} (hc : Expands (n + 1) c fun t => t * d t) (h : Expands n f p) (hd : Continuous d) (hp : Continuous p) :
    Expands (n + 1) (fun t => c t • f t) fun t => t • d t • p t := by
  have h1 : (fun t => (c t - t * d t) • f t) =o[𝓝 0] fun t : ℝ => t ^ (n + 1) :=
    (IsLittleO.smul_isBigO hc (h.bounded hp)).congr_right fun t => by simp
  have h2 : (fun t => (t * d t) • (f t - p t)) =o[𝓝 0] fun t : ℝ => t ^ (n + 1) := by
    have a : (fun t => t * d t) =O[𝓝 0] fun t : ℝ => t :=
      ((isBigO_refl (fun t : ℝ => t) (𝓝 0)).mul (hd.continuousAt.isBigO_one ℝ)).congr_right fun t => by simp
    exact (a.smul_isLittleO h).congr_right fun t => by rw [smul_eq_mul, pow_succ, mul_comm]
  refine (h1.add h2).congr_left fun t => ?_
  module

theorem Expands.smul {n : ℕ} {c d : ℝ → ℝ} {f p : ℝ → E} (hc : Expands n c d) (h : Expands n f p) (hd : Continuous d) (hp : Continuous p) :
    Expands n (fun t => c t • f t) fun t => d t • p t := by
  have h1 : (fun t => (c t - d t) • f t) =o[𝓝 0] fun t : ℝ => t ^ n :=
    (IsLittleO.smul_isBigO hc (h.bounded hp)).congr_right fun t => by simp
  have h2 : (fun t => d t • (f t - p t)) =o[𝓝 0] fun t : ℝ => t ^ n :=
    ((hd.continuousAt.isBigO_one ℝ).smul_isLittleO h).congr_right fun t => by simp
  refine (h1.add h2).congr_left fun t => ?_
  module

/-- From the derivative to the function. -/
theorem Expands.integrate {n : ℕ} {y g p P : ℝ → E} (hy : ∀ᶠ t in 𝓝 0, HasDerivAt y (g t) t) (hP : ∀ t, HasDerivAt P (p t) t) (h : Expands n g p) :
    Expands (n + 1) y fun t => y 0 - P 0 + P t := by
  unfold Expands at *
  rw [isLittleO_iff] at *
  intro c hc
  obtain ⟨ε, hε, H⟩ := Metric.eventually_nhds_iff.1 ((h hc).and hy)
  refine Metric.eventually_nhds_iff.2 ⟨ε, hε, fun t ht => ?_⟩
  have hb : ∀ s ∈ Set.uIcc 0 t, dist s 0 < ε := by
    intro s hs
    refine lt_of_le_of_lt ?_ ht
    rw [Real.dist_0_eq_abs, Real.dist_0_eq_abs]
    simpa using Set.abs_sub_left_of_mem_uIcc hs
  have key := (convex_uIcc (0 : ℝ) t).norm_image_sub_le_of_norm_hasDerivWithin_le (f := fun s => y s - P s) (f' := fun s => g s - p s)
    (C := c * |t| ^ n) (fun s hs => ((H (hb s hs)).2.sub (hP s)).hasDerivWithinAt) (fun s hs => by
      refine ((H (hb s hs)).1).trans ?_
      rw [norm_pow, Real.norm_eq_abs]
      have : |s| ≤ |t| := by simpa using Set.abs_sub_left_of_mem_uIcc hs
      gcongr) Set.left_mem_uIcc Set.right_mem_uIcc
  calc ‖y t - (y 0 - P 0 + P t)‖ = ‖y t - P t - (y 0 - P 0)‖ := by congr 1; abel
    _ ≤ c * |t| ^ n * ‖t - 0‖ := key
    _ = c * ‖t ^ (n + 1)‖ := by rw [sub_zero, norm_pow, Real.norm_eq_abs, pow_succ]; ring

/-! ## Functions with two derivatives at a point -/

/-- `F(x + δ) = F(x) + B δ + C δ δ / 2 + o(δ²)`. -/
def Taylor2 (F : E → E) (x : E) (B : E →L[ℝ] E) (C : E →L[ℝ] E →L[ℝ] E) : Prop :=
  (fun δ => F (x + δ) - (F x + B δ + (1 / 2 : ℝ) • C δ δ)) =o[𝓝 0] fun δ => ‖δ‖ ^ 2

theorem Expands.comp {F : E → E} {x : E} {B : E →L[ℝ] E} {C : E →L[ℝ] E →L[ℝ] E} (hF : Taylor2 F x B C) {n : ℕ} (hn : n ≤ 2) {f d : ℝ → E}
    (h : Expands n f fun t => x + t • d t) (hd : Continuous d) :
    Expands n (fun t => F (f t)) fun t => F x + t • B (d t) + (1 / 2 * t ^ 2) • C (d t) (d t) := by
  have hc : Continuous fun t => x + t • d t := by fun_prop
  have one : ∀ {G : ℝ → E}, Continuous G → G =O[𝓝 0] fun _ : ℝ => (1 : ℝ) := fun hG => hG.continuousAt.isBigO_one ℝ
  -- the error of the argument
  have he : (fun t => f t - x - t • d t) =o[𝓝 0] fun t : ℝ => t ^ n := IsLittleO.congr_left h fun t => by module
  have htd : (fun t => t • d t) =O[𝓝 0] fun t : ℝ => t :=
    ((isBigO_refl (fun t : ℝ => t) (𝓝 0)).smul (one hd)).congr_right fun t => by simp
  have hz : Tendsto (fun t => f t - x) (𝓝 0) (𝓝 0) := by
    have a : (fun t => f t - x - t • d t) =o[𝓝 0] fun _ : ℝ => (1 : ℝ) := he.trans_isBigO ((pow_le_pow n 0 (Nat.zero_le n)).congr_right fun t => pow_zero t)
    have b : Tendsto (fun t : ℝ => t • d t) (𝓝 0) (𝓝 0) := by
      have : Continuous fun t : ℝ => t • d t := by fun_prop
      simpa using this.tendsto 0
    have := ((isLittleO_one_iff ℝ).1 a).add b
    simpa using this
  have hb : (fun t => f t - x) =O[𝓝 0] fun _ : ℝ => (1 : ℝ) := hz.isBigO_one ℝ
  have hsq : (fun t => ‖f t - x‖ ^ 2) =O[𝓝 0] fun t : ℝ => t ^ n := by
    rcases Nat.eq_zero_or_pos n with rfl | hpos
    · refine ((hb.norm_left.pow 2)).congr_right fun t => by simp
    · have a : (fun t => f t - x) =O[𝓝 0] fun t : ℝ => t := by
        have := ((he.isBigO.trans (pow_le_pow n 1 hpos)).congr_right fun t => pow_one t).add htd
        exact this.congr_left fun t => by abel
      exact (a.norm_left.pow 2).trans (pow_le_pow 2 n hn)
  have h1 : (fun t => F (x + (f t - x)) - (F x + B (f t - x) + (1 / 2 : ℝ) • C (f t - x) (f t - x))) =o[𝓝 0] fun t : ℝ => t ^ n :=
    (IsLittleO.comp_tendsto hF hz).trans_isBigO hsq
  have h2 : (fun t => B (f t - x - t • d t)) =o[𝓝 0] fun t : ℝ => t ^ n := (B.isBigO_comp _ _).trans_isLittleO he
  have bil : ∀ {u v : ℝ → E}, (fun t => C (u t) (v t)) =O[𝓝 0] fun t => ‖u t‖ * ‖v t‖ := by
    intro u v
    refine IsBigO.of_bound ‖C‖ (Eventually.of_forall fun t => ?_)
    rw [norm_mul, norm_norm, norm_norm, ← mul_assoc]
    exact C.le_opNorm₂ _ _
  have h3 : (fun t => C (f t - x - t • d t) (f t - x)) =o[𝓝 0] fun t : ℝ => t ^ n := by
    refine bil.trans_isLittleO ?_
    exact (he.norm_left.mul_isBigO hb.norm_left).congr_right fun t => mul_one _
  have h4 : (fun t => C (t • d t) (f t - x - t • d t)) =o[𝓝 0] fun t : ℝ => t ^ n := by
    refine bil.trans_isLittleO ?_
    have hcd : Continuous fun t : ℝ => t • d t := by fun_prop
    exact ((one hcd).norm_left.mul_isLittleO he.norm_left).congr_right fun t => one_mul _
  refine (((h1.add h2).add (h3.const_smul_left (1 / 2 : ℝ))).add (h4.const_smul_left (1 / 2 : ℝ))).congr_left fun t => ?_
  simp only [add_sub_cancel, map_sub, map_smul, sub_apply, smul_apply, Pi.smul_apply]
  module

/-- Twice continuously differentiable functions. -/
theorem ContDiffAt.taylor2 {F : E → E} {x : E} (hF : ContDiffAt ℝ 2 F x) : ∃ B C, Taylor2 F x B C := by
  refine ⟨fderiv ℝ F x, fderiv ℝ (fderiv ℝ F) x, ?_⟩
  have hd : ∀ᶠ y in 𝓝 x, DifferentiableAt ℝ F y := by
    filter_upwards [hF.eventually (by simp)] with y hy
    exact hy.differentiableAt (by norm_num)
  have hd2 : HasFDerivAt (fderiv ℝ F) (fderiv ℝ (fderiv ℝ F) x) x :=
    ((hF.fderiv_right (m := 1) (by norm_num)).differentiableAt (by norm_num)).hasFDerivAt
  have hsym : ∀ a b, fderiv ℝ (fderiv ℝ F) x a b = fderiv ℝ (fderiv ℝ F) x b a := (hF.isSymmSndFDerivAt (by simp)).eq
  obtain ⟨B, hB⟩ : ∃ B, B = fderiv ℝ F x := ⟨_, rfl⟩
  obtain ⟨C, hC⟩ : ∃ C, C = fderiv ℝ (fderiv ℝ F) x := ⟨_, rfl⟩
  rw [← hC] at hd2 hsym
  rw [← hB, ← hC]
  have hlin : (fun δ => fderiv ℝ F (x + δ) - B - C δ) =o[𝓝 0] fun δ => δ := by
    rw [hB]
    exact (hasFDerivAt_iff_isLittleO_nhds_zero.1 hd2)
  unfold Taylor2
  rw [isLittleO_iff] at hlin ⊢
  intro c hc
  have hsh : Tendsto (fun δ : E => x + δ) (𝓝 0) (𝓝 x) := by
    have : Continuous fun δ : E => x + δ := by fun_prop
    simpa using this.tendsto 0
  obtain ⟨ε, hε, H⟩ := Metric.eventually_nhds_iff.1 ((hlin hc).and (hsh.eventually hd))
  refine Metric.eventually_nhds_iff.2 ⟨ε, hε, fun δ hδ => ?_⟩
  have hseg : ∀ z ∈ segment ℝ 0 δ, ‖z‖ ≤ ‖δ‖ := by
    intro z hz
    obtain ⟨θ, ⟨h0, h1⟩, rfl⟩ := (segment_eq_image ℝ (0 : E) δ ▸ hz : z ∈ (fun θ : ℝ => (1 - θ) • (0 : E) + θ • δ) '' Set.Icc 0 1)
    simp only [smul_zero, zero_add, norm_smul, Real.norm_eq_abs, abs_of_nonneg h0]
    exact mul_le_of_le_one_left (norm_nonneg _) h1
  have hb : ∀ z ∈ segment ℝ 0 δ, dist z 0 < ε := by
    intro z hz
    rw [dist_zero_right] at *
    exact lt_of_le_of_lt (hseg z hz) hδ
  have key := (convex_segment (0 : E) δ).norm_image_sub_le_of_norm_hasFDerivWithin_le (𝕜 := ℝ)
    (f := fun z => F (x + z) - (F x + B z + (1 / 2 : ℝ) • C z z)) (f' := fun z => fderiv ℝ F (x + z) - B - C z) (C := c * ‖δ‖)
    (fun z hz => by
      have h1 : HasFDerivAt (fun z => F (x + z)) (fderiv ℝ F (x + z)) z := by
        have := ((H (hb z hz)).2.hasFDerivAt).comp z ((hasFDerivAt_id z).const_add x)
        simpa [Function.comp_def] using this
      have h2 : HasFDerivAt (fun z => C z z) (C z + C.flip z) z := by
        have := C.hasFDerivAt.clm_apply (hasFDerivAt_id z) (x := z)
        refine this.congr_fderiv ?_
        ext y
        simp
      have h3 := h1.sub ((B.hasFDerivAt.const_add (F x)).add (h2.const_smul (1 / 2 : ℝ)))
      refine (h3.congr_fderiv ?_).hasFDerivWithinAt
      ext y
      simp only [sub_apply, add_apply, smul_apply, ContinuousLinearMap.flip_apply, hsym y z]
      module)
    (fun z hz => ((H (hb z hz)).1).trans (mul_le_mul_of_nonneg_left (hseg z hz) hc.le)) (left_mem_segment ℝ 0 δ) (right_mem_segment ℝ 0 δ)
  simp only [map_zero, add_zero, smul_zero, sub_self, sub_zero] at key
  rw [norm_pow, norm_norm, pow_two, ← mul_assoc]
  exact key

/-- Twice continuously differentiable functions of one variable. -/
theorem ContDiffAt.near2 {f : ℝ → E} (hf : ContDiffAt ℝ 2 f 0) : ∃ c0 c1 c2, Expands 2 f fun t => c0 + t • c1 + t ^ 2 • c2 := by
  obtain ⟨u, hu, hc⟩ := hf.contDiffOn (m := 2) le_rfl (by simp)
  obtain ⟨ε, hε, hs⟩ := Metric.mem_nhds_iff.1 hu
  have h := taylor_isLittleO (n := 2) (convex_ball (0 : ℝ) ε) (Metric.mem_ball_self hε) (hc.mono hs)
  rw [IsOpen.nhdsWithin_eq Metric.isOpen_ball (Metric.mem_ball_self hε)] at h
  refine ⟨f 0, iteratedDerivWithin 1 f (Metric.ball 0 ε) 0, (1 / 2 : ℝ) • iteratedDerivWithin 2 f (Metric.ball 0 ε) 0, ?_⟩
  refine (h.congr_left fun t => ?_).congr_right fun t => by rw [sub_zero]
  rw [taylorWithinEval_succ, taylorWithinEval_succ, taylor_within_zero_eval]
  simp
  module

end

end Pmesh
