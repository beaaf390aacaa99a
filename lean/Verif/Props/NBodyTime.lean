import Verif.Spec.NBodyTime
import Verif.Props.NBody
import Verif.Lemmas.Order
import Mathlib.MeasureTheory.Integral.IntervalIntegral.FundThmCalculus
import Mathlib.Analysis.SpecialFunctions.Sqrt
import Mathlib.Analysis.Calculus.Deriv.Prod

/-!
# C91: the N-body example integrates the equations of motion, to the order in the name of the scheme
-/

namespace Pmesh

open Asymptotics Filter Topology

/-! ## The factors -/

/-- FTC for functions that are continuous for positive arguments. -/
theorem ftc {g : ℝ → ℝ} (hg : ContinuousOn g (Set.Ioi 0)) {a b : ℝ} (ha : 0 < a) (hb : 0 < b) : HasDerivAt (fun u => ∫ x in a..u, g x) (g b) b := by
  refine intervalIntegral.integral_hasDerivAt_right ?_ ?_ (hg.continuousAt (Ioi_mem_nhds hb))
  · exact (hg.mono fun z hz => lt_of_lt_of_le (lt_min ha hb) hz.1).intervalIntegrable
  · exact hg.stronglyMeasurableAtFilter isOpen_Ioi b hb

theorem inv_cont {E : ℝ → ℝ} (hE : ContinuousOn E (Set.Ioi 0)) (hne : ∀ a > 0, E a ≠ 0) {p : ℝ → ℝ} (hp : Continuous p) (hpne : ∀ a > 0, p a ≠ 0) :
    ContinuousOn (fun a => 1.0 / (p a * E a)) (Set.Ioi 0) :=
  continuousOn_const.div (hp.continuousOn.mul hE) fun a ha => mul_ne_zero (hpne a ha) (hne a ha)

/-- **C91**, factors.  Each of the seven classes gives kicks and drifts that agree with the equations of motion for short intervals: the derivative of
the factor by the end of the interval is `1 / (a² E)` and `1 / (a³ E)`. -/
theorem C91_factors (pt : Growth) (hpt : pt.OK) (a : ℝ) (ha : 0 < a) : ∀ fac ∈ nbFactors pt,
    HasDerivAt (fun af => fac.K a af a) (1 / (a ^ 2 * pt.E a)) a ∧ HasDerivAt (fun af => fac.D a af a) (1 / (a ^ 3 * pt.E a)) a := by
  have hE := hpt.E_ne a ha
  have ha' := ha.ne'
  have q2 : HasDerivAt (fun af => kickQuad pt a af a) (1 / (a ^ 2 * pt.E a)) a := by
    refine (ftc (inv_cont hpt.E_cont hpt.E_ne (p := fun a => a * a) (by fun_prop) fun x hx => (mul_pos hx hx).ne') ha ha).congr_deriv ?_
    norm_num
    left
    ring
  have q3 : HasDerivAt (fun af => driftQuad pt a af a) (1 / (a ^ 3 * pt.E a)) a := by
    refine (ftc (inv_cont hpt.E_cont hpt.E_ne (p := fun a => a * a * a) (by fun_prop) fun x hx => (mul_pos (mul_pos hx hx) hx).ne') ha ha).congr_deriv ?_
    norm_num
    left
    ring
  have q1 : HasDerivAt (fun af => ∫ x in a..af, 1.0 / (x * pt.E x)) (1 / (a * pt.E a)) a := by
    refine (ftc (inv_cont hpt.E_cont hpt.E_ne (p := fun a => a) (by fun_prop) fun x hx => hx.ne') ha ha).congr_deriv ?_
    norm_num
  have f2 : HasDerivAt (fun af => kickFast pt a af a) (1 / (a ^ 2 * pt.E a)) a := by
    refine ((((hpt.Gf a ha).sub_const (pt.Gf a)).const_mul (1 / (a ^ 2 * pt.E a))).div_const (pt.gf a)).congr_deriv ?_
    field_simp [hpt.gf_ne a ha]
  have f3 : HasDerivAt (fun af => driftFast pt a af a) (1 / (a ^ 3 * pt.E a)) a := by
    refine ((((hpt.Gp a ha).sub_const (pt.Gp a)).const_mul (1 / (a ^ 3 * pt.E a))).div_const (pt.gp a)).congr_deriv ?_
    field_simp [hpt.gp_ne a ha]
  intro fac h
  simp only [nbFactors, List.mem_cons, List.not_mem_nil, or_false] at h
  rcases h with rfl | rfl | rfl | rfl | rfl | rfl | rfl
  · exact ⟨f2, f3⟩
  · exact ⟨q2, f3⟩
  · exact ⟨f2, q3⟩
  · exact ⟨q2, q3⟩
  · refine ⟨q2, (q1.const_mul (a⁻¹ ^ 2)).congr_deriv ?_⟩
    field_simp
  · refine ⟨(q1.const_mul a⁻¹).congr_deriv ?_, q3⟩
    field_simp
  · constructor
    · refine (((hasDerivAt_id a).sub_const a).const_mul _).congr_deriv ?_
      norm_num
      left
      ring
    · refine (((hasDerivAt_id a).sub_const a).const_mul _).congr_deriv ?_
      norm_num
      left
      ring

/-! ## The growing mode -/

/-- All times of a statement are positive. -/
def NbOp.Pos : NbOp → Prop
  | .force => True
  | .kick ai af ar => 0 < ai ∧ 0 < af ∧ 0 < ar
  | .drift ai af ar => 0 < ai ∧ 0 < af ∧ 0 < ar

theorem grow_run {pt : Growth} {D1 f1 : ℝ → ℝ} {om : ℝ} (h : pt.Linear D1 f1 om) (q dx : List ℝ) : ∀ (l : List NbOp), (∀ op ∈ l, op.Pos) →
    ∀ (x v : ℝ) (f : Option ℝ) (xe ve : ℝ), Clocked l x v f xe ve → ∀ b : NBody, b.q = q → b.s = dx.map (· * D1 x) →
      b.v = (dx.map (· * D1 v)).map (fun y => y * v ^ 2 * f1 v * pt.E v) → 0 < v → 0 < x →
      (∀ t, f = some t → b.f = (dx.map (· * D1 t)).map (1.5 * om * ·)) →
      let b' := b.runWith (fastPM pt) (fun s => s.map (1.5 * om * ·)) l
      b'.q = q ∧ b'.s = dx.map (· * D1 xe) ∧ b'.v = (dx.map (· * D1 ve)).map fun y => y * ve ^ 2 * f1 ve * pt.E ve := by
  intro l
  induction l with
  | nil =>
    intro _ x v f xe ve hc b hq hs hv _ _ _
    obtain ⟨rfl, rfl⟩ := hc
    exact ⟨hq, hs, hv⟩
  | cons op l ih =>
    intro hpos x v f xe ve hc b hq hs hv hv0 hx0 hf
    have hl : ∀ op ∈ l, op.Pos := fun o ho => hpos o (List.mem_cons_of_mem _ ho)
    cases op with
    | force =>
      refine ih hl x v (some x) xe ve hc _ hq hs hv hv0 hx0 ?_
      intro t ht
      obtain rfl : x = t := by simpa using ht
      exact congrArg (List.map _) hs
    | kick ai af ar =>
      obtain ⟨rfl, hr, hc⟩ := hc
      obtain ⟨h1, h2, h3⟩ : 0 < ai ∧ 0 < af ∧ 0 < ar := hpos _ List.mem_cons_self
      refine ih hl x af f xe ve hc _ hq hs ?_ h2 hx0 hf
      show List.zipWith _ b.v b.f = _
      rw [hv, hf ar hr]
      simp only [List.map_map, List.zipWith_map, List.zipWith_self]
      refine List.map_congr_left fun y _ => ?_
      have e1 := h.Gf ai h1
      have e2 := h.Gf af h2
      have e3 := h.gf ar h3
      have hn := h.gf_ne ar h3
      have hE := h.E_ne ar h3
      have : 1.5 * om * D1 ar = pt.gf ar * (ar ^ 2 * pt.E ar) := by rw [e3]; field_simp
      simp only [Function.comp, fastPM, kickFast]
      have key : 1.5 * om * (y * D1 ar) * (1 / (ar ^ 2 * pt.E ar) * (pt.Gf af - pt.Gf ai) / pt.gf ar) = y * (pt.Gf af - pt.Gf ai) := by
        rw [show 1.5 * om * (y * D1 ar) = y * (1.5 * om * D1 ar) by ring, this]
        field_simp
      rw [key, e1, e2]
      ring
    | drift ai af ar =>
      obtain ⟨rfl, rfl, hc⟩ := hc
      obtain ⟨h1, h2, h3⟩ : 0 < ai ∧ 0 < af ∧ 0 < ar := hpos _ List.mem_cons_self
      refine ih hl af ar f xe ve hc _ hq ?_ hv hv0 h2 hf
      show List.zipWith _ b.s b.v = _
      rw [hs, hv]
      simp only [List.map_map, List.zipWith_map, List.zipWith_self]
      refine List.map_congr_left fun y _ => ?_
      have e1 := h.Gp ai h1
      have e2 := h.Gp af h2
      have e3 := h.gp ar h3
      have hn := h.gp_ne ar h3
      have hE := h.E_ne ar h3
      have : D1 ar * f1 ar = pt.gp ar * ar := by rw [e3]; field_simp
      simp only [Function.comp, fastPM, driftFast]
      have key : y * D1 ar * ar ^ 2 * f1 ar * pt.E ar * (1 / (ar ^ 3 * pt.E ar) * (pt.Gp af - pt.Gp ai) / pt.gp ar) = y * (pt.Gp af - pt.Gp ai) := by
        rw [show y * D1 ar * ar ^ 2 * f1 ar * pt.E ar = y * ar ^ 2 * pt.E ar * (D1 ar * f1 ar) by ring, this]
        field_simp
      rw [key, e1, e2]
      ring

theorem scheme_pos (scheme : List ℝ → List NbOp) (hscheme : scheme ∈ nbSchemes) (times : List ℝ) (ht : ∀ t ∈ times, 0 < t) :
    ∀ op ∈ scheme times, op.Pos := by
  have hp : ∀ p ∈ stepPairs times, 0 < p.1 ∧ 0 < p.2 := by
    intro p hp
    have := List.of_mem_zip (show (p.1, p.2) ∈ times.zip times.tail from hp)
    exact ⟨ht _ this.1, ht _ (List.mem_of_mem_tail this.2)⟩
  simp only [nbSchemes, List.mem_cons, List.not_mem_nil, or_false] at hscheme
  intro op hop
  rcases hscheme with rfl | rfl | rfl
  all_goals
    simp only [symp1, symp2, symp3, List.mem_cons, List.mem_flatMap, List.not_mem_nil, or_false] at hop
    rcases hop with rfl | ⟨p, hm, hop⟩
    · trivial
    obtain ⟨h1, h2⟩ := hp p hm
  · rcases hop with rfl | rfl | rfl | rfl <;> simp [NbOp.Pos, h1, h2]
  · have := Real.sqrt_pos.2 (mul_pos h1 h2)
    rcases hop with rfl | rfl | rfl | rfl <;> simp [NbOp.Pos, h1, h2]
  · rcases hop with rfl | rfl | rfl | rfl | rfl | rfl | rfl | rfl | rfl <;> simp [NbOp.Pos, h1, h2, Real.exp_pos]

/-- **C91**, growing mode.  With the factors of class `FastPM` and the force of linear theory, `3/2 Ω S`, each scheme keeps the growing mode exactly,
for steps of any number and length: the displacements and velocities that `simulate` sets up at the first time become those that it would set up
at the last time. -/
theorem C91_growing (pt : Growth) (D1 f1 : ℝ → ℝ) (om : ℝ) (h : pt.Linear D1 f1 om) (scheme : List ℝ → List NbOp) (hscheme : scheme ∈ nbSchemes)
    (t0 : ℝ) (times : List ℝ) (ht : ∀ t ∈ t0 :: times, 0 < t) (q dx : List ℝ) (last : ℝ) (hlast : last = (t0 :: times).getLast (List.cons_ne_nil _ _)) :
    ((nbInit (D1 t0) t0 (f1 t0) (pt.E t0) q dx).runWith (fastPM pt) (fun s => s.map (1.5 * om * ·)) (scheme (t0 :: times))).state =
      (nbInit (D1 last) last (f1 last) (pt.E last) q dx).state := by
  have h0 := ht t0 List.mem_cons_self
  obtain ⟨e1, e2, e3⟩ := grow_run h q dx (scheme (t0 :: times)) (scheme_pos scheme hscheme _ ht) t0 t0 none _ _ (C87_clocks scheme hscheme t0 times)
    (nbInit (D1 t0) t0 (f1 t0) (pt.E t0) q dx) rfl rfl rfl h0 h0 (by simp)
  rw [← hlast] at e2 e3
  show (_, _, _) = _
  rw [e1, e2, e3]
  rfl

/-! ## The order of the schemes -/

theorem vecOf_ofFn {n : ℕ} (x : Fin n → ℝ) : vecOf n (List.ofFn x) = x := by
  funext i
  simp [vecOf]

theorem zipWith_ofFn {n : ℕ} (f : ℝ → ℝ → ℝ) (x y : Fin n → ℝ) : List.zipWith f (List.ofFn x) (List.ofFn y) = List.ofFn fun i => f (x i) (y i) := by
  apply List.ext_getElem
  · simp
  · intro i h1 h2
    simp

theorem run_force {n : ℕ} (fac : Factors) (F : (Fin n → ℝ) → Fin n → ℝ) (l : List NbOp) (q f : List ℝ) (x v : Fin n → ℝ) :
    NBody.runWith fac (forceOf F) (.force :: l) ⟨q, List.ofFn x, List.ofFn v, f⟩ =
      NBody.runWith fac (forceOf F) l ⟨q, List.ofFn x, List.ofFn v, List.ofFn (F x)⟩ := by
  rw [NBody.runWith]
  simp only [forceOf, vecOf_ofFn]

theorem run_kick {n : ℕ} (fac : Factors) (Φ : List ℝ → List ℝ) (l : List NbOp) (q : List ℝ) (x v f : Fin n → ℝ) (ai af ar : ℝ) :
    NBody.runWith fac Φ (.kick ai af ar :: l) ⟨q, List.ofFn x, List.ofFn v, List.ofFn f⟩ =
      NBody.runWith fac Φ l ⟨q, List.ofFn x, List.ofFn (v + fac.K ai af ar • f), List.ofFn f⟩ := by
  rw [NBody.runWith]
  simp only [NBody.kick, zipWith_ofFn]
  congr 3
  funext i
  simp [mul_comm]

theorem run_drift {n : ℕ} (fac : Factors) (Φ : List ℝ → List ℝ) (l : List NbOp) (q f : List ℝ) (x v : Fin n → ℝ) (ai af ar : ℝ) :
    NBody.runWith fac Φ (.drift ai af ar :: l) ⟨q, List.ofFn x, List.ofFn v, f⟩ =
      NBody.runWith fac Φ l ⟨q, List.ofFn (x + fac.D ai af ar • v), List.ofFn v, f⟩ := by
  rw [NBody.runWith]
  simp only [NBody.drift, zipWith_ofFn]
  congr 3
  funext i
  simp [mul_comm]

/-- An integral of a factor as a difference of a function of `log (a / a0)`. -/
theorem span_eq {g : ℝ → ℝ} (hg : ContinuousOn g (Set.Ioi 0)) {a0 : ℝ} (h0 : 0 < a0) (s t : ℝ) :
    (∫ a in a0 * Real.exp s..a0 * Real.exp t, g a) = (∫ a in a0..a0 * Real.exp t, g a) - ∫ a in a0..a0 * Real.exp s, g a := by
  have hi : ∀ {x y : ℝ}, 0 < x → 0 < y → IntervalIntegrable g MeasureTheory.volume x y := fun hx hy =>
    (hg.mono fun z hz => lt_of_lt_of_le (lt_min hx hy) hz.1).intervalIntegrable
  rw [intervalIntegral.integral_interval_sub_left (hi h0 (mul_pos h0 (Real.exp_pos _))) (hi h0 (mul_pos h0 (Real.exp_pos _)))]

theorem exp_path (a0 t : ℝ) : HasDerivAt (fun t => a0 * Real.exp t) (a0 * Real.exp t) t := (Real.hasDerivAt_exp t).const_mul a0

theorem exp_path_tendsto (a0 : ℝ) : Tendsto (fun t => a0 * Real.exp t) (𝓝 0) (𝓝 a0) := by
  have : Continuous fun t : ℝ => a0 * Real.exp t := by fun_prop
  simpa using this.tendsto 0

/-- **C91**, order.  One step of `symp1`, `symp2`, `symp3` with the factors of class `Quinn`, from `a0` to `a0 exp(t)`, differs from the exact motion
by less than the first, second, third power of `t = log a`, for every force that is a twice continuously differentiable function of the
displacements (of all particles together). -/
theorem C91_order (pt : Growth) (hE : ContinuousOn pt.E (Set.Ioi 0)) (hne : ∀ a > 0, pt.E a ≠ 0) (a0 : ℝ) (h0 : 0 < a0) (hsm : ContDiffAt ℝ 2 pt.E a0)
    {n : ℕ} (F : (Fin n → ℝ) → Fin n → ℝ) (S V : ℝ → Fin n → ℝ) (hm : Moves pt.E F a0 S V) (hF : ContDiffAt ℝ 2 F (S a0))
    (order : ℕ) (scheme : List ℝ → List NbOp) (hs : (order, scheme) ∈ [(1, symp1), (2, symp2), (3, symp3)]) (q : List ℝ) (b : ℝ → NBody)
    (hb : ∀ t, b t = NBody.runWith (quinn pt) (forceOf F) (scheme [a0, a0 * Real.exp t]) ⟨q, List.ofFn (S a0), List.ofFn (V a0), []⟩) :
    (fun t => vecOf n (b t).s - S (a0 * Real.exp t)) =o[𝓝 0] (fun t : ℝ => t ^ order) ∧
    (fun t => vecOf n (b t).v - V (a0 * Real.exp t)) =o[𝓝 0] fun t : ℝ => t ^ order := by
  have hexp : ∀ t : ℝ, 0 < a0 * Real.exp t := fun t => mul_pos h0 (Real.exp_pos t)
  have c2 := inv_cont hE hne (p := fun a => a * a) (by fun_prop) fun x hx => (mul_pos hx hx).ne'
  have c3 := inv_cont hE hne (p := fun a => a * a * a) (by fun_prop) fun x hx => (mul_pos (mul_pos hx hx) hx).ne'
  obtain ⟨P, hP⟩ : ∃ P : ℝ → ℝ, P = fun t => ∫ a in a0..a0 * Real.exp t, 1.0 / (a * a * a * pt.E a) := ⟨_, rfl⟩
  obtain ⟨Q, hQ⟩ : ∃ Q : ℝ → ℝ, Q = fun t => ∫ a in a0..a0 * Real.exp t, 1.0 / (a * a * pt.E a) := ⟨_, rfl⟩
  obtain ⟨α, hα⟩ : ∃ α : ℝ → ℝ, α = fun t => (a0 * Real.exp t) * (1 / ((a0 * Real.exp t) ^ 3 * pt.E (a0 * Real.exp t))) := ⟨_, rfl⟩
  obtain ⟨β, hβ⟩ : ∃ β : ℝ → ℝ, β = fun t => (a0 * Real.exp t) * (1 / ((a0 * Real.exp t) ^ 2 * pt.E (a0 * Real.exp t))) := ⟨_, rfl⟩
  have dP : ∀ t, HasDerivAt P (α t) t := fun t => by
    rw [hP, hα]
    refine ((ftc c3 h0 (hexp t)).comp t (exp_path a0 t)).congr_deriv ?_
    norm_num
    ring
  have dQ : ∀ t, HasDerivAt Q (β t) t := fun t => by
    rw [hQ, hβ]
    refine ((ftc c2 h0 (hexp t)).comp t (exp_path a0 t)).congr_deriv ?_
    norm_num
    ring
  have hEc : ContDiffAt ℝ 2 (fun t => pt.E (a0 * Real.exp t)) 0 := by
    have : ContDiffAt ℝ 2 pt.E (a0 * Real.exp 0) := by simpa using hsm
    exact this.comp (0 : ℝ) (f := fun t : ℝ => a0 * Real.exp t) (by fun_prop)
  have smooth : ∀ k : ℕ, ContDiffAt ℝ 2 (fun t => (a0 * Real.exp t) * (1 / ((a0 * Real.exp t) ^ k * pt.E (a0 * Real.exp t)))) 0 := fun k => by
    refine ContDiffAt.mul (by fun_prop) (contDiffAt_const.div (ContDiffAt.mul (by fun_prop) hEc) ?_)
    exact mul_ne_zero (pow_ne_zero _ (hexp 0).ne') (hne _ (hexp 0))
  obtain ⟨α0, α1, α2, eα⟩ := ContDiffAt.near2 (hα ▸ smooth 3 : ContDiffAt ℝ 2 α 0)
  obtain ⟨β0, β1, β2, eβ⟩ := ContDiffAt.near2 (hβ ▸ smooth 2 : ContDiffAt ℝ 2 β 0)
  have eα : V2 α α0 α1 α2 := eα
  have eβ : V2 β β0 β1 β2 := eβ
  obtain ⟨x, hx⟩ : ∃ x : ℝ → Fin n → ℝ, x = fun t => S (a0 * Real.exp t) := ⟨_, rfl⟩
  obtain ⟨v, hv⟩ : ∃ v : ℝ → Fin n → ℝ, v = fun t => V (a0 * Real.exp t) := ⟨_, rfl⟩
  have x0 : x 0 = S a0 := by rw [hx]; simp
  have v0 : v 0 = V a0 := by rw [hv]; simp
  have hmot : Motion F α β x v := by
    constructor
    · filter_upwards [(exp_path_tendsto a0).eventually hm.dS] with t ht
      rw [hx, hα, hv]
      exact (ht.scomp t (exp_path a0 t)).congr_deriv (by module)
    · filter_upwards [(exp_path_tendsto a0).eventually hm.dV] with t ht
      rw [hx, hβ, hv]
      exact (ht.scomp t (exp_path a0 t)).congr_deriv (by module)
  obtain ⟨B, C, hT⟩ := ContDiffAt.taylor2 (x0.symm ▸ hF : ContDiffAt ℝ 2 F (x 0))
  have kick : ∀ s t r, (quinn pt).K (a0 * Real.exp s) (a0 * Real.exp t) r = Q t - Q s := fun s t r => by
    rw [hQ]; exact span_eq c2 h0 s t
  have drift : ∀ s t r, (quinn pt).D (a0 * Real.exp s) (a0 * Real.exp t) r = P t - P s := fun s t r => by
    rw [hP]; exact span_eq c3 h0 s t
  have kick0 : ∀ t r, (quinn pt).K a0 (a0 * Real.exp t) r = Q t - Q 0 := fun t r => by
    have := kick 0 t r
    rwa [Real.exp_zero, mul_one] at this
  have drift0 : ∀ t r, (quinn pt).D a0 (a0 * Real.exp t) r = P t - P 0 := fun t r => by
    have := drift 0 t r
    rwa [Real.exp_zero, mul_one] at this
  have fin : ∀ {x1 v1 : ℝ → Fin n → ℝ} {k : ℕ}, (∀ t, ∃ f, b t = ⟨q, List.ofFn (x1 t), List.ofFn (v1 t), f⟩) →
      (fun t => x1 t - x t) =o[𝓝 0] (fun t : ℝ => t ^ k) ∧ (fun t => v1 t - v t) =o[𝓝 0] (fun t : ℝ => t ^ k) →
      (fun t => vecOf n (b t).s - S (a0 * Real.exp t)) =o[𝓝 0] (fun t : ℝ => t ^ k) ∧
      (fun t => vecOf n (b t).v - V (a0 * Real.exp t)) =o[𝓝 0] fun t : ℝ => t ^ k := by
    intro x1 v1 k e h
    refine ⟨h.1.congr_left fun t => ?_, h.2.congr_left fun t => ?_⟩
    · obtain ⟨f, e⟩ := e t
      rw [e, vecOf_ofFn, hx]
    · obtain ⟨f, e⟩ := e t
      rw [e, vecOf_ofFn, hv]
  simp only [List.mem_cons, Prod.mk.injEq, List.not_mem_nil, or_false] at hs
  rcases hs with ⟨rfl, rfl⟩ | ⟨rfl, rfl⟩ | ⟨rfl, rfl⟩
  · refine fin (fun t => ?_) (order1 hmot hT (Eventually.of_forall dP) (Eventually.of_forall dQ) eα.to1.to0 eβ.to1.to0
      (fun t => rfl) fun t => rfl)
    rw [hb, symp1, stepPairs, List.tail_cons, List.zip_cons_cons, List.zip_nil_right]
    simp only [List.flatMap_cons, List.flatMap_nil, List.append_nil]
    rw [run_force, run_force, run_kick, run_drift, run_force, NBody.runWith, kick0, drift0, x0, v0]
    exact ⟨_, rfl⟩
  · have half : ∀ t : ℝ, Real.sqrt (a0 * (a0 * Real.exp t)) = a0 * Real.exp (1 / 2 * t) := fun t => by
      rw [show a0 * (a0 * Real.exp t) = (a0 * Real.exp (1 / 2 * t)) ^ 2 by rw [mul_pow, ← Real.exp_nat_mul]; push_cast; ring_nf,
        Real.sqrt_sq (hexp _).le]
    refine fin (fun t => ?_) (order2 hmot hT (Eventually.of_forall dP) (Eventually.of_forall dQ) eα.to1 eβ.to1
      (fun t => rfl) (fun t => rfl) fun t => rfl)
    rw [hb, symp2, stepPairs, List.tail_cons, List.zip_cons_cons, List.zip_nil_right]
    simp only [List.flatMap_cons, List.flatMap_nil, List.append_nil, half]
    rw [run_force, run_kick, run_drift, run_force, run_kick, NBody.runWith, kick0, drift0, kick, x0, v0]
    exact ⟨_, rfl⟩
  · have hlog : ∀ t : ℝ, Real.log (a0 * Real.exp t) - Real.log a0 = t := fun t => by
      rw [Real.log_mul h0.ne' (Real.exp_pos t).ne', Real.log_exp]; ring
    have e1 : ∀ t : ℝ, a0 * Real.exp t * Real.exp (-2.0 / 3.0 * t) = a0 * Real.exp (1 / 3 * t) := fun t => by
      rw [mul_assoc, ← Real.exp_add]; congr 2; norm_num; ring
    have e2 : ∀ t : ℝ, a0 * Real.exp (-1 / 24 * t) * Real.exp (3 / 4 * t) = a0 * Real.exp (17 / 24 * t) := fun t => by
      rw [mul_assoc, ← Real.exp_add]; congr 2; ring
    refine fin (fun t => ?_) (order3 hmot hT (Eventually.of_forall dP) (Eventually.of_forall dQ) eα eβ
      (fun t => rfl) (fun t => rfl) (fun t => rfl) (fun t => rfl) (fun t => rfl) fun t => rfl)
    rw [hb, symp3, stepPairs, List.tail_cons, List.zip_cons_cons, List.zip_nil_right]
    simp only [List.flatMap_cons, List.flatMap_nil, List.append_nil, hlog, e1, e2]
    rw [run_force, run_drift, run_force, run_kick, run_drift, run_force, run_kick, run_drift, run_force, run_kick, NBody.runWith,
      drift0, kick0, drift, kick, drift, kick, x0, v0]
    exact ⟨_, rfl⟩

/-! ## Non-vacuity: a universe of matter (Einstein-de Sitter) -/

/-- `E = a^(-3/2)`, `D1 = a`. -/
noncomputable def exEdS : Growth := ⟨fun a => 1 / (a * Real.sqrt a), fun a => a * Real.sqrt a, fun a => 1.5 * Real.sqrt a, fun a => a, fun _ => 1⟩

theorem sqrt_growth {a : ℝ} (ha : 0 < a) : HasDerivAt (fun a => a * Real.sqrt a) (1.5 * Real.sqrt a) a := by
  have hs := Real.sqrt_pos.2 ha
  refine ((hasDerivAt_id a).mul (Real.hasDerivAt_sqrt ha.ne')).congr_deriv ?_
  have : a = Real.sqrt a * Real.sqrt a := (Real.mul_self_sqrt ha.le).symm
  simp only [id_eq]
  field_simp
  rw [show Real.sqrt a ^ 2 = a from Real.sq_sqrt ha.le]
  norm_num
  ring

theorem exEdS_ne : ∀ a > 0, exEdS.E a ≠ 0 := fun _ ha => (one_div_pos.2 (mul_pos ha (Real.sqrt_pos.2 ha))).ne'

theorem exEdS_ok : exEdS.OK where
  E_cont := continuousOn_const.div (by fun_prop) fun a ha => (mul_pos ha (Real.sqrt_pos.2 ha)).ne'
  E_ne := exEdS_ne
  Gf := fun _ ha => sqrt_growth ha
  gf_ne := fun _ ha => (mul_pos (by norm_num) (Real.sqrt_pos.2 ha)).ne'
  Gp := fun a _ => hasDerivAt_id a
  gp_ne := fun _ _ => one_ne_zero

theorem exEdS_linear : exEdS.Linear (fun a => a) (fun _ => 1) 1 where
  E_ne := exEdS_ne
  Gp := fun _ _ => rfl
  gp := fun a ha => by simp [exEdS, ha.ne']
  gp_ne := exEdS_ok.gp_ne
  Gf := fun a ha => by
    have hs := Real.sqrt_pos.2 ha
    simp only [exEdS]
    field_simp
    exact Real.sq_sqrt ha.le
  gf := fun a ha => by
    have hs := Real.sqrt_pos.2 ha
    simp only [exEdS]
    field_simp
  gf_ne := exEdS_ok.gf_ne

example := C91_factors exEdS exEdS_ok (1 / 2) (by norm_num)

example := C91_growing exEdS _ _ 1 exEdS_linear symp3 (by simp [nbSchemes]) (1 / 10) [1 / 5, 1 / 2, 1] (by norm_num) [1, 2, 3] [1 / 10, 0, 1 / 7] 1 (by simp)

theorem exEdS_moves : Moves (n := 2) exEdS.E (fun x => (3 / 2 : ℝ) • x) 1 (fun a _ => a) (fun a _ => a * Real.sqrt a) where
  dS := by
    filter_upwards [lt_mem_nhds one_pos] with a ha
    have hs := Real.sqrt_pos.2 ha
    rw [hasDerivAt_pi]
    intro i
    refine (hasDerivAt_id a).congr_deriv ?_
    simp only [exEdS, Pi.smul_apply, smul_eq_mul]
    field_simp
    exact (Real.sq_sqrt ha.le).symm
  dV := by
    filter_upwards [lt_mem_nhds one_pos] with a ha
    have hs := Real.sqrt_pos.2 ha
    rw [hasDerivAt_pi]
    intro i
    refine (sqrt_growth ha).congr_deriv ?_
    simp only [exEdS, Pi.smul_apply, smul_eq_mul]
    field_simp
    norm_num

example (b : ℝ → NBody) (hb) := C91_order exEdS exEdS_ok.E_cont exEdS_ne 1 one_pos
  (contDiffAt_const.div (contDiffAt_id.mul (Real.contDiffAt_sqrt one_ne_zero)) (by simp))
  (fun x => (3 / 2 : ℝ) • x) _ _ exEdS_moves (by fun_prop) 3 symp3 (by simp) [5, 6] b hb

#print axioms C91_factors
#print axioms C91_growing
#print axioms C91_order

end Pmesh
