import Verif.Spec.Converge
import Verif.Lemmas.Liouville
import Mathlib.Analysis.Calculus.MeanValue
import Mathlib.MeasureTheory.Integral.IntervalIntegral.FundThmCalculus
import Mathlib.Analysis.SpecialFunctions.ExpDeriv

/-! # Convergence of splitting schemes for a bounded Lipschitz force -/

namespace Pmesh

variable {X : Type*} [NormedAddCommGroup X] [NormedSpace ℝ X]

/-- The sum of the absolute factors. -/
def absSum (fac : Factors) (l : List NbOp) : ℝ := (l.map fun op => |fac.kickOf op| + |fac.driftOf op|).sum

/-- What holds after some statements of a step that began at `S0`, `V0`. -/
structure StepNear (F : X → X) (L M B : ℝ) (S0 V0 : X) (k d σ : ℝ) (p : X × X × X) : Prop where
  f_le : ‖p.2.2‖ ≤ M
  v : ‖p.2.1 - V0‖ ≤ σ * M
  s : ‖p.1 - S0‖ ≤ σ * (B + σ * M)
  f : ‖p.2.2 - F S0‖ ≤ L * (σ * (B + σ * M))
  s2 : ‖p.1 - S0 - d • V0‖ ≤ σ ^ 2 * M
  v2 : ‖p.2.1 - V0 - k • F S0‖ ≤ σ * (L * (σ * (B + σ * M)))

theorem near_run (fac : Factors) {F : X → X} {L M B : ℝ} (hL0 : 0 ≤ L) (hM0 : 0 ≤ M) (hB : 0 ≤ B) (hM : ∀ x, ‖F x‖ ≤ M) (hL : ∀ x y, ‖F x - F y‖ ≤ L * ‖x - y‖)
    {S0 V0 : X} (hV : ‖V0‖ ≤ B) : ∀ (l : List NbOp) (p : X × X × X) (k d σ : ℝ), 0 ≤ σ → StepNear F L M B S0 V0 k d σ p →
    StepNear F L M B S0 V0 (k + (l.map fac.kickOf).sum) (d + (l.map fac.driftOf).sum) (σ + absSum fac l) (phaseRun fac F l p)
  | [], p, k, d, σ, _, h => by simpa [absSum, phaseRun] using h
  | op :: l, p, k, d, σ, hσ, h => by
    have key : StepNear F L M B S0 V0 (k + fac.kickOf op) (d + fac.driftOf op) (σ + (|fac.kickOf op| + |fac.driftOf op|)) (phaseStep fac F op p) := by
      obtain ⟨h1, h2, h3, h4, h5, h6⟩ := h
      cases op with
      | force =>
        simp only [Factors.kickOf, Factors.driftOf, abs_zero, add_zero, phaseStep]
        exact ⟨hM _, h2, h3, (hL _ _).trans (mul_le_mul_of_nonneg_left h3 hL0), h5, h6⟩
      | kick ai af ar =>
        simp only [Factors.kickOf, Factors.driftOf, abs_zero, add_zero, phaseStep]
        obtain ⟨c, hc⟩ : ∃ c, c = fac.K ai af ar := ⟨_, rfl⟩
        rw [← hc]
        have hc0 := abs_nonneg c
        have mono : σ * (B + σ * M) ≤ (σ + |c|) * (B + (σ + |c|) * M) := by
          have : 0 ≤ |c| * M := by positivity
          have h7 : 0 ≤ |c| * (B + (σ + |c|) * M) := by positivity
          nlinarith [mul_nonneg hσ this]
        refine ⟨h1, ?_, h3.trans mono, h4.trans (mul_le_mul_of_nonneg_left mono hL0), ?_, ?_⟩
        · rw [show p.2.1 + c • p.2.2 - V0 = (p.2.1 - V0) + c • p.2.2 by abel]
          refine (norm_add_le _ _).trans ?_
          rw [norm_smul, Real.norm_eq_abs, add_mul]
          exact add_le_add h2 (mul_le_mul_of_nonneg_left h1 hc0)
        · refine h5.trans (mul_le_mul_of_nonneg_right ?_ hM0)
          nlinarith
        · rw [show p.2.1 + c • p.2.2 - V0 - (k + c) • F S0 = (p.2.1 - V0 - k • F S0) + c • (p.2.2 - F S0) by rw [add_smul, smul_sub]; abel]
          refine (norm_add_le _ _).trans ?_
          rw [norm_smul, Real.norm_eq_abs, add_mul]
          have m2 := mul_le_mul_of_nonneg_left mono hL0
          exact add_le_add (h6.trans (mul_le_mul_of_nonneg_left m2 hσ)) (mul_le_mul_of_nonneg_left (h4.trans m2) hc0)
      | drift ai af ar =>
        simp only [Factors.kickOf, Factors.driftOf, abs_zero, add_zero, zero_add, phaseStep]
        obtain ⟨c, hc⟩ : ∃ c, c = fac.D ai af ar := ⟨_, rfl⟩
        rw [← hc]
        have hc0 := abs_nonneg c
        have hcM : 0 ≤ |c| * M := by positivity
        have mono : σ * (B + σ * M) ≤ (σ + |c|) * (B + (σ + |c|) * M) := by
          have h7 : 0 ≤ |c| * (B + (σ + |c|) * M) := by positivity
          nlinarith [mul_nonneg hσ hcM]
        have hv : ‖p.2.1‖ ≤ B + σ * M := by
          calc ‖p.2.1‖ = ‖V0 + (p.2.1 - V0)‖ := by congr 1; abel
            _ ≤ ‖V0‖ + ‖p.2.1 - V0‖ := norm_add_le _ _
            _ ≤ _ := add_le_add hV h2
        refine ⟨h1, ?_, ?_, h4.trans (mul_le_mul_of_nonneg_left mono hL0), ?_, ?_⟩
        · nlinarith
        · rw [show p.1 + c • p.2.1 - S0 = (p.1 - S0) + c • p.2.1 by abel]
          refine (norm_add_le _ _).trans ?_
          rw [norm_smul, Real.norm_eq_abs]
          have := mul_le_mul_of_nonneg_left hv hc0
          nlinarith [mul_nonneg (add_nonneg hσ hc0) hcM]
        · rw [show p.1 + c • p.2.1 - S0 - (d + c) • V0 = (p.1 - S0 - d • V0) + c • (p.2.1 - V0) by rw [add_smul, smul_sub]; abel]
          refine (norm_add_le _ _).trans ?_
          rw [norm_smul, Real.norm_eq_abs]
          have := mul_le_mul_of_nonneg_left h2 hc0
          nlinarith [mul_nonneg hσ hcM, mul_nonneg hc0 hcM]
        · have m2 := mul_le_mul_of_nonneg_left mono hL0
          have : 0 ≤ L * ((σ + |c|) * (B + (σ + |c|) * M)) := by positivity
          exact h6.trans ((mul_le_mul_of_nonneg_left m2 hσ).trans (mul_le_mul_of_nonneg_right (by linarith) this))
    have := near_run fac hL0 hM0 hB hM hL hV l _ _ _ _ (by positivity) key
    simpa [absSum, phaseRun, add_assoc, add_left_comm, add_comm] using this

/-- The integrals of the equations of motion. -/
noncomputable def kickExact (E : ℝ → ℝ) (x y : ℝ) : ℝ := ∫ a in x..y, 1 / (a ^ 2 * E a)
noncomputable def driftExact (E : ℝ → ℝ) (x y : ℝ) : ℝ := ∫ a in x..y, 1 / (a ^ 3 * E a)

/-- A second order bound for `f' = c(t) g(t)`. -/
theorem exact_near {f g : ℝ → X} {c : ℝ → ℝ} (hc : ContinuousOn c (Set.Ioi 0)) {x y κ G : ℝ} (hx : 0 < x) (hxy : x ≤ y) (hκ0 : 0 ≤ κ)
    (hκ : ∀ t ∈ Set.Icc x y, |c t| ≤ κ)
    (hf : ∀ t ∈ Set.Icc x y, HasDerivWithinAt f (c t • g t) (Set.Icc x y) t) (hg : ∀ t ∈ Set.Icc x y, ‖g t - g x‖ ≤ G) :
    ‖f y - f x - (∫ t in x..y, c t) • g x‖ ≤ κ * G * (y - x) := by
  have hd : ∀ t ∈ Set.Icc x y, HasDerivWithinAt (fun t => f t - (∫ u in x..t, c u) • g x) (c t • g t - c t • g x) (Set.Icc x y) t := by
    intro t ht
    have h0 : 0 < t := hx.trans_le ht.1
    have hi : HasDerivAt (fun u => ∫ v in x..u, c v) (c t) t := by
      refine intervalIntegral.integral_hasDerivAt_right ?_ ?_ (hc.continuousAt (Ioi_mem_nhds h0))
      · exact (hc.mono fun z hz => lt_of_lt_of_le (lt_min hx h0) hz.1).intervalIntegrable
      · exact hc.stronglyMeasurableAtFilter isOpen_Ioi t h0
    exact (hf t ht).sub (hi.smul_const (g x)).hasDerivWithinAt
  have h := norm_image_sub_le_of_norm_deriv_le_segment' hd (C := κ * G) (fun t ht => by
    have ht' := Set.Ico_subset_Icc_self ht
    rw [← smul_sub, norm_smul, Real.norm_eq_abs]
    exact mul_le_mul (hκ t ht') (hg t ht') (norm_nonneg _) hκ0) y (Set.right_mem_Icc.2 hxy)
  simp only [intervalIntegral.integral_same, zero_smul, sub_zero] at h
  rwa [show f y - f x - (∫ t in x..y, c t) • g x = f y - (∫ t in x..y, c t) • g x - f x by abel]

/-- A step: its factors are small and add up to the integrals of the equations of motion but for a fraction `q`; at the end the force is that of the
displacements. -/
structure GoodStep (fac : Factors) (E : ℝ → ℝ) (A q x y : ℝ) (l : List NbOp) : Prop where
  small : absSum fac l ≤ A * (y - x)
  kick : |(l.map fac.kickOf).sum - kickExact E x y| ≤ q * (y - x)
  drift : |(l.map fac.driftOf).sum - driftExact E x y| ≤ q * (y - x)

/-- One step. -/
theorem step_error (fac : Factors) {E : ℝ → ℝ} (hE2 : ContinuousOn (fun a => 1 / (a ^ 2 * E a)) (Set.Ioi 0)) (hE3 : ContinuousOn (fun a => 1 / (a ^ 3 * E a)) (Set.Ioi 0))
    {F : X → X} {L M B κ A T q x y e : ℝ} (hL0 : 0 ≤ L) (hM0 : 0 ≤ M) (hB0 : 0 ≤ B) (hκ0 : 0 ≤ κ) (hA0 : 0 ≤ A)
    (hM : ∀ x, ‖F x‖ ≤ M) (hL : ∀ x y, ‖F x - F y‖ ≤ L * ‖x - y‖) (hx : 0 < x) (hxy : x ≤ y) (hT : y - x ≤ T)
    (hκ2 : ∀ t ∈ Set.Icc x y, |1 / (t ^ 2 * E t)| ≤ κ) (hκ3 : ∀ t ∈ Set.Icc x y, |1 / (t ^ 3 * E t)| ≤ κ) {S V : ℝ → X} (hmove : MovesOn E F x y S V)
    (hV : ∀ t ∈ Set.Icc x y, ‖V t‖ ≤ B) {l : List NbOp} (hl : GoodStep fac E A q x y l) {Sn Vn : X} (hVn : ‖Vn‖ ≤ B) (hS : ‖Sn - S x‖ ≤ e) (hVe : ‖Vn - V x‖ ≤ e) :
    let p := phaseRun fac F l (Sn, Vn, F Sn)
    let C := B + M + A ^ 2 * M + κ ^ 2 * M + L * A ^ 2 * (B + A * T * M) + κ ^ 2 * L * B
    ‖p.1 - S y‖ ≤ (1 + A * (1 + L) * (y - x)) * e + C * (y - x) * ((y - x) + q) ∧ ‖p.2.1 - V y‖ ≤ (1 + A * (1 + L) * (y - x)) * e + C * (y - x) * ((y - x) + q) ∧
      ‖p.2.1‖ ≤ ‖Vn‖ + A * M * (y - x) := by
  intro p C
  have hn := near_run fac hL0 hM0 hB0 hM hL hVn l (Sn, Vn, F Sn) 0 0 0 le_rfl (S0 := Sn) ⟨hM _, by simp, by simp, by simp, by simp, by simp⟩
  rw [zero_add, zero_add, zero_add] at hn
  change StepNear F L M B Sn Vn _ _ _ p at hn
  obtain ⟨h, hh⟩ : ∃ h, h = y - x := ⟨_, rfl⟩
  have hh0 : 0 ≤ h := by rw [hh]; linarith
  have hT0 : 0 ≤ T := hh0.trans (hh ▸ hT)
  have hσ := hl.small
  rw [← hh] at hσ hT ⊢
  have hσ0 : 0 ≤ absSum fac l := List.sum_nonneg (by
    intro z hz
    obtain ⟨op, -, rfl⟩ := List.mem_map.1 hz
    positivity)
  obtain ⟨σ, hσd⟩ : ∃ σ, σ = absSum fac l := ⟨_, rfl⟩
  rw [← hσd] at hn hσ hσ0
  have hkd : |(l.map fac.kickOf).sum| ≤ A * h ∧ |(l.map fac.driftOf).sum| ≤ A * h := by
    have key : ∀ (f : NbOp → ℝ) (_ : ∀ op, |f op| ≤ |fac.kickOf op| + |fac.driftOf op|) (l : List NbOp), |(l.map f).sum| ≤ absSum fac l := by
      intro f hf l
      induction l with
      | nil => simp [absSum]
      | cons op l ih =>
        simp only [absSum, List.map_cons, List.sum_cons] at ih ⊢
        exact (abs_add_le _ _).trans (add_le_add (hf op) ih)
    constructor
    · exact (key _ (fun op => by simp) l).trans (hσd ▸ hσ)
    · exact (key _ (fun op => by simp) l).trans (hσd ▸ hσ)
  have hyx := Set.right_mem_Icc.2 hxy
  have hxx := Set.left_mem_Icc.2 hxy
  have he0 : 0 ≤ e := (norm_nonneg _).trans hS
  -- the exact motion
  have hq0 : 0 ≤ q * h := by
    have := (abs_nonneg _).trans hl.kick
    rwa [← hh] at this
  have dV : ∀ t ∈ Set.Icc x y, ‖V t - V x‖ ≤ κ * M * h := by
    intro t ht
    have := norm_image_sub_le_of_norm_deriv_le_segment' hmove.dV (C := κ * M) (fun t ht => by
      rw [norm_smul, Real.norm_eq_abs]
      exact mul_le_mul (hκ2 t (Set.Ico_subset_Icc_self ht)) (hM _) (norm_nonneg _) hκ0) t ht
    refine this.trans (mul_le_mul_of_nonneg_left ?_ (by positivity))
    rw [hh]; linarith [ht.2]
  have dS : ∀ t ∈ Set.Icc x y, ‖S t - S x‖ ≤ κ * B * h := by
    intro t ht
    have := norm_image_sub_le_of_norm_deriv_le_segment' hmove.dS (C := κ * B) (fun t ht => by
      rw [norm_smul, Real.norm_eq_abs]
      exact mul_le_mul (hκ3 t (Set.Ico_subset_Icc_self ht)) (hV t (Set.Ico_subset_Icc_self ht)) (norm_nonneg _) hκ0) t ht
    refine this.trans (mul_le_mul_of_nonneg_left ?_ (by positivity))
    rw [hh]; linarith [ht.2]
  have xS := exact_near hE3 hx hxy hκ0 hκ3 hmove.dS dV
  have xV := exact_near (g := fun t => F (S t)) hE2 hx hxy hκ0 hκ2 hmove.dV (G := L * (κ * B * h)) fun t ht => (hL _ _).trans (mul_le_mul_of_nonneg_left (dS t ht) hL0)
  have hk := hl.kick
  have hd := hl.drift
  unfold kickExact at hk
  unfold driftExact at hd
  rw [← hh] at xS xV hk hd
  obtain ⟨ke, hke⟩ : ∃ ke, ke = ∫ t in x..y, 1 / (t ^ 2 * E t) := ⟨_, rfl⟩
  obtain ⟨de, hde⟩ : ∃ de, de = ∫ t in x..y, 1 / (t ^ 3 * E t) := ⟨_, rfl⟩
  obtain ⟨ks, hks⟩ : ∃ ks, ks = (l.map fac.kickOf).sum := ⟨_, rfl⟩
  obtain ⟨ds, hds⟩ : ∃ ds, ds = (l.map fac.driftOf).sum := ⟨_, rfl⟩
  rw [← hke] at xV
  rw [← hde] at xS
  rw [← hke, ← hks] at hk
  rw [← hde, ← hds] at hd
  rw [← hks, ← hds] at hn hkd
  obtain ⟨-, n1, -, -, n2, n3⟩ := hn
  have hAh : 0 ≤ A * h := by positivity
  have hσ2 : σ ^ 2 ≤ (A * h) ^ 2 := pow_le_pow_left₀ hσ0 hσ 2
  refine ⟨?_, ?_, ?_⟩
  · have hid : p.1 - S y = (Sn - S x) + ds • (Vn - V x) + (ds - de) • V x + (p.1 - Sn - ds • Vn) - (S y - S x - de • V x) := by
      rw [smul_sub, sub_smul]; abel
    rw [hid]
    calc _ ≤ ‖Sn - S x‖ + ‖ds • (Vn - V x)‖ + ‖(ds - de) • V x‖ + ‖p.1 - Sn - ds • Vn‖ + ‖S y - S x - de • V x‖ := by
          refine (norm_sub_le _ _).trans (add_le_add_left ?_ _)
          refine (norm_add_le _ _).trans (add_le_add_left ?_ _)
          refine (norm_add_le _ _).trans (add_le_add_left ?_ _)
          exact norm_add_le _ _
      _ ≤ e + A * h * e + q * h * B + (A * h) ^ 2 * M + κ * (κ * M * h) * h := by
          rw [norm_smul, norm_smul, Real.norm_eq_abs, Real.norm_eq_abs]
          refine add_le_add (add_le_add (add_le_add (add_le_add hS ?_) ?_) ?_) xS
          · exact mul_le_mul hkd.2 hVe (norm_nonneg _) hAh
          · exact mul_le_mul hd (hV x hxx) (norm_nonneg _) hq0
          · exact n2.trans (mul_le_mul_of_nonneg_right hσ2 hM0)
      _ ≤ _ := by
          have e1 : (1 + A * (1 + L) * h) * e + C * h * (h + q) - (e + A * h * e + q * h * B + (A * h) ^ 2 * M + κ * (κ * M * h) * h) =
            A * L * h * e + (M + A ^ 2 * M + κ ^ 2 * M + L * A ^ 2 * (B + A * T * M) + κ ^ 2 * L * B) * (q * h) +
              (B + M + L * A ^ 2 * (B + A * T * M) + κ ^ 2 * L * B) * h ^ 2 := by
            simp only [C]; ring
          have : 0 ≤ A * L * h * e + (M + A ^ 2 * M + κ ^ 2 * M + L * A ^ 2 * (B + A * T * M) + κ ^ 2 * L * B) * (q * h) +
              (B + M + L * A ^ 2 * (B + A * T * M) + κ ^ 2 * L * B) * h ^ 2 := by positivity
          linarith
  · have hid : p.2.1 - V y = (Vn - V x) + ks • (F Sn - F (S x)) + (ks - ke) • F (S x) + (p.2.1 - Vn - ks • F Sn) - (V y - V x - ke • F (S x)) := by
      rw [smul_sub, sub_smul]; abel
    rw [hid]
    calc _ ≤ ‖Vn - V x‖ + ‖ks • (F Sn - F (S x))‖ + ‖(ks - ke) • F (S x)‖ + ‖p.2.1 - Vn - ks • F Sn‖ + ‖V y - V x - ke • F (S x)‖ := by
          refine (norm_sub_le _ _).trans (add_le_add_left ?_ _)
          refine (norm_add_le _ _).trans (add_le_add_left ?_ _)
          refine (norm_add_le _ _).trans (add_le_add_left ?_ _)
          exact norm_add_le _ _
      _ ≤ e + A * h * (L * e) + q * h * M + A * h * (L * (A * h * (B + A * T * M))) + κ * (L * (κ * B * h)) * h := by
          rw [norm_smul, norm_smul, Real.norm_eq_abs, Real.norm_eq_abs]
          refine add_le_add (add_le_add (add_le_add (add_le_add hVe ?_) ?_) ?_) xV
          · exact mul_le_mul hkd.1 ((hL _ _).trans (mul_le_mul_of_nonneg_left hS hL0)) (norm_nonneg _) hAh
          · exact mul_le_mul hk (hM _) (norm_nonneg _) hq0
          · refine n3.trans ?_
            have i1 : σ * M ≤ A * T * M := mul_le_mul_of_nonneg_right (hσ.trans (mul_le_mul_of_nonneg_left hT hA0)) hM0
            have i2 : σ * (B + σ * M) ≤ A * h * (B + A * T * M) := mul_le_mul hσ (by linarith) (by positivity) hAh
            exact mul_le_mul hσ (mul_le_mul_of_nonneg_left i2 hL0) (by positivity) hAh
      _ ≤ _ := by
          have e1 : (1 + A * (1 + L) * h) * e + C * h * (h + q) -
              (e + A * h * (L * e) + q * h * M + A * h * (L * (A * h * (B + A * T * M))) + κ * (L * (κ * B * h)) * h) =
            A * h * e + (B + A ^ 2 * M + κ ^ 2 * M + L * A ^ 2 * (B + A * T * M) + κ ^ 2 * L * B) * (q * h) +
              (B + M + A ^ 2 * M + κ ^ 2 * M) * h ^ 2 := by
            simp only [C]; ring
          have : 0 ≤ A * h * e + (B + A ^ 2 * M + κ ^ 2 * M + L * A ^ 2 * (B + A * T * M) + κ ^ 2 * L * B) * (q * h) +
              (B + M + A ^ 2 * M + κ ^ 2 * M) * h ^ 2 := by positivity
          linarith
  · calc ‖p.2.1‖ = ‖Vn + (p.2.1 - Vn)‖ := by congr 1; abel
      _ ≤ ‖Vn‖ + ‖p.2.1 - Vn‖ := norm_add_le _ _
      _ ≤ ‖Vn‖ + σ * M := by linarith
      _ ≤ _ := by nlinarith

theorem phaseRun_append (fac : Factors) (F : X → X) : ∀ (l l' : List NbOp) (p : X × X × X), phaseRun fac F (l ++ l') p = phaseRun fac F l' (phaseRun fac F l p)
  | [], _, _ => rfl
  | op :: l, l', p => phaseRun_append fac F l l' (phaseStep fac F op p)

theorem MovesOn.mono {E : ℝ → ℝ} {F : X → X} {a0 a1 x y : ℝ} {S V : ℝ → X} (h : MovesOn E F a0 a1 S V) (hx : a0 ≤ x) (hy : y ≤ a1) : MovesOn E F x y S V :=
  ⟨fun t ht => (h.dS t ⟨hx.trans ht.1, ht.2.trans hy⟩).mono (Set.Icc_subset_Icc hx hy), fun t ht => (h.dV t ⟨hx.trans ht.1, ht.2.trans hy⟩).mono (Set.Icc_subset_Icc hx hy)⟩

/-- All steps. -/
theorem run_error (fac : Factors) {E : ℝ → ℝ} (hE2 : ContinuousOn (fun a => 1 / (a ^ 2 * E a)) (Set.Ioi 0)) (hE3 : ContinuousOn (fun a => 1 / (a ^ 3 * E a)) (Set.Ioi 0))
    {F : X → X} {L M B B0 κ A q a0 a1 h : ℝ} (hL0 : 0 ≤ L) (hM0 : 0 ≤ M) (hB0 : 0 ≤ B0) (hB : B = B0 + A * M * (a1 - a0)) (hκ0 : 0 ≤ κ) (hA0 : 0 ≤ A) (hq : 0 ≤ q)
    (hM : ∀ x, ‖F x‖ ≤ M) (hL : ∀ x y, ‖F x - F y‖ ≤ L * ‖x - y‖) (ha0 : 0 < a0)
    (hκ2 : ∀ t ∈ Set.Icc a0 a1, |1 / (t ^ 2 * E t)| ≤ κ) (hκ3 : ∀ t ∈ Set.Icc a0 a1, |1 / (t ^ 3 * E t)| ≤ κ) {S V : ℝ → X} (hmove : MovesOn E F a0 a1 S V)
    (hV : ∀ t ∈ Set.Icc a0 a1, ‖V t‖ ≤ B) (step : ℝ × ℝ → List NbOp)
    (hstep : ∀ x y, a0 ≤ x → x ≤ y → y ≤ a1 → y - x ≤ h → GoodStep fac E A q x y (step (x, y)))
    (hfresh : ∀ x y p, (phaseRun fac F (step (x, y)) p).2.2 = F (phaseRun fac F (step (x, y)) p).1) {C : ℝ}
    (hC : C = B + M + A ^ 2 * M + κ ^ 2 * M + L * A ^ 2 * (B + A * (a1 - a0) * M) + κ ^ 2 * L * B) :
    ∀ (rest : List ℝ) (x : ℝ), a0 ≤ x → x ≤ a1 → (x :: rest).getLast? = some a1 → (x :: rest).IsChain (fun a b => a ≤ b ∧ b - a ≤ h) →
      ∀ (Sn Vn : X) (e : ℝ), ‖Vn‖ ≤ B0 + A * M * (x - a0) → ‖Sn - S x‖ ≤ e → ‖Vn - V x‖ ≤ e →
      ‖(phaseRun fac F ((stepPairs (x :: rest)).flatMap step) (Sn, Vn, F Sn)).1 - S a1‖ ≤ Real.exp (A * (1 + L) * (a1 - x)) * (e + C * (a1 - x) * (h + q)) ∧
      ‖(phaseRun fac F ((stepPairs (x :: rest)).flatMap step) (Sn, Vn, F Sn)).2.1 - V a1‖ ≤ Real.exp (A * (1 + L) * (a1 - x)) * (e + C * (a1 - x) * (h + q))
  | [], x, hx0, _, hlast, _, Sn, Vn, e, _, h1, h2 => by
    have : x = a1 := by simpa using hlast
    subst this
    simpa [stepPairs, phaseRun] using And.intro h1 h2
  | y :: rest, x, hx0, hxa, hlast, hch, Sn, Vn, e, hVn, h1, h2 => by
    have hT0 : 0 ≤ a1 - a0 := by linarith
    have hBnn : 0 ≤ B := by rw [hB]; positivity
    have hC0 : 0 ≤ C := by rw [hC]; positivity
    obtain ⟨⟨hxy, hyh⟩, hch'⟩ := List.isChain_cons_cons.1 hch
    have hya : y ≤ a1 := by
      have hm : a1 ∈ y :: rest := by
        have := List.mem_of_getLast? hlast
        rcases List.mem_cons.1 this with rfl | h
        · rw [List.getLast?_cons_cons] at hlast
          exact List.mem_of_getLast? hlast
        · exact h
      have hpw := (List.isChain_iff_pairwise (R := fun a b : ℝ => a ≤ b)).1 (hch'.imp fun _ _ h => h.1)
      rcases List.mem_cons.1 hm with rfl | h
      · exact le_rfl
      · exact (List.pairwise_cons.1 hpw).1 _ h
    have hsub : Set.Icc x y ⊆ Set.Icc a0 a1 := Set.Icc_subset_Icc hx0 hya
    have hVn' : ‖Vn‖ ≤ B := by
      refine hVn.trans ?_
      rw [hB]
      have : 0 ≤ A * M := by positivity
      nlinarith
    obtain ⟨s1, s2, s3⟩ := step_error fac hE2 hE3 hL0 hM0 hBnn hκ0 hA0 hM hL (ha0.trans_le hx0) hxy (T := a1 - a0) (by linarith) (fun t ht => hκ2 t (hsub ht))
      (fun t ht => hκ3 t (hsub ht)) (hmove.mono hx0 hya) (fun t ht => hV t (hsub ht)) (hstep x y hx0 hxy hya hyh) hVn' h1 h2
    rw [← hC] at s1 s2
    obtain ⟨p, hp⟩ : ∃ p, p = phaseRun fac F (step (x, y)) (Sn, Vn, F Sn) := ⟨_, rfl⟩
    rw [← hp] at s1 s2 s3
    have hpf : p = (p.1, p.2.1, F p.1) := by
      have := hfresh x y (Sn, Vn, F Sn)
      rw [← hp] at this
      rw [← this]
    have hrun : phaseRun fac F ((stepPairs (x :: y :: rest)).flatMap step) (Sn, Vn, F Sn) =
        phaseRun fac F ((stepPairs (y :: rest)).flatMap step) (p.1, p.2.1, F p.1) := by
      rw [show stepPairs (x :: y :: rest) = (x, y) :: stepPairs (y :: rest) from rfl, List.flatMap_cons, phaseRun_append, ← hp, ← hpf]
    rw [hrun]
    have hlast' : (y :: rest).getLast? = some a1 := by rwa [List.getLast?_cons_cons] at hlast
    obtain ⟨e', he'⟩ : ∃ e', e' = (1 + A * (1 + L) * (y - x)) * e + C * (y - x) * ((y - x) + q) := ⟨_, rfl⟩
    rw [← he'] at s1 s2
    obtain ⟨r1, r2⟩ := run_error fac hE2 hE3 hL0 hM0 hB0 hB hκ0 hA0 hq hM hL ha0 hκ2 hκ3 hmove hV step hstep hfresh hC rest y (hx0.trans hxy) hya hlast' hch'
      p.1 p.2.1 e' (by
        refine s3.trans ?_
        have : A * M * (y - x) = A * M * (y - a0) - A * M * (x - a0) := by ring
        linarith) s1 s2
    have he0 : 0 ≤ e := (norm_nonneg _).trans h1
    have final : Real.exp (A * (1 + L) * (a1 - y)) * (e' + C * (a1 - y) * (h + q)) ≤ Real.exp (A * (1 + L) * (a1 - x)) * (e + C * (a1 - x) * (h + q)) := by
      have hsplit : A * (1 + L) * (a1 - x) = A * (1 + L) * (a1 - y) + A * (1 + L) * (y - x) := by ring
      rw [hsplit, Real.exp_add, mul_assoc (Real.exp _)]
      refine mul_le_mul_of_nonneg_left ?_ (Real.exp_pos _).le
      have hz0 : 0 ≤ A * (1 + L) * (y - x) := mul_nonneg (by positivity) (by linarith)
      obtain ⟨z, hz⟩ : ∃ z, z = A * (1 + L) * (y - x) := ⟨_, rfl⟩
      rw [← hz] at hz0 he' ⊢
      have hexp := Real.add_one_le_exp z
      have hone : 1 ≤ Real.exp z := by linarith
      have hh : 0 ≤ h := by linarith
      have c1 : C * (y - x) * ((y - x) + q) ≤ C * (y - x) * (h + q) := mul_le_mul_of_nonneg_left (by linarith) (mul_nonneg hC0 (by linarith))
      have c2 : 0 ≤ C * (a1 - x) * (h + q) := mul_nonneg (mul_nonneg hC0 (by linarith)) (by linarith)
      have c3 : (1 + z) * e ≤ Real.exp z * e := mul_le_mul_of_nonneg_right (by linarith) he0
      have c4 : C * (a1 - x) * (h + q) ≤ Real.exp z * (C * (a1 - x) * (h + q)) := le_mul_of_one_le_left c2 hone
      have c5 : C * (a1 - x) * (h + q) = C * (a1 - y) * (h + q) + C * (y - x) * (h + q) := by ring
      rw [mul_add, he']
      linarith
    exact ⟨r1.trans final, r2.trans final⟩

end Pmesh
