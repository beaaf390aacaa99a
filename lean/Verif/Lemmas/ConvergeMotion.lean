import Verif.Spec.Converge
import Mathlib.Analysis.ODE.ExistUnique

/-! # The equations of motion have exactly one solution when the force is bounded and Lipschitz -/

namespace Pmesh

open Set NNReal

section
variable {X : Type} [NormedAddCommGroup X] [NormedSpace ℝ X] {E : ℝ → ℝ} {F : X → X} {a0 a1 : ℝ}

/-- The equations of motion of `(S / l, V)`. -/
noncomputable def motionField (E : ℝ → ℝ) (F : X → X) (l a : ℝ) (p : X × X) : X × X :=
  ((1 / (a ^ 3 * E a) * l⁻¹) • p.2, (1 / (a ^ 2 * E a)) • F (l • p.1))

theorem motionField_lipschitz {κ L l t : ℝ} (hL0 : 0 ≤ L) (hκ0 : 0 ≤ κ) (hl : 0 < l) (hL : ∀ x y, ‖F x - F y‖ ≤ L * ‖x - y‖)
    (hk2 : |1 / (t ^ 2 * E t)| ≤ κ) (hk3 : |1 / (t ^ 3 * E t)| ≤ κ) :
    LipschitzWith (Real.toNNReal (κ * l⁻¹ + κ * (L * l))) (motionField E F l t) := by
  refine LipschitzWith.of_dist_le_mul fun p q => ?_
  have hK : 0 ≤ κ * l⁻¹ + κ * (L * l) := by positivity
  rw [Real.coe_toNNReal _ hK, dist_eq_norm, dist_eq_norm]
  have h1 : ‖p.1 - q.1‖ ≤ ‖p - q‖ := norm_fst_le (p - q)
  have h2 : ‖p.2 - q.2‖ ≤ ‖p - q‖ := norm_snd_le (p - q)
  refine (max_le ?_ ?_ : max ‖(motionField E F l t p - motionField E F l t q).1‖ ‖(motionField E F l t p - motionField E F l t q).2‖ ≤ _)
  · show ‖(1 / (t ^ 3 * E t) * l⁻¹) • p.2 - (1 / (t ^ 3 * E t) * l⁻¹) • q.2‖ ≤ _
    rw [← smul_sub, norm_smul, norm_mul, Real.norm_eq_abs, Real.norm_of_nonneg (inv_nonneg.2 hl.le)]
    refine (mul_le_mul (mul_le_mul_of_nonneg_right hk3 (inv_nonneg.2 hl.le)) h2 (norm_nonneg _) (by positivity)).trans ?_
    refine mul_le_mul_of_nonneg_right ?_ (norm_nonneg _)
    linarith [mul_nonneg hκ0 (mul_nonneg hL0 hl.le)]
  · show ‖(1 / (t ^ 2 * E t)) • F (l • p.1) - (1 / (t ^ 2 * E t)) • F (l • q.1)‖ ≤ _
    rw [← smul_sub, norm_smul, Real.norm_eq_abs]
    have h3 : ‖F (l • p.1) - F (l • q.1)‖ ≤ L * l * ‖p - q‖ := by
      refine (hL _ _).trans ?_
      rw [← smul_sub, norm_smul, Real.norm_of_nonneg hl.le, ← mul_assoc]
      exact mul_le_mul_of_nonneg_left h1 (by positivity)
    refine (mul_le_mul hk2 h3 (norm_nonneg _) hκ0).trans ?_
    rw [← mul_assoc]
    refine mul_le_mul_of_nonneg_right ?_ (norm_nonneg _)
    linarith [mul_nonneg hκ0 (inv_nonneg.2 hl.le)]

theorem motion_exists [CompleteSpace X] (hE2 : ContinuousOn (fun a => 1 / (a ^ 2 * E a)) (Ioi 0)) (hE3 : ContinuousOn (fun a => 1 / (a ^ 3 * E a)) (Ioi 0))
    {L M : ℝ} (hM : ∀ x, ‖F x‖ ≤ M) (hL : ∀ x y, ‖F x - F y‖ ≤ L * ‖x - y‖) (hL0 : 0 ≤ L) (ha0 : 0 < a0) (ha : a0 ≤ a1) (S0 V0 : X) :
    ∃ S V : ℝ → X, S a0 = S0 ∧ V a0 = V0 ∧ MovesOn E F a0 a1 S V := by
  have hM0 : 0 ≤ M := (norm_nonneg _).trans (hM 0)
  have hsub : Icc a0 a1 ⊆ Ioi 0 := fun t ht => ha0.trans_le ht.1
  obtain ⟨κ2, hκ2⟩ := isCompact_Icc.exists_bound_of_continuousOn (hE2.mono hsub)
  obtain ⟨κ3, hκ3⟩ := isCompact_Icc.exists_bound_of_continuousOn (hE3.mono hsub)
  obtain ⟨κ, hκ⟩ : ∃ κ, κ = max |κ2| |κ3| := ⟨_, rfl⟩
  have hκ0 : 0 ≤ κ := by rw [hκ]; positivity
  have hk2 : ∀ t ∈ Icc a0 a1, |1 / (t ^ 2 * E t)| ≤ κ := fun t ht => (hκ2 t ht).trans ((le_abs_self _).trans (hκ ▸ le_max_left _ _))
  have hk3 : ∀ t ∈ Icc a0 a1, |1 / (t ^ 3 * E t)| ≤ κ := fun t ht => (hκ3 t ht).trans ((le_abs_self _).trans (hκ ▸ le_max_right _ _))
  have hT0 : 0 ≤ a1 - a0 := by linarith
  obtain ⟨l, hl⟩ : ∃ l, l = 2 * κ * (a1 - a0) + 1 := ⟨_, rfl⟩
  have hl0 : 0 < l := by rw [hl]; positivity
  obtain ⟨r, hr⟩ : ∃ r, r = ‖V0‖ + κ * M * (a1 - a0) := ⟨_, rfl⟩
  have hr0 : 0 ≤ r := by rw [hr]; positivity
  have hVr : ‖V0‖ ≤ r := by rw [hr]; linarith [mul_nonneg (mul_nonneg hκ0 hM0) hT0]
  obtain ⟨B, hB⟩ : ∃ B, B = max (κ * l⁻¹ * (2 * r)) (κ * M) := ⟨_, rfl⟩
  have hB0 : 0 ≤ B := by rw [hB]; exact le_max_of_le_right (by positivity)
  have hball : ∀ p ∈ Metric.closedBall ((l⁻¹ • S0, V0) : X × X) (Real.toNNReal r : ℝ), ‖p.2‖ ≤ 2 * r := by
    intro p hp
    rw [Real.coe_toNNReal _ hr0, Metric.mem_closedBall, dist_eq_norm] at hp
    have h1 : ‖p.2 - V0‖ ≤ r := (norm_snd_le (p - (l⁻¹ • S0, V0))).trans hp
    have h2 := norm_add_le (p.2 - V0) V0
    rw [sub_add_cancel] at h2
    linarith
  have hpl : IsPicardLindelof (motionField E F l) (tmin := a0) (tmax := a1) ⟨a0, left_mem_Icc.2 ha⟩ ((l⁻¹ • S0, V0) : X × X) (Real.toNNReal r) 0 (Real.toNNReal B)
      (Real.toNNReal (κ * l⁻¹ + κ * (L * l))) := by
    refine ⟨fun t ht => (motionField_lipschitz hL0 hκ0 hl0 hL (hk2 t ht) (hk3 t ht)).lipschitzOnWith, fun p _ => ?_, fun t ht p hp => ?_, ?_⟩
    · exact (((hE3.mono hsub).mul continuousOn_const).smul continuousOn_const).prodMk ((hE2.mono hsub).smul continuousOn_const)
    · rw [Real.coe_toNNReal _ hB0]
      refine (max_le ?_ ?_ : max ‖(motionField E F l t p).1‖ ‖(motionField E F l t p).2‖ ≤ _)
      · show ‖(1 / (t ^ 3 * E t) * l⁻¹) • p.2‖ ≤ _
        rw [norm_smul, norm_mul, Real.norm_eq_abs, Real.norm_of_nonneg (inv_nonneg.2 hl0.le), hB]
        exact (mul_le_mul (mul_le_mul_of_nonneg_right (hk3 t ht) (inv_nonneg.2 hl0.le)) (hball p hp) (norm_nonneg _) (by positivity)).trans (le_max_left _ _)
      · show ‖(1 / (t ^ 2 * E t)) • F (l • p.1)‖ ≤ _
        rw [norm_smul, Real.norm_eq_abs, hB]
        exact (mul_le_mul (hk2 t ht) (hM _) (norm_nonneg _) hκ0).trans (le_max_right _ _)
    · simp only [Real.coe_toNNReal _ hB0, Real.coe_toNNReal _ hr0, sub_self, NNReal.coe_zero, sub_zero]
      rw [max_eq_left hT0, hB, max_mul_of_nonneg _ _ hT0]
      refine max_le ?_ (by rw [hr]; linarith [norm_nonneg V0])
      rw [show κ * l⁻¹ * (2 * r) * (a1 - a0) = (2 * κ * (a1 - a0)) / l * r by ring]
      exact mul_le_of_le_one_left hr0 ((div_le_one hl0).2 (by rw [hl]; linarith))
  obtain ⟨α, hα0, hα⟩ := hpl.exists_eq_forall_mem_Icc_hasDerivWithinAt₀
  refine ⟨fun t => l • (α t).1, fun t => (α t).2, ?_, ?_, fun t ht => ?_, fun t ht => ?_⟩
  · simp only at hα0
    beta_reduce
    rw [hα0, smul_inv_smul₀ hl0.ne']
  · simp only at hα0
    beta_reduce
    rw [hα0]
  · have h1 : HasDerivWithinAt (fun t => (α t).1) (motionField E F l t (α t)).1 (Icc a0 a1) t := (hα t ht).hasFDerivWithinAt.fst.hasDerivWithinAt.congr_deriv (by simp)
    refine (h1.const_smul l).congr_deriv ?_
    show l • ((1 / (t ^ 3 * E t) * l⁻¹) • (α t).2) = _
    rw [smul_smul]
    congr 1
    rw [mul_comm (1 / _), ← mul_assoc, mul_inv_cancel₀ hl0.ne', one_mul]
  · exact (hα t ht).hasFDerivWithinAt.snd.hasDerivWithinAt.congr_deriv (by simp [motionField])

theorem motion_unique (hE2 : ContinuousOn (fun a => 1 / (a ^ 2 * E a)) (Ioi 0)) (hE3 : ContinuousOn (fun a => 1 / (a ^ 3 * E a)) (Ioi 0))
    {L : ℝ} (hL : ∀ x y, ‖F x - F y‖ ≤ L * ‖x - y‖) (hL0 : 0 ≤ L) (ha0 : 0 < a0) {S V S' V' : ℝ → X} (h : MovesOn E F a0 a1 S V) (h' : MovesOn E F a0 a1 S' V')
    (hS : S a0 = S' a0) (hV : V a0 = V' a0) : ∀ a ∈ Icc a0 a1, S a = S' a ∧ V a = V' a := by
  have hsub : Icc a0 a1 ⊆ Ioi 0 := fun t ht => ha0.trans_le ht.1
  obtain ⟨κ2, hκ2⟩ := isCompact_Icc.exists_bound_of_continuousOn (hE2.mono hsub)
  obtain ⟨κ3, hκ3⟩ := isCompact_Icc.exists_bound_of_continuousOn (hE3.mono hsub)
  obtain ⟨κ, hκ⟩ : ∃ κ, κ = max |κ2| |κ3| := ⟨_, rfl⟩
  have hκ0 : 0 ≤ κ := by rw [hκ]; positivity
  have hk2 : ∀ t ∈ Icc a0 a1, |1 / (t ^ 2 * E t)| ≤ κ := fun t ht => (hκ2 t ht).trans ((le_abs_self _).trans (hκ ▸ le_max_left _ _))
  have hk3 : ∀ t ∈ Icc a0 a1, |1 / (t ^ 3 * E t)| ≤ κ := fun t ht => (hκ3 t ht).trans ((le_abs_self _).trans (hκ ▸ le_max_right _ _))
  have hd : ∀ {S V : ℝ → X}, MovesOn E F a0 a1 S V → ∀ t ∈ Icc a0 a1, HasDerivWithinAt (fun t => (S t, V t)) (motionField E F 1 t (S t, V t)) (Icc a0 a1) t := by
    intro S V h t ht
    have := (h.dS t ht).prodMk (h.dV t ht)
    simpa [motionField] using this
  have key := ODE_solution_unique_of_mem_Icc_right (s := fun _ => univ) (v := motionField E F 1) (a := a0) (b := a1) (f := fun t => (S t, V t)) (g := fun t => (S' t, V' t))
    (fun t ht => (motionField_lipschitz hL0 hκ0 one_pos hL (hk2 t (Ico_subset_Icc_self ht)) (hk3 t (Ico_subset_Icc_self ht))).lipschitzOnWith)
    (fun t ht => (hd h t ht).continuousWithinAt)
    (fun t ht => (hd h t (Ico_subset_Icc_self ht)).mono_of_mem_nhdsWithin (Icc_mem_nhdsGE_of_mem ht)) (fun _ _ => trivial)
    (fun t ht => (hd h' t ht).continuousWithinAt)
    (fun t ht => (hd h' t (Ico_subset_Icc_self ht)).mono_of_mem_nhdsWithin (Icc_mem_nhdsGE_of_mem ht)) (fun _ _ => trivial) (by simp only [hS, hV])
  exact fun a ha => Prod.ext_iff.1 (key ha)
end

end Pmesh
