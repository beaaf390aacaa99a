import Verif.Lemmas.ConvergeSteps

/-! # The seven classes of factors agree with the integrals of the equations of motion over short intervals, uniformly -/

namespace Pmesh

theorem split_near {u v : ℝ → ℝ} (hu : ContinuousOn u (Set.Ioi 0)) (hv : ContinuousOn v (Set.Ioi 0)) {lo hi : ℝ} (hlo : 0 < lo) {η : ℝ} (hη : 0 < η) :
    ∃ δ > 0, ∀ x ∈ Set.Icc lo hi, ∀ y ∈ Set.Icc lo hi, ∀ r ∈ Set.Icc lo hi, |y - x| ≤ δ → |r - x| ≤ δ →
      |u r * (∫ t in x..y, v t) - ∫ t in x..y, u t * v t| ≤ η * |y - x| := by
  have hsub : Set.Icc lo hi ⊆ Set.Ioi 0 := fun t ht => hlo.trans_le ht.1
  obtain ⟨κ, hκ⟩ := isCompact_Icc.exists_bound_of_continuousOn (hv.mono hsub)
  have hk : 0 < |κ| + 1 := by positivity
  obtain ⟨δ, hδ, huc⟩ := Metric.uniformContinuousOn_iff_le.1 (isCompact_Icc.uniformContinuousOn_of_continuous (hu.mono hsub)) (η / (|κ| + 1)) (by positivity)
  refine ⟨δ / 2, by positivity, fun x hx y hy r hr h1 h2 => ?_⟩
  have hx0 := hsub hx
  have hy0 := hsub hy
  have hint := intervalIntegrable_pos hv hx0 hy0
  have hint2 : IntervalIntegrable (fun t => u t * v t) MeasureTheory.volume x y := intervalIntegrable_pos (hu.mul hv) hx0 hy0
  rw [← intervalIntegral.integral_const_mul, ← intervalIntegral.integral_sub (hint.const_mul _) hint2, ← Real.norm_eq_abs]
  refine intervalIntegral.norm_integral_le_of_norm_le_const fun t ht => ?_
  have ht' := Set.uIoc_subset_uIcc ht
  have htI : t ∈ Set.Icc lo hi := (convex_Icc lo hi).ordConnected.uIcc_subset hx hy ht'
  have htx : |t - x| ≤ |y - x| := Set.abs_sub_left_of_mem_uIcc ht'
  have hd : |r - t| ≤ δ := by
    have := abs_sub_le r x t
    rw [abs_sub_comm x t] at this
    linarith
  have h3 := huc r hr t htI (by rw [Real.dist_eq]; exact hd)
  rw [Real.dist_eq] at h3
  have h4 : |v t| ≤ |κ| + 1 := (hκ t htI).trans ((le_abs_self κ).trans (by linarith))
  rw [Real.norm_eq_abs, ← sub_mul, abs_mul]
  calc _ ≤ η / (|κ| + 1) * (|κ| + 1) := mul_le_mul h3 h4 (abs_nonneg _) (by positivity)
    _ = η := by field_simp

/-- A kick or drift of the form `u(ar)` times the integral of `v`. -/
theorem near_of_split {u v w : ℝ → ℝ} (hu : ContinuousOn u (Set.Ioi 0)) (hv : ContinuousOn v (Set.Ioi 0)) (huv : ∀ t > 0, u t * v t = w t) (φ : ℝ → ℝ → ℝ → ℝ)
    (hφ : ∀ x y r, 0 < x → 0 < y → 0 < r → φ x y r = u r * ∫ t in x..y, v t) {lo hi : ℝ} (hlo : 0 < lo) {η : ℝ} (hη : 0 < η) :
    ∃ δ > 0, ∀ x ∈ Set.Icc lo hi, ∀ y ∈ Set.Icc lo hi, ∀ r ∈ Set.Icc lo hi, |y - x| ≤ δ → |r - x| ≤ δ → |φ x y r - ∫ t in x..y, w t| ≤ η * |y - x| := by
  obtain ⟨δ, hδ, h⟩ := split_near hu hv (hi := hi) hlo hη
  refine ⟨δ, hδ, fun x hx y hy r hr h1 h2 => ?_⟩
  rw [hφ x y r (hlo.trans_le hx.1) (hlo.trans_le hy.1) (hlo.trans_le hr.1)]
  have : ∫ t in x..y, w t = ∫ t in x..y, u t * v t := by
    refine intervalIntegral.integral_congr fun t ht => ?_
    exact (huv t ((lt_min (hlo.trans_le hx.1) (hlo.trans_le hy.1)).trans_le ht.1)).symm
  rw [this]
  exact h x hx y hy r hr h1 h2

theorem quad_eq (f g : ℝ → ℝ) (h : ∀ t, f t = g t) (x y : ℝ) : ∫ t in x..y, f t = ∫ t in x..y, g t := by
  rw [funext h]

theorem kickQuad_eq (pt : Growth) (x y r : ℝ) : kickQuad pt x y r = kickExact pt.E x y :=
  quad_eq _ _ (fun t => by norm_num; left; ring) x y

theorem driftQuad_eq (pt : Growth) (x y r : ℝ) : driftQuad pt x y r = driftExact pt.E x y :=
  quad_eq _ _ (fun t => by norm_num; left; ring) x y

/-- Class Quinn has no error. -/
theorem quinn_near (pt : Growth) (lo hi δ : ℝ) : FacNear (quinn pt) pt.E lo hi δ 0 := by
  intro x _ y _ r _ _ _
  constructor
  · rw [show (quinn pt).K x y r = kickExact pt.E x y from kickQuad_eq pt x y r]
    simp
  · rw [show (quinn pt).D x y r = driftExact pt.E x y from driftQuad_eq pt x y r]
    simp

theorem factors_near (pt : Growth) (hpt : pt.OK) (hgf : ContinuousOn pt.gf (Set.Ioi 0)) (hgp : ContinuousOn pt.gp (Set.Ioi 0)) (fac : Factors)
    (hfac : fac ∈ nbFactors pt) {lo hi : ℝ} (hlo : 0 < lo) {η : ℝ} (hη : 0 < η) : ∃ δ > 0, FacNear fac pt.E lo hi δ η := by
  have both : ∀ fac : Factors, (∃ δ > 0, ∀ x ∈ Set.Icc lo hi, ∀ y ∈ Set.Icc lo hi, ∀ r ∈ Set.Icc lo hi, |y - x| ≤ δ → |r - x| ≤ δ →
      |fac.K x y r - kickExact pt.E x y| ≤ η * |y - x|) → (∃ δ > 0, ∀ x ∈ Set.Icc lo hi, ∀ y ∈ Set.Icc lo hi, ∀ r ∈ Set.Icc lo hi, |y - x| ≤ δ → |r - x| ≤ δ →
      |fac.D x y r - driftExact pt.E x y| ≤ η * |y - x|) → ∃ δ > 0, FacNear fac pt.E lo hi δ η := by
    rintro fac ⟨δ, hδ, h⟩ ⟨δ', hδ', h'⟩
    exact ⟨min δ δ', lt_min hδ hδ', fun x hx y hy r hr h1 h2 => ⟨h x hx y hy r hr (h1.trans (min_le_left _ _)) (h2.trans (min_le_left _ _)),
      h' x hx y hy r hr (h1.trans (min_le_right _ _)) (h2.trans (min_le_right _ _))⟩⟩
  have c1 : ContinuousOn (fun a => 1 / (a * pt.E a)) (Set.Ioi 0) := continuousOn_const.div (continuousOn_id.mul hpt.E_cont) fun a ha => mul_ne_zero (ne_of_gt ha) (hpt.E_ne a ha)
  have c2 : ContinuousOn (fun a => 1 / (a ^ 2 * pt.E a)) (Set.Ioi 0) :=
    continuousOn_const.div ((continuous_pow 2).continuousOn.mul hpt.E_cont) fun a ha => mul_ne_zero (pow_ne_zero _ (ne_of_gt ha)) (hpt.E_ne a ha)
  have c3 : ContinuousOn (fun a => 1 / (a ^ 3 * pt.E a)) (Set.Ioi 0) :=
    continuousOn_const.div ((continuous_pow 3).continuousOn.mul hpt.E_cont) fun a ha => mul_ne_zero (pow_ne_zero _ (ne_of_gt ha)) (hpt.E_ne a ha)
  have one : ContinuousOn (fun _ : ℝ => (1 : ℝ)) (Set.Ioi 0) := continuousOn_const
  have ftcG : ∀ {G g : ℝ → ℝ}, (∀ a > 0, HasDerivAt G (g a) a) → ContinuousOn g (Set.Ioi 0) → ∀ x y, 0 < x → 0 < y → ∫ t in x..y, g t = G y - G x := by
    intro G g hG hg x y hx hy
    exact intervalIntegral.integral_eq_sub_of_hasDerivAt (fun t ht => hG t ((lt_min hx hy).trans_le ht.1)) (intervalIntegrable_pos hg hx hy)
  have kq := near_of_split one c2 (w := fun t => 1 / (t ^ 2 * pt.E t)) (fun t _ => one_mul _) (kickQuad pt) (fun x y r _ _ _ => by rw [kickQuad_eq, one_mul]; rfl) (hi := hi) hlo hη
  have dq := near_of_split one c3 (w := fun t => 1 / (t ^ 3 * pt.E t)) (fun t _ => one_mul _) (driftQuad pt) (fun x y r _ _ _ => by rw [driftQuad_eq, one_mul]; rfl) (hi := hi) hlo hη
  have kf := near_of_split (u := fun r => 1 / (r ^ 2 * pt.E r) / pt.gf r) (w := fun t => 1 / (t ^ 2 * pt.E t)) (c2.div hgf fun a ha => hpt.gf_ne a ha) hgf
    (fun t ht => by have := hpt.gf_ne t ht; field_simp) (kickFast pt) (fun x y r hx hy hr => by
      rw [ftcG hpt.Gf hgf x y hx hy]; unfold kickFast; ring) (hi := hi) hlo hη
  have df := near_of_split (u := fun r => 1 / (r ^ 3 * pt.E r) / pt.gp r) (w := fun t => 1 / (t ^ 3 * pt.E t)) (c3.div hgp fun a ha => hpt.gp_ne a ha) hgp
    (fun t ht => by have := hpt.gp_ne t ht; field_simp) (driftFast pt) (fun x y r hx hy hr => by
      rw [ftcG hpt.Gp hgp x y hx hy]; unfold driftFast; ring) (hi := hi) hlo hη
  have inv : ContinuousOn (fun r : ℝ => r⁻¹) (Set.Ioi 0) := continuousOn_inv₀.mono fun a ha => ne_of_gt ha
  have q1 : ∀ x y : ℝ, ∫ a in x..y, 1.0 / (a * pt.E a) = ∫ a in x..y, 1 / (a * pt.E a) := fun x y => quad_eq _ _ (fun t => by norm_num) x y
  have kn := near_of_split c2 one (w := fun t => 1 / (t ^ 2 * pt.E t)) (fun t _ => mul_one _) (naive pt).K (fun x y r _ _ _ => by
      simp only [naive, intervalIntegral.integral_const, smul_eq_mul, mul_one]
      norm_num
      left; left; ring) (hi := hi) hlo hη
  have dn := near_of_split c3 one (w := fun t => 1 / (t ^ 3 * pt.E t)) (fun t _ => mul_one _) (naive pt).D (fun x y r _ _ _ => by
      simp only [naive, intervalIntegral.integral_const, smul_eq_mul, mul_one]
      norm_num
      left; left; ring) (hi := hi) hlo hη
  have dt := near_of_split (u := fun r => r⁻¹ ^ 2) (w := fun t => 1 / (t ^ 3 * pt.E t)) (inv.pow 2) c1 (fun t ht => by
      have := hpt.E_ne t ht
      have := ne_of_gt ht
      field_simp) (tve pt).D (fun x y r _ _ _ => by simp only [tve]; rw [q1]) (hi := hi) hlo hη
  have kv := near_of_split (u := fun r => r⁻¹) (w := fun t => 1 / (t ^ 2 * pt.E t)) inv c1 (fun t ht => by
      have := hpt.E_ne t ht
      have := ne_of_gt ht
      field_simp) (vte pt).K (fun x y r _ _ _ => by simp only [vte]; rw [q1]) (hi := hi) hlo hη
  simp only [nbFactors, List.mem_cons, List.not_mem_nil, or_false] at hfac
  rcases hfac with rfl | rfl | rfl | rfl | rfl | rfl | rfl
  · exact both _ kf df
  · exact both _ kq df
  · exact both _ kf dq
  · exact both _ kq dq
  · exact both _ kq dt
  · exact both _ kv dq
  · exact both _ kn dn

end Pmesh
