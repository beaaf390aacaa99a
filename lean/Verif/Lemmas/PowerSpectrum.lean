import Verif.Model.PowerSpectrum
import Verif.Spec.PowerSpectrum
import Mathlib.MeasureTheory.Integral.IntervalIntegral.IntegrationByParts
import Mathlib.Analysis.SpecialFunctions.ImproperIntegrals
import Mathlib.Analysis.SpecialFunctions.Trigonometric.Bounds
import Mathlib.MeasureTheory.Measure.Haar.NormedSpace

namespace Pmesh

open MeasureTheory

theorem npInterp_measurable (t : List (ℝ × ℝ)) : Measurable (npInterp t) := by
  induction t with
  | nil => exact measurable_const
  | cons a t ih =>
    cases t with
    | nil => exact measurable_const
    | cons b t =>
      obtain ⟨x0, f0⟩ := a
      obtain ⟨x1, f1⟩ := b
      change Measurable fun x => if x < x0 then f0 else if x < x1 then (f1 - f0) / (x1 - x0) * (x - x0) + f0 else npInterp ((x1, f1) :: t) x
      exact Measurable.ite measurableSet_Iio measurable_const (Measurable.ite measurableSet_Iio (by fun_prop) ih)

theorem npInterp_bound (t : List (ℝ × ℝ)) (hs : t.Pairwise fun a b => a.1 < b.1) (hne : t ≠ []) {m M : ℝ} (h : ∀ q ∈ t, m ≤ q.2 ∧ q.2 ≤ M) (x : ℝ) :
    m ≤ npInterp t x ∧ npInterp t x ≤ M := by
  induction t with
  | nil => exact absurd rfl hne
  | cons a t ih =>
    cases t with
    | nil => exact h a (by simp)
    | cons b t =>
      obtain ⟨x0, f0⟩ := a
      obtain ⟨x1, f1⟩ := b
      have h0 := h (x0, f0) (by simp)
      have h1 := h (x1, f1) (by simp)
      have hx : x0 < x1 := (List.pairwise_cons.1 hs).1 (x1, f1) (by simp)
      simp only at h0 h1
      simp only [npInterp]
      split_ifs with c1 c2
      · exact h0
      · have hd : 0 < x1 - x0 := by linarith
        have e : (f1 - f0) / (x1 - x0) * (x - x0) + f0 = (f1 * (x - x0) + f0 * (x1 - x)) / (x1 - x0) := by field_simp; ring
        rw [e, le_div_iff₀ hd, div_le_iff₀ hd]
        constructor <;> nlinarith
      · exact ih (List.pairwise_cons.1 hs).2 (by simp) (fun q hq => h q (by simp [hq]))

theorem table_bounds (t : List (ℝ × ℝ)) : ∃ m M : ℝ, ∀ q ∈ t, m ≤ q.2 ∧ q.2 ≤ M := by
  induction t with
  | nil => exact ⟨0, 0, by simp⟩
  | cons a t ih =>
    obtain ⟨m, M, h⟩ := ih
    refine ⟨min m a.2, max M a.2, fun q hq => ?_⟩
    rcases List.mem_cons.1 hq with rfl | hq
    · exact ⟨min_le_right _ _, le_max_right _ _⟩
    · exact ⟨(min_le_left _ _).trans (h q hq).1, (h q hq).2.trans (le_max_left _ _)⟩

/-- The transform of the ball in closed form. -/
theorem ballWave_closed {x : ℝ} (hx : x ≠ 0) : ballWave x = 3 * (Real.sin x - x * Real.cos x) / x ^ 3 := by
  unfold ballWave
  have hd : ∀ z ∈ Set.uIcc (-1 : ℝ) 1, HasDerivAt (fun z => 3 / 4 * ((1 - z ^ 2) * Real.sin (x * z) / x - 2 * z * Real.cos (x * z) / x ^ 2 + 2 * Real.sin (x * z) / x ^ 3))
      ((Real.pi * (1 - z ^ 2)) / (4 * Real.pi / 3) * Real.cos (x * z)) z := by
    intro z _
    have h1 : HasDerivAt (fun z : ℝ => x * z) x z := by simpa using (hasDerivAt_id z).const_mul x
    have h2 := h1.sin
    have h3 := h1.cos
    have h4 : HasDerivAt (fun z : ℝ => 1 - z ^ 2) (-(2 * z)) z := by simpa using (hasDerivAt_pow 2 z).const_sub 1
    have h5 : HasDerivAt (fun z : ℝ => 2 * z) 2 z := by simpa using (hasDerivAt_id z).const_mul 2
    have h6 := ((((h4.mul h2).div_const x).sub ((h5.mul h3).div_const (x ^ 2))).add ((h2.const_mul 2).div_const (x ^ 3))).const_mul (3 / 4)
    refine h6.congr_deriv ?_
    have hp := Real.pi_ne_zero
    have e : (Real.pi * (1 - z ^ 2)) / (4 * Real.pi / 3) = 3 / 4 * (1 - z ^ 2) := by field_simp
    rw [e]
    field_simp
    ring
  rw [intervalIntegral.integral_eq_sub_of_hasDerivAt hd ((by fun_prop : Continuous fun z => (Real.pi * (1 - z ^ 2)) / (4 * Real.pi / 3) * Real.cos (x * z)).intervalIntegrable _ _)]
  simp only [mul_neg, mul_one, Real.sin_neg, Real.cos_neg]
  field_simp
  ring

theorem ballWave_le (x : ℝ) : |ballWave x| ≤ 1 := by
  unfold ballWave
  have h1 : ∀ z ∈ Set.uIcc (-1 : ℝ) 1, |(Real.pi * (1 - z ^ 2)) / (4 * Real.pi / 3) * Real.cos (x * z)| ≤ 3 / 4 * (1 - z ^ 2) := by
    intro z hz
    rw [Set.uIcc_of_le (by norm_num)] at hz
    have h2 : 0 ≤ 1 - z ^ 2 := by nlinarith [hz.1, hz.2]
    have e : (Real.pi * (1 - z ^ 2)) / (4 * Real.pi / 3) = 3 / 4 * (1 - z ^ 2) := by
      have := Real.pi_ne_zero
      field_simp
    rw [e, abs_mul, abs_of_nonneg (by positivity)]
    exact mul_le_of_le_one_right (by positivity) (Real.abs_cos_le_one _)
  have h3 := (intervalIntegral.abs_integral_le_integral_abs (f := fun z => (Real.pi * (1 - z ^ 2)) / (4 * Real.pi / 3) * Real.cos (x * z)) (μ := volume)
    (by norm_num : (-1 : ℝ) ≤ 1)).trans (intervalIntegral.integral_mono_on (by norm_num) (by apply Continuous.intervalIntegrable; fun_prop)
      ((by fun_prop : Continuous fun z : ℝ => 3 / 4 * (1 - z ^ 2)).intervalIntegrable _ _) fun z hz => h1 z (by rwa [Set.uIcc_of_le (by norm_num)]))
  have h4 : ∫ z in (-1 : ℝ)..1, 3 / 4 * (1 - z ^ 2) = 1 := by
    rw [intervalIntegral.integral_const_mul, intervalIntegral.integral_sub (by simp) (by simp)]
    simp
    norm_num
  rw [h4] at h3
  exact h3

/-- `1 - x²/10` is below the transform. -/
theorem ballWave_ge (x : ℝ) : 1 - x ^ 2 / 10 ≤ ballWave x := by
  have h4 : ∫ z in (-1 : ℝ)..1, (3 / 4 * (1 - z ^ 2) * (1 - (x * z) ^ 2 / 2)) = 1 - x ^ 2 / 10 := by
    have e : ∀ z : ℝ, 3 / 4 * (1 - z ^ 2) * (1 - (x * z) ^ 2 / 2) = (3 / 4 - (3 / 4 + 3 / 8 * x ^ 2) * z ^ 2) + 3 / 8 * x ^ 2 * z ^ 4 := by intro z; ring
    simp only [e]
    rw [intervalIntegral.integral_add (by apply Continuous.intervalIntegrable; fun_prop) (by apply Continuous.intervalIntegrable; fun_prop),
      intervalIntegral.integral_sub (by simp) (by apply Continuous.intervalIntegrable; fun_prop), intervalIntegral.integral_const_mul, intervalIntegral.integral_const_mul]
    simp
    norm_num
    ring
  rw [← h4]
  unfold ballWave
  refine intervalIntegral.integral_mono_on (by norm_num) (by apply Continuous.intervalIntegrable; fun_prop) (by apply Continuous.intervalIntegrable; fun_prop) fun z hz => ?_
  have h2 : 0 ≤ 1 - z ^ 2 := by nlinarith [hz.1, hz.2]
  have e : (Real.pi * (1 - z ^ 2)) / (4 * Real.pi / 3) = 3 / 4 * (1 - z ^ 2) := by
    have := Real.pi_ne_zero
    field_simp
  rw [e]
  exact mul_le_mul_of_nonneg_left (Real.one_sub_sq_div_two_le_cos) (by positivity)

theorem WofK_measurable : Measurable WofK := by
  unfold WofK
  exact Measurable.ite measurableSet_Iio (by fun_prop) (by fun_prop)

theorem WofK_far {x : ℝ} (hx : 1e-2 ≤ x) : WofK x = ballWave x := by
  unfold WofK
  rw [if_neg (by linarith), ballWave_closed (by norm_num at hx; linarith)]

theorem WofK_near {x : ℝ} (h0 : 0 ≤ x) (hx : x < 1e-2) : 0.33 ≤ WofK x ∧ WofK x ≤ 0.34 := by
  unfold WofK
  rw [if_pos hx]
  norm_num at hx ⊢
  have h2 : x ^ 2 ≤ 1 / 10000 := by nlinarith
  have h4 : x ^ 4 ≤ 1 / 10000 := by nlinarith [sq_nonneg x]
  have h5 : 0 ≤ x ^ 4 := by positivity
  have h6 : 0 ≤ x ^ 2 := by positivity
  constructor <;> linarith

theorem ballWave_far {x : ℝ} (h1 : 1 ≤ x) : x ^ 2 * ballWave x ^ 2 * (1 + x ^ 2) ≤ 72 := by
  have hp : 0 < 1 + x ^ 2 := by positivity
  rw [ballWave_closed (by linarith)]
  have h2 : (Real.sin x - x * Real.cos x) ^ 2 ≤ 2 + 2 * x ^ 2 := by
    have e1 := Real.sin_sq_le_one x
    have e2 := Real.cos_sq_le_one x
    nlinarith [sq_nonneg (Real.sin x + x * Real.cos x), mul_le_mul_of_nonneg_left e2 (sq_nonneg x)]
  have e : x ^ 2 * (3 * (Real.sin x - x * Real.cos x) / x ^ 3) ^ 2 * (1 + x ^ 2) = 9 * (Real.sin x - x * Real.cos x) ^ 2 * (1 + x ^ 2) / x ^ 4 := by
    field_simp
    ring
  rw [e, div_le_iff₀ (by positivity)]
  have h3 : 1 ≤ x ^ 2 := by nlinarith
  have h4 : (Real.sin x - x * Real.cos x) ^ 2 * (1 + x ^ 2) ≤ (2 + 2 * x ^ 2) * (1 + x ^ 2) := mul_le_mul_of_nonneg_right h2 hp.le
  nlinarith [sq_nonneg (x ^ 2 - 1)]

theorem ballWave_decay {x : ℝ} (hx : 0 < x) : x ^ 2 * ballWave x ^ 2 ≤ 72 * (1 + x ^ 2)⁻¹ := by
  have hp : 0 < 1 + x ^ 2 := by positivity
  rw [← div_eq_mul_inv, le_div_iff₀ hp]
  by_cases h : x < 1
  · have h1 : ballWave x ^ 2 ≤ 1 := by
      rw [sq_le_one_iff_abs_le_one]
      exact ballWave_le x
    have h2 : x ^ 2 ≤ 1 := by nlinarith
    have h3 : 0 ≤ ballWave x ^ 2 := sq_nonneg _
    nlinarith [mul_le_mul h2 h1 h3 (by norm_num)]
  · exact ballWave_far (not_lt.1 h)

theorem WofK_le {x : ℝ} (hx : 0 ≤ x) : WofK x ^ 2 ≤ ballWave x ^ 2 ∧ (x < 1e-2 → WofK x ^ 2 < ballWave x ^ 2) := by
  have h : x < 1e-2 → WofK x ^ 2 < ballWave x ^ 2 := by
    intro h2
    have h3 := WofK_near hx h2
    have h4 := ballWave_ge x
    norm_num at h2
    have h5 : (0.9 : ℝ) ≤ ballWave x := by
      refine le_trans ?_ h4
      norm_num
      nlinarith
    have h6 : (0 : ℝ) ≤ WofK x := le_trans (by norm_num) h3.1
    exact pow_lt_pow_left₀ (lt_of_le_of_lt h3.2 (lt_of_lt_of_le (by norm_num) h5)) h6 (by norm_num)
  refine ⟨?_, h⟩
  by_cases h2 : x < 1e-2
  · exact (h h2).le
  · rw [WofK_far (not_lt.1 h2)]

theorem WofK_decay {x : ℝ} (hx : 0 < x) : x ^ 2 * WofK x ^ 2 ≤ 72 * (1 + x ^ 2)⁻¹ :=
  (mul_le_mul_of_nonneg_left (WofK_le hx.le).1 (sq_nonneg x)).trans (ballWave_decay hx)

theorem ballWave_measurable : Measurable ballWave := by
  have e : ballWave = fun x => if x = 0 then ballWave 0 else 3 * (Real.sin x - x * Real.cos x) / x ^ 3 := by
    funext x
    split_ifs with h
    · rw [h]
    · exact ballWave_closed h
  rw [e]
  exact Measurable.ite (measurableSet_singleton 0) measurable_const (by fun_prop)

end Pmesh
