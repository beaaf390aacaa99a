import Verif.Spec.FWindow
import Mathlib.Analysis.SpecialFunctions.Integrals.Basic
import Mathlib.Analysis.SpecialFunctions.ExpDeriv
import Mathlib.MeasureTheory.Measure.Haar.NormedSpace
import Mathlib.MeasureTheory.Integral.IntervalIntegral.FundThmCalculus
import Mathlib.Tactic.FieldSimp
import Mathlib.Tactic.Ring
import Mathlib.Tactic.Linarith
import Mathlib.Tactic.Positivity

/-! # Integrals of piecewise polynomials times exponentials -/

namespace Pmesh

open Complex MeasureTheory intervalIntegral Set

/-- An antiderivative of `(a + b x + c x² + d x³) exp(z x)`. -/
noncomputable def polyExpPrim (a b c d z : ℂ) (x : ℝ) : ℂ :=
  exp (z * x) * ((a + b * x + c * x ^ 2 + d * x ^ 3) / z - (b + 2 * c * x + 3 * d * x ^ 2) / z ^ 2 + (2 * c + 6 * d * x) / z ^ 3
    - 6 * d / z ^ 4)

theorem polyExpPrim_deriv (a b c d : ℂ) {z : ℂ} (hz : z ≠ 0) (x : ℝ) :
    HasDerivAt (polyExpPrim a b c d z) ((a + b * x + c * x ^ 2 + d * x ^ 3) * exp (z * x)) x := by
  have hx : HasDerivAt (fun x : ℝ => (x : ℂ)) 1 x := Complex.ofRealCLM.hasDerivAt
  have he : HasDerivAt (fun x : ℝ => exp (z * x)) (exp (z * x) * (z * 1)) x := (hx.const_mul z).cexp
  have h2 : HasDerivAt (fun x : ℝ => (x : ℂ) ^ 2) (2 * x) x := by
    have := hx.fun_pow 2
    simpa using this
  have h3 : HasDerivAt (fun x : ℝ => (x : ℂ) ^ 3) (3 * x ^ 2) x := by
    have := hx.fun_pow 3
    simpa using this
  have p0 := ((((hx.const_mul b).const_add a).add (h2.const_mul c)).add (h3.const_mul d)).div_const z
  have p1 := ((((hx.const_mul (2 * c)).const_add b)).add (h2.const_mul (3 * d))).div_const (z ^ 2)
  have p2 := ((hx.const_mul (6 * d)).const_add (2 * c)).div_const (z ^ 3)
  have := he.mul (((p0.sub p1).add p2).sub_const (6 * d / z ^ 4))
  refine (HasDerivAt.congr_deriv this ?_)
  simp only [Pi.add_apply, Pi.sub_apply]
  field_simp
  ring

/-- An antiderivative of `a + b x + c x² + d x³`. -/
noncomputable def polyPrim (a b c d : ℂ) (x : ℝ) : ℂ := a * x + b * x ^ 2 / 2 + c * x ^ 3 / 3 + d * x ^ 4 / 4

theorem polyPrim_deriv (a b c d : ℂ) (x : ℝ) : HasDerivAt (polyPrim a b c d) (a + b * x + c * x ^ 2 + d * x ^ 3) x := by
  have hx : HasDerivAt (fun x : ℝ => (x : ℂ)) 1 x := Complex.ofRealCLM.hasDerivAt
  have h2 := hx.fun_pow 2
  have h3 := hx.fun_pow 3
  have h4 := hx.fun_pow 4
  have := (((hx.const_mul a).add ((h2.const_mul b).div_const 2)).add ((h3.const_mul c).div_const 3)).add ((h4.const_mul d).div_const 4)
  refine (HasDerivAt.congr_deriv this ?_)
  push_cast
  ring

/-- The two antiderivatives together. -/
noncomputable def pePrim (a b c d z : ℂ) (x : ℝ) : ℂ := if z = 0 then polyPrim a b c d x else polyExpPrim a b c d z x

/-- Integral over a piece on which the integrand is a polynomial times an exponential (except at the ends). -/
theorem piece {f : ℝ → ℂ} {l r : ℝ} (hlr : l ≤ r) (a b c d : ℂ) (z : ℂ)
    (hf : ∀ x, l < x → x < r → f x = (a + b * x + c * x ^ 2 + d * x ^ 3) * exp (z * x)) :
    IntervalIntegrable f volume l r ∧ ∫ x in l..r, f x = pePrim a b c d z r - pePrim a b c d z l := by
  have hc : Continuous fun x : ℝ => (a + b * x + c * x ^ 2 + d * x ^ 3) * exp (z * x) := by fun_prop
  have heq : EqOn f (fun x : ℝ => (a + b * x + c * x ^ 2 + d * x ^ 3) * exp (z * x)) (uIoo l r) := by
    intro x hx
    rw [uIoo_of_le hlr] at hx
    exact hf x hx.1 hx.2
  refine ⟨(intervalIntegrable_congr_uIoo heq).2 (hc.intervalIntegrable _ _), ?_⟩
  rw [integral_congr_uIoo heq]
  apply integral_eq_sub_of_hasDerivAt (fun x _ => ?_) (hc.intervalIntegrable _ _)
  unfold pePrim
  by_cases hz : z = 0
  · subst hz
    simpa using polyPrim_deriv a b c d x
  · simp only [if_neg hz]
    exact polyExpPrim_deriv a b c d hz x

/-- Restriction of the integral to an interval outside of which the kernel vanishes. -/
theorem kernel_interval {k : ℝ → ℝ} {A : ℝ} (hA : 0 ≤ A) (hl : ∀ x, x ≤ -A → k x = 0) (hr : ∀ x, A < x → k x = 0) (z v : ℂ)
    (h : IntervalIntegrable (fun x : ℝ => (k x : ℂ) * exp (z * x)) volume (-A) A ∧ ∫ x in (-A)..A, (k x : ℂ) * exp (z * x) = v) :
    Integrable (fun x : ℝ => (k x : ℂ) * exp (z * x)) ∧ ∫ x : ℝ, (k x : ℂ) * exp (z * x) = v := by
  have hs : Function.support (fun x : ℝ => (k x : ℂ) * exp (z * x)) ⊆ Ioc (-A) A := by
    intro x hx
    rw [Function.mem_support] at hx
    constructor
    · by_contra h
      exact hx (by rw [hl x (by linarith)]; simp)
    · by_contra h
      exact hx (by rw [hr x (by linarith)]; simp)
  constructor
  · rw [← integrableOn_iff_integrable_of_support_subset hs]
    exact (intervalIntegrable_iff_integrableOn_Ioc_of_le (by linarith)).1 h.1
  · rw [← h.2, integral_eq_integral_of_support_subset hs]

/-- `(e^{z/2} - e^{-z/2}) / z`, 1 at zero: for `z = -i w` this is `sin(w/2) / (w/2)`. -/
noncomputable def expSinc (z : ℂ) : ℂ := if z = 0 then 1 else (exp (z / 2) - exp (-(z / 2))) / z

theorem nearest_integral (z : ℂ) : Integrable (fun x : ℝ => ((nearestKernel x : ℝ) : ℂ) * exp (z * x)) ∧
    ∫ x : ℝ, ((nearestKernel x : ℝ) : ℂ) * exp (z * x) = expSinc z := by
  refine kernel_interval (A := 1) (by norm_num) ?_ ?_ z _ ?_
  rotate_left 2
  · obtain ⟨i1, e1⟩ := piece (f := fun x : ℝ => ((nearestKernel x : ℝ) : ℂ) * exp (z * x)) (l := -1) (r := -(1 / 2)) (by norm_num) 0 0 0 0 z
      (by intro x h1 h2; rw [nearestKernel, if_neg (by rintro ⟨-, h⟩; linarith)]; simp)
    obtain ⟨i2, e2⟩ := piece (f := fun x : ℝ => ((nearestKernel x : ℝ) : ℂ) * exp (z * x)) (l := -(1 / 2)) (r := 1 / 2) (by norm_num) 1 0 0 0 z
      (by intro x h1 h2; rw [nearestKernel, if_pos ⟨h2, h1.le⟩]; simp)
    obtain ⟨i3, e3⟩ := piece (f := fun x : ℝ => ((nearestKernel x : ℝ) : ℂ) * exp (z * x)) (l := 1 / 2) (r := 1) (by norm_num) 0 0 0 0 z
      (by intro x h1 h2; rw [nearestKernel, if_neg (by rintro ⟨h, -⟩; linarith)]; simp)
    refine ⟨(i1.trans i2).trans i3, ?_⟩
    rw [← integral_add_adjacent_intervals (i1.trans i2) i3, ← integral_add_adjacent_intervals i1 i2, e1, e2, e3]
    unfold pePrim expSinc
    by_cases hz : z = 0
    · simp only [if_pos hz]
      unfold polyPrim
      push_cast
      ring
    simp only [if_neg hz]
    unfold polyExpPrim
    push_cast
    rw [show z * (1 / 2) = z / 2 by ring, show z * -(1 / 2) = -(z / 2) by ring]
    field_simp
    ring
  · intro x hx
    rw [nearestKernel, if_neg (by rintro ⟨-, h⟩; linarith)]
  · intro x hx
    rw [nearestKernel, if_neg (by rintro ⟨h, -⟩; linarith)]

theorem linear_integral (z : ℂ) : Integrable (fun x : ℝ => ((linearKernel x : ℝ) : ℂ) * exp (z * x)) ∧
    ∫ x : ℝ, ((linearKernel x : ℝ) : ℂ) * exp (z * x) = expSinc z ^ 2 := by
  refine kernel_interval (A := 1) (by norm_num) ?_ ?_ z _ ?_
  rotate_left 2
  · obtain ⟨i1, e1⟩ := piece (f := fun x : ℝ => ((linearKernel x : ℝ) : ℂ) * exp (z * x)) (l := -1) (r := 0) (by norm_num) 1 1 0 0 z
      (by intro x h1 h2; rw [linearKernel, abs_of_neg h2, if_pos (by linarith)]; push_cast; ring)
    obtain ⟨i2, e2⟩ := piece (f := fun x : ℝ => ((linearKernel x : ℝ) : ℂ) * exp (z * x)) (l := 0) (r := 1) (by norm_num) 1 (-1) 0 0 z
      (by intro x h1 h2; rw [linearKernel, abs_of_pos h1, if_pos (by linarith)]; push_cast; ring)
    refine ⟨i1.trans i2, ?_⟩
    rw [← integral_add_adjacent_intervals i1 i2, e1, e2]
    unfold pePrim expSinc
    by_cases hz : z = 0
    · simp only [if_pos hz]
      unfold polyPrim
      push_cast
      ring
    simp only [if_neg hz]
    unfold polyExpPrim
    push_cast
    have h2 : exp (z * 1) = exp (z / 2) ^ 2 := by rw [← exp_nat_mul]; congr 1; push_cast; ring
    have h3 : exp (z * -1) = exp (-(z / 2)) ^ 2 := by rw [← exp_nat_mul]; congr 1; push_cast; ring
    have h4 : exp (-(z / 2)) = (exp (z / 2))⁻¹ := exp_neg _
    have h5 : exp (z / 2) ≠ 0 := exp_ne_zero _
    rw [h2, h3, h4, mul_zero, exp_zero]
    field_simp
    ring
  · intro x hx
    rw [linearKernel, if_neg (by rw [abs_of_nonpos (by linarith)]; linarith)]
  · intro x hx
    rw [linearKernel, if_neg (by rw [abs_of_nonneg (by linarith)]; linarith)]

theorem quadratic_integral (z : ℂ) : Integrable (fun x : ℝ => ((quadraticKernel x : ℝ) : ℂ) * exp (z * x)) ∧
    ∫ x : ℝ, ((quadraticKernel x : ℝ) : ℂ) * exp (z * x) = expSinc z ^ 3 := by
  refine kernel_interval (A := 3 / 2) (by norm_num) ?_ ?_ z _ ?_
  rotate_left 2
  · obtain ⟨i1, e1⟩ := piece (f := fun x : ℝ => ((quadraticKernel x : ℝ) : ℂ) * exp (z * x)) (l := -(3 / 2)) (r := -(1 / 2)) (by norm_num)
      (9 / 8) (3 / 2) (1 / 2) 0 z
      (by
        intro x h1 h2
        simp only [quadraticKernel]
        rw [abs_of_neg (by linarith), if_neg (by linarith), if_pos (by linarith)]; push_cast; ring)
    obtain ⟨i2, e2⟩ := piece (f := fun x : ℝ => ((quadraticKernel x : ℝ) : ℂ) * exp (z * x)) (l := -(1 / 2)) (r := 1 / 2) (by norm_num)
      (3 / 4) 0 (-1) 0 z
      (by
        intro x h1 h2
        simp only [quadraticKernel]
        rw [if_pos (abs_le.2 ⟨by linarith, by linarith⟩), abs_mul_abs_self]; push_cast; ring)
    obtain ⟨i3, e3⟩ := piece (f := fun x : ℝ => ((quadraticKernel x : ℝ) : ℂ) * exp (z * x)) (l := 1 / 2) (r := 3 / 2) (by norm_num)
      (9 / 8) (-(3 / 2)) (1 / 2) 0 z
      (by
        intro x h1 h2
        simp only [quadraticKernel]
        rw [abs_of_pos (by linarith), if_neg (by linarith), if_pos (by linarith)]; push_cast; ring)
    refine ⟨(i1.trans i2).trans i3, ?_⟩
    rw [← integral_add_adjacent_intervals (i1.trans i2) i3, ← integral_add_adjacent_intervals i1 i2, e1, e2, e3]
    unfold pePrim expSinc
    by_cases hz : z = 0
    · simp only [if_pos hz]
      unfold polyPrim
      push_cast
      ring
    simp only [if_neg hz]
    unfold polyExpPrim
    push_cast
    have h1 : exp (z * (1 / 2)) = exp (z / 2) := by congr 1; ring
    have h2 : exp (z * -(1 / 2)) = exp (-(z / 2)) := by congr 1; ring
    have h2' : exp (z * (3 / 2)) = exp (z / 2) ^ 3 := by rw [← exp_nat_mul]; congr 1; push_cast; ring
    have h3 : exp (z * -(3 / 2)) = exp (-(z / 2)) ^ 3 := by rw [← exp_nat_mul]; congr 1; push_cast; ring
    have h4 : exp (-(z / 2)) = (exp (z / 2))⁻¹ := exp_neg _
    have h5 : exp (z / 2) ≠ 0 := exp_ne_zero _
    rw [h1, h2, h2', h3, h4]
    field_simp
    ring
  · intro x hx
    simp only [quadraticKernel]
    rw [abs_of_nonpos (by linarith), if_neg (by linarith), if_neg (by linarith)]
  · intro x hx
    simp only [quadraticKernel]
    rw [abs_of_nonneg (by linarith), if_neg (by linarith), if_neg (by linarith)]

theorem cubic_integral (z : ℂ) : Integrable (fun x : ℝ => ((cubicKernel x : ℝ) : ℂ) * exp (z * x)) ∧
    ∫ x : ℝ, ((cubicKernel x : ℝ) : ℂ) * exp (z * x) = expSinc z ^ 4 := by
  refine kernel_interval (A := 2) (by norm_num) ?_ ?_ z _ ?_
  rotate_left 2
  · obtain ⟨i1, e1⟩ := piece (f := fun x : ℝ => ((cubicKernel x : ℝ) : ℂ) * exp (z * x)) (l := -2) (r := -1) (by norm_num)
      (8 / 6) 2 1 (1 / 6) z
      (by
        intro x h1 h2
        simp only [cubicKernel]
        rw [abs_of_neg (by linarith), if_neg (by linarith), if_pos (by linarith)]; push_cast; ring)
    obtain ⟨i2, e2⟩ := piece (f := fun x : ℝ => ((cubicKernel x : ℝ) : ℂ) * exp (z * x)) (l := -1) (r := 0) (by norm_num)
      (2 / 3) 0 (-1) (-1 / 2) z
      (by
        intro x h1 h2
        simp only [cubicKernel]
        rw [abs_of_neg (by linarith), if_pos (by linarith)]; push_cast; ring)
    obtain ⟨i3, e3⟩ := piece (f := fun x : ℝ => ((cubicKernel x : ℝ) : ℂ) * exp (z * x)) (l := 0) (r := 1) (by norm_num)
      (2 / 3) 0 (-1) (1 / 2) z
      (by
        intro x h1 h2
        simp only [cubicKernel]
        rw [abs_of_pos (by linarith), if_pos (by linarith)]; push_cast; ring)
    obtain ⟨i4, e4⟩ := piece (f := fun x : ℝ => ((cubicKernel x : ℝ) : ℂ) * exp (z * x)) (l := 1) (r := 2) (by norm_num)
      (8 / 6) (-2) 1 (-1 / 6) z
      (by
        intro x h1 h2
        simp only [cubicKernel]
        rw [abs_of_pos (by linarith), if_neg (by linarith), if_pos (by linarith)]; push_cast; ring)
    refine ⟨((i1.trans i2).trans i3).trans i4, ?_⟩
    rw [← integral_add_adjacent_intervals ((i1.trans i2).trans i3) i4, ← integral_add_adjacent_intervals (i1.trans i2) i3,
      ← integral_add_adjacent_intervals i1 i2, e1, e2, e3, e4]
    unfold pePrim expSinc
    by_cases hz : z = 0
    · simp only [if_pos hz]
      unfold polyPrim
      push_cast
      ring
    simp only [if_neg hz]
    unfold polyExpPrim
    push_cast
    have h1 : exp (z * 1) = exp (z / 2) ^ 2 := by rw [← exp_nat_mul]; congr 1; push_cast; ring
    have h2 : exp (z * -1) = exp (-(z / 2)) ^ 2 := by rw [← exp_nat_mul]; congr 1; push_cast; ring
    have h2' : exp (z * 2) = exp (z / 2) ^ 4 := by rw [← exp_nat_mul]; congr 1; push_cast; ring
    have h3 : exp (z * -2) = exp (-(z / 2)) ^ 4 := by rw [← exp_nat_mul]; congr 1; push_cast; ring
    have h4 : exp (-(z / 2)) = (exp (z / 2))⁻¹ := exp_neg _
    have h5 : exp (z / 2) ≠ 0 := exp_ne_zero _
    rw [h1, h2, h2', h3, h4, mul_zero, exp_zero]
    field_simp
    ring
  · intro x hx
    simp only [cubicKernel]
    rw [abs_of_nonpos (by linarith), if_neg (by linarith), if_neg (by linarith)]
  · intro x hx
    simp only [cubicKernel]
    rw [abs_of_nonneg (by linarith), if_neg (by linarith)]
    split_ifs <;> linarith

end Pmesh
