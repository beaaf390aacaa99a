import Mathlib.Analysis.SpecialFunctions.ExpDeriv
import Mathlib.Analysis.SpecialFunctions.Sqrt
import Mathlib.Analysis.Calculus.Deriv.Pow
import Mathlib.Analysis.Calculus.Deriv.Inv
import Mathlib.MeasureTheory.Integral.IntervalIntegral.FundThmCalculus
import Mathlib.Tactic.Positivity
import Verif.Model.Cosmology

/-! # Lemmas about the background cosmology -/

namespace Pmesh

/-- The square of the expansion rate as a function of `loga`. -/
noncomputable def rateSq (m k v : ℝ) (l : ℝ) : ℝ := m * Real.exp (-3 * l) + k * Real.exp (-2 * l) + v

theorem Ea_eq_sqrt (c : Cosmology) {a : ℝ} (ha : 0 < a) :
    c.Ea a = Real.sqrt (c.M * a⁻¹ ^ 3 + (1 - c.M - c.L) * a⁻¹ ^ 2 + c.L) := by
  have e : c.M * a⁻¹ ^ 3 + (1 - c.M - c.L) * a⁻¹ ^ 2 + c.L = (c.M + (1 - c.M - c.L) * a + c.L * a ^ 3) * a⁻¹ ^ 3 := by
    field_simp
  rw [e, Cosmology.Ea, Real.sqrt_mul' _ (by positivity), mul_comm]
  congr 1
  · rw [Real.sqrt_eq_rpow]; norm_num
  · rw [Real.sqrt_eq_rpow, inv_pow, ← Real.rpow_natCast, ← Real.rpow_neg ha.le, ← Real.rpow_mul ha.le]; norm_num

theorem Ea_exp (c : Cosmology) (l : ℝ) : c.Ea (Real.exp l) = Real.sqrt (rateSq c.M (1 - c.M - c.L) c.L l) := by
  rw [Ea_eq_sqrt c (Real.exp_pos l), rateSq]
  have e1 : (Real.exp l)⁻¹ ^ 3 = Real.exp (-3 * l) := by
    rw [← Real.exp_neg, ← Real.exp_nat_mul]; congr 1; push_cast; ring
  have e2 : (Real.exp l)⁻¹ ^ 2 = Real.exp (-2 * l) := by
    rw [← Real.exp_neg, ← Real.exp_nat_mul]; congr 1; push_cast; ring
  rw [e1, e2]

/-- `exp(-p loga) / (E H0)`. -/
noncomputable def expOver (p m k v H0 : ℝ) (l : ℝ) : ℝ := Real.exp (-p * l) / (Real.sqrt (rateSq m k v l) * H0)

theorem kickIntegrand_eq (c : Cosmology) (H0 l : ℝ) : kickIntegrand c H0 l = expOver 1 c.M (1 - c.M - c.L) c.L H0 l := by
  unfold kickIntegrand expOver
  dsimp only
  rw [Ea_exp, neg_one_mul, Real.exp_neg, one_div, mul_inv, div_eq_mul_inv]

theorem driftIntegrand_eq (c : Cosmology) (H0 l : ℝ) : driftIntegrand c H0 l = expOver 2 c.M (1 - c.M - c.L) c.L H0 l := by
  unfold driftIntegrand expOver
  dsimp only
  rw [Ea_exp, show -2 * l = -l + -l from by ring, Real.exp_add, Real.exp_neg, one_div, mul_inv, mul_inv, div_eq_mul_inv]

section
variable {m k v : ℝ} (hm : 0 < m) (hk : 0 ≤ k) (hv : 0 ≤ v)
include hm hk hv

theorem rateSq_pos (l : ℝ) : 0 < rateSq m k v l := by
  unfold rateSq
  have := Real.exp_pos (-3 * l)
  have := Real.exp_pos (-2 * l)
  positivity

theorem hasDerivAt_rate (l : ℝ) : HasDerivAt (rateSq m k v) (-3 * (m * Real.exp (-3 * l)) + -2 * (k * Real.exp (-2 * l))) l := by
  unfold rateSq
  have h3 : HasDerivAt (fun l : ℝ => Real.exp (-3 * l)) (Real.exp (-3 * l) * -3) l := by
    simpa using ((hasDerivAt_id l).const_mul (-3)).exp
  have h2 : HasDerivAt (fun l : ℝ => Real.exp (-2 * l)) (Real.exp (-2 * l) * -2) l := by
    simpa using ((hasDerivAt_id l).const_mul (-2)).exp
  have := ((h3.const_mul m).add (h2.const_mul k)).add_const v
  exact this.congr_deriv (by ring)

/-- The derivative of `rateSq`. -/
noncomputable def rateSq1 (m k : ℝ) (l : ℝ) : ℝ := -3 * (m * Real.exp (-3 * l)) + -2 * (k * Real.exp (-2 * l))

/-- The second derivative of `rateSq`. -/
noncomputable def rateSq2 (m k : ℝ) (l : ℝ) : ℝ := 9 * (m * Real.exp (-3 * l)) + 4 * (k * Real.exp (-2 * l))

theorem hasDerivAt_rate1 (l : ℝ) : HasDerivAt (rateSq1 m k) (rateSq2 m k l) l := by
  unfold rateSq1 rateSq2
  have h3 : HasDerivAt (fun l : ℝ => Real.exp (-3 * l)) (Real.exp (-3 * l) * -3) l := by
    simpa using ((hasDerivAt_id l).const_mul (-3)).exp
  have h2 : HasDerivAt (fun l : ℝ => Real.exp (-2 * l)) (Real.exp (-2 * l) * -2) l := by
    simpa using ((hasDerivAt_id l).const_mul (-2)).exp
  have := ((h3.const_mul m).const_mul (-3)).add ((h2.const_mul k).const_mul (-2))
  exact this.congr_deriv (by ring)

theorem rate_bounds (l : ℝ) : -3 * rateSq m k v l ≤ rateSq1 m k l ∧ rateSq1 m k l ≤ 0 ∧ 0 ≤ rateSq2 m k l ∧ rateSq2 m k l ≤ 9 * rateSq m k v l := by
  unfold rateSq rateSq1 rateSq2
  have h1 : 0 ≤ m * Real.exp (-3 * l) := by positivity
  have h2 : 0 ≤ k * Real.exp (-2 * l) := by positivity
  refine ⟨?_, ?_, ?_, ?_⟩ <;> linarith

/-- The relative slope of `expOver`, with the sign changed. -/
noncomputable def slopeOf (p m k v l : ℝ) : ℝ := p + rateSq1 m k l / (2 * rateSq m k v l)

/-- The derivative of the slope. -/
noncomputable def slopeOf1 (m k v l : ℝ) : ℝ :=
  (rateSq2 m k l * (2 * rateSq m k v l) - rateSq1 m k l * (2 * rateSq1 m k l)) / (2 * rateSq m k v l) ^ 2

theorem hasDerivAt_expOver (p H0 l : ℝ) (hH : 0 < H0) :
    HasDerivAt (expOver p m k v H0) (-(expOver p m k v H0 l * slopeOf p m k v l)) l := by
  have hpos := rateSq_pos hm hk hv l
  have hr : HasDerivAt (rateSq m k v) (rateSq1 m k l) l := hasDerivAt_rate hm hk hv l
  have hs := hr.sqrt hpos.ne'
  have he : HasDerivAt (fun l : ℝ => Real.exp (-p * l)) (Real.exp (-p * l) * -p) l := by
    simpa using ((hasDerivAt_id l).const_mul (-p)).exp
  have hsp := Real.sqrt_pos.mpr hpos
  have := he.div (hs.mul_const H0) (by positivity)
  refine this.congr_deriv ?_
  unfold slopeOf expOver
  have hsq : Real.sqrt (rateSq m k v l) ^ 2 = rateSq m k v l := Real.sq_sqrt hpos.le
  set s := Real.sqrt (rateSq m k v l) with hsdef
  rw [← hsq]
  field_simp
  ring

theorem hasDerivAt_slope (p l : ℝ) : HasDerivAt (slopeOf p m k v) (slopeOf1 m k v l) l := by
  have hpos := rateSq_pos hm hk hv l
  have hr : HasDerivAt (rateSq m k v) (rateSq1 m k l) l := hasDerivAt_rate hm hk hv l
  have h1 := hasDerivAt_rate1 hm hk hv l
  exact (h1.div (hr.const_mul 2) (by positivity)).const_add p

theorem hasDerivAt_expOver1 (p H0 l : ℝ) (hH : 0 < H0) :
    HasDerivAt (fun l => -(expOver p m k v H0 l * slopeOf p m k v l))
      (expOver p m k v H0 l * (slopeOf p m k v l ^ 2 - slopeOf1 m k v l)) l := by
  have := ((hasDerivAt_expOver hm hk hv p H0 l hH).mul (hasDerivAt_slope hm hk hv p l)).neg
  exact this.congr_deriv (by ring)

theorem expOver_pos (p H0 l : ℝ) (hH : 0 < H0) : 0 < expOver p m k v H0 l := by
  have := Real.sqrt_pos.mpr (rateSq_pos hm hk hv l)
  unfold expOver
  positivity

theorem expOver2_bound (p H0 l : ℝ) (hH : 0 < H0) (hp1 : 1 ≤ p) (hp2 : p ≤ 2) :
    |expOver p m k v H0 l * (slopeOf p m k v l ^ 2 - slopeOf1 m k v l)| ≤ 17 / 2 * expOver p m k v H0 l := by
  have hpos := rateSq_pos hm hk hv l
  obtain ⟨b1, b2, b3, b4⟩ := rate_bounds hm hk hv l
  have hf := expOver_pos hm hk hv p H0 l hH
  rw [abs_mul, abs_of_pos hf, mul_comm]
  refine mul_le_mul_of_nonneg_right ?_ hf.le
  have hq1 : slopeOf p m k v l ≤ 2 := by
    unfold slopeOf
    have : rateSq1 m k l / (2 * rateSq m k v l) ≤ 0 := div_nonpos_of_nonpos_of_nonneg b2 (by linarith)
    linarith
  have hq2 : -2 ≤ slopeOf p m k v l := by
    unfold slopeOf
    have : -3 / 2 ≤ rateSq1 m k l / (2 * rateSq m k v l) := by
      rw [le_div_iff₀ (by linarith)]; linarith
    linarith
  have hd1 : slopeOf1 m k v l ≤ 9 / 2 := by
    unfold slopeOf1
    rw [div_le_iff₀ (by positivity)]
    nlinarith [sq_nonneg (rateSq1 m k l), mul_nonneg (sub_nonneg.mpr b4) hpos.le]
  have hd2 : -(9 / 2) ≤ slopeOf1 m k v l := by
    unfold slopeOf1
    rw [le_div_iff₀ (by positivity)]
    nlinarith [mul_nonneg b3 hpos.le, mul_nonneg (neg_nonneg.mpr b2) (by linarith : 0 ≤ rateSq1 m k l + 3 * rateSq m k v l),
      mul_nonneg hpos.le (by linarith : 0 ≤ rateSq1 m k l + 3 * rateSq m k v l)]
  rw [abs_le]
  constructor <;> nlinarith

theorem rate_ratio (x y : ℝ) : rateSq m k v x ≤ Real.exp (3 * |y - x|) * rateSq m k v y := by
  have h3 : Real.exp (-3 * x) ≤ Real.exp (3 * |y - x|) * Real.exp (-3 * y) := by
    rw [← Real.exp_add]; apply Real.exp_le_exp.mpr; linarith [le_abs_self (y - x)]
  have h2 : Real.exp (-2 * x) ≤ Real.exp (3 * |y - x|) * Real.exp (-2 * y) := by
    rw [← Real.exp_add]; apply Real.exp_le_exp.mpr; linarith [le_abs_self (y - x), abs_nonneg (y - x)]
  have h0 : 1 ≤ Real.exp (3 * |y - x|) := Real.one_le_exp (by positivity)
  unfold rateSq
  nlinarith [mul_le_mul_of_nonneg_left h3 hm.le, mul_le_mul_of_nonneg_left h2 hk, mul_le_mul_of_nonneg_left h0 hv]

theorem expOver_ratio {p H0 : ℝ} (hH : 0 < H0) (hp1 : 1 ≤ p) (hp2 : p ≤ 2) {h : ℝ} (x y : ℝ) (hxy : |y - x| ≤ h) :
    expOver p m k v H0 y ≤ Real.exp (7 / 2 * h) * expOver p m k v H0 x := by
  have hr := rate_ratio hm hk hv x y
  have hx := Real.sqrt_pos.mpr (rateSq_pos hm hk hv x)
  have hy := Real.sqrt_pos.mpr (rateSq_pos hm hk hv y)
  have hs : Real.sqrt (rateSq m k v x) ≤ Real.exp (3 / 2 * h) * Real.sqrt (rateSq m k v y) := by
    apply Real.sqrt_le_iff.mpr
    refine ⟨by positivity, ?_⟩
    rw [mul_pow, Real.sq_sqrt (rateSq_pos hm hk hv y).le, ← Real.exp_nat_mul]
    refine hr.trans (mul_le_mul_of_nonneg_right ?_ (rateSq_pos hm hk hv y).le)
    apply Real.exp_le_exp.mpr
    push_cast
    linarith
  have he : Real.exp (-p * y) ≤ Real.exp (2 * h) * Real.exp (-p * x) := by
    rw [← Real.exp_add]
    apply Real.exp_le_exp.mpr
    have h1 := neg_abs_le (y - x)
    have h2 := abs_nonneg (y - x)
    nlinarith [mul_le_mul_of_nonneg_left h1 (by linarith : 0 ≤ p), mul_le_mul_of_nonneg_right hp2 h2]
  unfold expOver
  rw [← mul_div_assoc, div_le_div_iff₀ (by positivity) (by positivity)]
  have e : Real.exp (7 / 2 * h) = Real.exp (2 * h) * Real.exp (3 / 2 * h) := by
    rw [← Real.exp_add]; congr 1; ring
  rw [e]
  calc Real.exp (-p * y) * (Real.sqrt (rateSq m k v x) * H0)
      ≤ (Real.exp (2 * h) * Real.exp (-p * x)) * ((Real.exp (3 / 2 * h) * Real.sqrt (rateSq m k v y)) * H0) :=
        mul_le_mul he (mul_le_mul_of_nonneg_right hs hH.le) (by positivity) (by positivity)
    _ = _ := by ring

end

end Pmesh
