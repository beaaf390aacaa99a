import Verif.Spec.NoiseLaw
import Mathlib.Analysis.SpecialFunctions.PolarCoord
import Mathlib.MeasureTheory.Function.JacobianOneDim
import Mathlib.Probability.Distributions.Gaussian.Real

/-!
# The method of Box and Muller

For independent numbers `a`, `p`, uniform in the unit interval, `sqrt(-log a)` times cosine and sine of `2 π p` are independent and normally distributed
with variance one half.
-/

namespace Pmesh

open MeasureTheory ProbabilityTheory Real Set
open scoped ENNReal

instance : IsProbabilityMeasure unif := ⟨by simp [unif]⟩

/-- `ampl * cos(phase)`, `ampl * sin(phase)` with `ampl = sqrt(-log(a))` and `phase = 2 π p`. -/
noncomputable def boxMuller (x : ℝ × ℝ) : ℝ × ℝ := (sqrt (-log x.1) * cos (x.2 * 2 * π), sqrt (-log x.1) * sin (x.2 * 2 * π))

theorem measurable_boxMuller : Measurable boxMuller := by
  unfold boxMuller
  fun_prop

theorem lintegral_rayleigh (g : ℝ → ℝ≥0∞) :
    ∫⁻ a in Ioo (0 : ℝ) 1, g (sqrt (-log a)) = ∫⁻ r in Ioi (0 : ℝ), ENNReal.ofReal (2 * r * exp (-r ^ 2)) * g r := by
  have himg : (fun r : ℝ => exp (-r ^ 2)) '' Ioi 0 = Ioo 0 1 := by
    ext a
    constructor
    · rintro ⟨r, hr, rfl⟩
      have hr : 0 < r := hr
      exact ⟨exp_pos _, exp_lt_one_iff.2 (by have := pow_pos hr 2; linarith)⟩
    · rintro ⟨h0, h1⟩
      have hl : 0 < -log a := by have := log_neg h0 h1; linarith
      refine ⟨sqrt (-log a), sqrt_pos.2 hl, ?_⟩
      simp only
      rw [sq_sqrt hl.le, neg_neg, exp_log h0]
  have hd : ∀ r ∈ Ioi (0 : ℝ), HasDerivWithinAt (fun r : ℝ => exp (-r ^ 2)) (exp (-r ^ 2) * (-(2 * r))) (Ioi 0) r := by
    intro r _
    have := ((hasDerivAt_pow 2 r).neg).exp
    simp only [Nat.cast_ofNat, Nat.add_one_sub_one, pow_one] at this
    exact this.hasDerivWithinAt
  have hinj : InjOn (fun r : ℝ => exp (-r ^ 2)) (Ioi 0) := by
    intro x hx y hy h
    have h := exp_injective h
    have hx : 0 < x := hx
    have hy : 0 < y := hy
    have : x ^ 2 = y ^ 2 := by linarith
    exact (pow_left_inj₀ hx.le hy.le (by norm_num)).1 this
  have := lintegral_image_eq_lintegral_abs_deriv_mul measurableSet_Ioi hd hinj (fun a => g (sqrt (-log a)))
  rw [himg] at this
  rw [this]
  refine setLIntegral_congr_fun measurableSet_Ioi fun r hr => ?_
  have hr : 0 < r := hr
  rw [log_exp, neg_neg, sqrt_sq hr.le]
  congr 2
  rw [abs_of_nonpos (by have := exp_pos (-r ^ 2); nlinarith)]
  ring

theorem lintegral_phase (g : ℝ → ℝ≥0∞) :
    ∫⁻ p in Ioo (0 : ℝ) 1, g (p * 2 * π - π) = ENNReal.ofReal (1 / (2 * π)) * ∫⁻ t in Ioo (-π) π, g t := by
  have himg : (fun t : ℝ => (t + π) / (2 * π)) '' Ioo (-π) π = Ioo 0 1 := by
    have hp := pi_pos
    ext a
    constructor
    · rintro ⟨t, ⟨h1, h2⟩, rfl⟩
      refine ⟨by simp only; apply div_pos <;> linarith, ?_⟩
      simp only
      rw [div_lt_one (by linarith)]
      linarith
    · rintro ⟨h0, h1⟩
      refine ⟨a * 2 * π - π, ⟨by nlinarith, by nlinarith⟩, ?_⟩
      simp only
      field_simp
      ring
  have hd : ∀ t ∈ Ioo (-π) π, HasDerivWithinAt (fun t : ℝ => (t + π) / (2 * π)) (1 / (2 * π)) (Ioo (-π) π) t := by
    intro t _
    exact (((hasDerivAt_id t).add_const π).div_const (2 * π)).hasDerivWithinAt
  have hinj : InjOn (fun t : ℝ => (t + π) / (2 * π)) (Ioo (-π) π) := by
    intro x _ y _ h
    have hp := pi_pos
    simp only at h
    have := (div_left_inj' (by positivity : (2 * π) ≠ 0)).1 h
    linarith
  have := lintegral_image_eq_lintegral_abs_deriv_mul measurableSet_Ioo hd hinj (fun p => g (p * 2 * π - π))
  rw [himg] at this
  rw [this, abs_of_pos (by have := pi_pos; positivity), ← lintegral_const_mul' _ _ (by simp)]
  refine setLIntegral_congr_fun measurableSet_Ioo fun t _ => ?_
  congr 2
  have hp := pi_pos
  field_simp
  ring

theorem gaussianPDF_half (x y : ℝ) :
    gaussianPDF 0 (1 / 2) x * gaussianPDF 0 (1 / 2) y = ENNReal.ofReal (1 / π * exp (-(x ^ 2 + y ^ 2))) := by
  unfold gaussianPDF gaussianPDFReal
  rw [← ENNReal.ofReal_mul (by positivity)]
  congr 1
  have h1 : (2 * π * ((1 / 2 : NNReal) : ℝ)) = π := by push_cast; ring
  have h2 : (2 * ((1 / 2 : NNReal) : ℝ)) = 1 := by push_cast; ring
  rw [h1, h2]
  have h3 : (sqrt π)⁻¹ * (sqrt π)⁻¹ = 1 / π := by
    rw [← mul_inv, mul_self_sqrt pi_pos.le, one_div]
  calc (sqrt π)⁻¹ * exp (-(x - 0) ^ 2 / 1) * ((sqrt π)⁻¹ * exp (-(y - 0) ^ 2 / 1))
      = ((sqrt π)⁻¹ * (sqrt π)⁻¹) * (exp (-(x - 0) ^ 2 / 1) * exp (-(y - 0) ^ 2 / 1)) := by ring
    _ = _ := by rw [h3, ← exp_add]; congr 2; ring

/-- The two numbers are independent and normally distributed with variance one half. -/
theorem boxMuller_law : (unif.prod unif).map boxMuller = (gaussianReal 0 (1 / 2)).prod (gaussianReal 0 (1 / 2)) := by
  refine Measure.ext_of_lintegral _ fun F hF => ?_
  have hv : (1 / 2 : NNReal) ≠ 0 := by norm_num
  rw [lintegral_map hF measurable_boxMuller, lintegral_prod (fun x => F (boxMuller x)) (hF.comp measurable_boxMuller).aemeasurable,
    gaussianReal_of_var_ne_zero _ hv, prod_withDensity (measurable_gaussianPDF _ _) (measurable_gaussianPDF _ _),
    lintegral_withDensity_eq_lintegral_mul _ (by
      have := measurable_gaussianPDF 0 (1 / 2)
      fun_prop) hF]
  have hbm : ∀ a p : ℝ, boxMuller (a, p) = -(polarCoord.symm (sqrt (-log a), p * 2 * π - π)) := by
    intro a p
    simp only [boxMuller, polarCoord_symm_apply, cos_sub_pi, sin_sub_pi]
    ext <;> simp
  simp only [Pi.mul_apply, gaussianPDF_half, hbm]
  -- the left side
  have hL : ∀ a : ℝ, ∫⁻ p, F (-(polarCoord.symm (sqrt (-log a), p * 2 * π - π))) ∂unif =
      ENNReal.ofReal (1 / (2 * π)) * ∫⁻ t in Ioo (-π) π, F (-(polarCoord.symm (sqrt (-log a), t))) := by
    intro a
    exact lintegral_phase fun t => F (-(polarCoord.symm (sqrt (-log a), t)))
  simp only [hL]
  have hL2 := lintegral_rayleigh fun r => ENNReal.ofReal (1 / (2 * π)) * ∫⁻ t in Ioo (-π) π, F (-(polarCoord.symm (r, t)))
  unfold unif
  rw [hL2]
  -- the right side
  rw [← Measure.volume_eq_prod, ← lintegral_neg_eq_self (μ := (volume : Measure (ℝ × ℝ))), ← lintegral_comp_polarCoord_symm]
  have htar : polarCoord.target = Ioi (0 : ℝ) ×ˢ Ioo (-π) π := rfl
  have hsymm : Measurable fun q : ℝ × ℝ => polarCoord.symm q := by
    have : (fun q : ℝ × ℝ => polarCoord.symm q) = fun q => (q.1 * cos q.2, q.1 * sin q.2) := by
      funext q; exact polarCoord_symm_apply q
    rw [this]
    fun_prop
  rw [htar, Measure.volume_eq_prod, ← Measure.prod_restrict, lintegral_prod]
  · refine setLIntegral_congr_fun measurableSet_Ioi fun r hr => ?_
    have hr : 0 < r := hr
    have e : ∀ t : ℝ, ENNReal.ofReal r • (ENNReal.ofReal (1 / π * exp (-((-(polarCoord.symm (r, t))).1 ^ 2 + (-(polarCoord.symm (r, t))).2 ^ 2))) *
        F (-(polarCoord.symm (r, t)))) = ENNReal.ofReal (1 / π * r * exp (-r ^ 2)) * F (-(polarCoord.symm (r, t))) := by
      intro t
      rw [smul_eq_mul, ← mul_assoc, ← ENNReal.ofReal_mul hr.le]
      congr 2
      simp only [polarCoord_symm_apply, Prod.fst_neg, Prod.snd_neg]
      have : (-(r * cos t)) ^ 2 + (-(r * sin t)) ^ 2 = r ^ 2 := by
        have := sin_sq_add_cos_sq t
        nlinarith
      rw [this]
      ring
    simp only [e]
    rw [lintegral_const_mul' _ _ (by simp), ← mul_assoc, ← ENNReal.ofReal_mul (by positivity)]
    congr 2
    field_simp
  · refine Measurable.aemeasurable ?_
    fun_prop

end Pmesh
