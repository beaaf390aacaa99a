import Verif.Props.Cosmology

/-! # C114: the growth function solves the equation of linear growth; distances -/

namespace Pmesh

open Real

section
variable {c : Cosmology} (hc : c.Expanding)
include hc

theorem Ea_pos {a : ℝ} (ha : 0 < a) : 0 < c.Ea a := by
  rw [Ea_eq_sqrt c ha]; exact sqrt_pos.mpr (hc a ha)

/-- The derivative of the expansion rate. -/
theorem hasDerivAt_Ea {a : ℝ} (ha : 0 < a) :
    HasDerivAt c.Ea ((-3 * c.M * a⁻¹ ^ 4 - 2 * (1 - c.M - c.L) * a⁻¹ ^ 3) / (2 * c.Ea a)) a := by
  have hi := hasDerivAt_inv ha.ne'
  have h1 : HasDerivAt (fun a : ℝ => c.M * a⁻¹ ^ 3 + (1 - c.M - c.L) * a⁻¹ ^ 2 + c.L)
      (-3 * c.M * a⁻¹ ^ 4 - 2 * (1 - c.M - c.L) * a⁻¹ ^ 3) a := by
    have := (((hi.pow 3).const_mul c.M).add ((hi.pow 2).const_mul (1 - c.M - c.L))).add_const c.L
    refine this.congr_deriv ?_
    push_cast
    field_simp
    ring
  have h2 := h1.sqrt (hc a ha).ne'
  rw [← Ea_eq_sqrt c ha] at h2
  refine h2.congr_of_eventuallyEq ?_
  filter_upwards [lt_mem_nhds ha] with b hb
  exact Ea_eq_sqrt c hb

/-- The integral in `Dplus`, as a function of `a`. -/
theorem hasDerivAt_growthIntegral {a : ℝ} (ha : 0 < a) :
    HasDerivAt (fun a : ℝ => ∫ l in logamin..log a, (exp l * c.Ea (exp l)) ^ (-3 : ℤ) * exp l) (1 / (a * c.Ea a) ^ 3) a := by
  have hcont : Continuous fun l : ℝ => (exp l * c.Ea (exp l)) ^ (-3 : ℤ) * exp l := by
    have hE : Continuous fun l : ℝ => c.Ea (exp l) := continuous_iff_continuousAt.mpr fun l =>
      ((hasDerivAt_Ea hc (exp_pos l)).continuousAt).comp continuous_exp.continuousAt
    refine (Continuous.zpow₀ (continuous_exp.mul hE) _ fun l => Or.inl ?_).mul continuous_exp
    exact (mul_pos (exp_pos l) (Ea_pos hc (exp_pos l))).ne'
  have h1 := (intervalIntegral.integral_hasDerivAt_right (hcont.intervalIntegrable logamin (log a))
    (hcont.stronglyMeasurableAtFilter _ _) hcont.continuousAt)
  have := h1.comp a (hasDerivAt_log ha.ne')
  refine this.congr_deriv ?_
  rw [exp_log ha]
  have hE := (Ea_pos hc ha).ne'
  rw [zpow_neg]
  norm_cast
  field_simp

/-- The first derivative of `Dplus`. -/
noncomputable def Dplus1 (c : Cosmology) (a : ℝ) : ℝ :=
  (-3 * c.M * a⁻¹ ^ 4 - 2 * (1 - c.M - c.L) * a⁻¹ ^ 3) / (2 * c.Ea a) * (∫ l in logamin..log a, (exp l * c.Ea (exp l)) ^ (-3 : ℤ) * exp l) +
    c.Ea a * (1 / (a * c.Ea a) ^ 3)

theorem hasDerivAt_Dplus {a : ℝ} (ha : 0 < a) : HasDerivAt c.Dplus (Dplus1 c a) a :=
  (hasDerivAt_Ea hc ha).mul (hasDerivAt_growthIntegral hc ha)

/-- The second derivative, by the equation of growth. -/
theorem hasDerivAt_Dplus1 {a : ℝ} (ha : 0 < a) : HasDerivAt (Dplus1 c)
    (3 / 2 * c.M / (a ^ 5 * c.Ea a ^ 2) * c.Dplus a -
      (3 / a + (-3 * c.M * a⁻¹ ^ 4 - 2 * (1 - c.M - c.L) * a⁻¹ ^ 3) / (2 * c.Ea a) / c.Ea a) * Dplus1 c a) a := by
  have hEp := Ea_pos hc ha
  have hE := hasDerivAt_Ea hc ha
  have hi := hasDerivAt_inv ha.ne'
  have hu : HasDerivAt (fun a : ℝ => -3 * c.M * a⁻¹ ^ 4 - 2 * (1 - c.M - c.L) * a⁻¹ ^ 3)
      (12 * c.M * a⁻¹ ^ 5 + 6 * (1 - c.M - c.L) * a⁻¹ ^ 4) a := by
    have := ((hi.pow 4).const_mul (-3 * c.M)).sub ((hi.pow 3).const_mul (2 * (1 - c.M - c.L)))
    refine this.congr_deriv ?_
    push_cast
    field_simp
    ring
  have hI := hasDerivAt_growthIntegral hc ha
  have hq := hu.div (hE.const_mul 2) (by positivity)
  have hr := hE.mul ((hasDerivAt_const a (1 : ℝ)).div (((hasDerivAt_id a).mul hE).pow 3) (by
    have : 0 < id a * c.Ea a := mul_pos ha hEp
    exact (pow_pos this 3).ne'))
  refine ((hq.mul hI).add hr).congr_deriv ?_
  unfold Dplus1 Cosmology.Dplus
  generalize (∫ l in logamin..log a, (exp l * c.Ea (exp l)) ^ (-3 : ℤ) * exp l) = I
  simp only [id, Pi.mul_apply, Pi.pow_apply, Pi.div_apply]
  set E := c.Ea a
  have hE0 : E ≠ 0 := hEp.ne'
  have ha0 : a ≠ 0 := ha.ne'
  push_cast
  field_simp
  ring

end

/-- **C114, the expansion.** `Ea` is the rate of the equation of Friedmann in units of the rate today, and 1 today. -/
theorem C114_friedmann (c : Cosmology) : (∀ a, 0 < a → 0 ≤ c.M * a⁻¹ ^ 3 + (1 - c.M - c.L) * a⁻¹ ^ 2 + c.L →
    0 ≤ c.Ea a ∧ c.Ea a ^ 2 = c.M / a ^ 3 + (1 - c.M - c.L) / a ^ 2 + c.L) ∧ c.Ea 1 = 1 := by
  constructor
  · intro a ha h
    rw [Ea_eq_sqrt c ha]
    refine ⟨sqrt_nonneg _, ?_⟩
    rw [sq_sqrt h]
    simp only [inv_pow, div_eq_mul_inv]
  · rw [Ea_eq_sqrt c one_pos, show c.M * (1 : ℝ)⁻¹ ^ 3 + (1 - c.M - c.L) * (1 : ℝ)⁻¹ ^ 2 + c.L = 1 from by norm_num; ring, sqrt_one]

/-- **C114, growth.** Along every expansion history, the growth function `Dplus(a(t))` solves the equation of the growth of small fluctuations,
`D'' + 2 H D' = 3/2 Ω_M H0² a⁻³ D`, where the rate `H` is the logarithmic derivative of the scale factor; so fluctuations scaled with `Dplus` obey linear theory. -/
theorem C114_growth {c : Cosmology} (hc : c.Expanding) {H0 : ℝ} {a : ℝ → ℝ} {H : ℝ → ℝ} {s : Set ℝ} (hs : IsOpen s) (hpos : ∀ t ∈ s, 0 < a t)
    (hH : ∀ t ∈ s, H t = H0 * √(c.M / a t ^ 3 + (1 - c.M - c.L) / a t ^ 2 + c.L)) (hrate : ∀ t ∈ s, HasDerivAt a (a t * H t) t) :
    ∃ D1 D2 : ℝ → ℝ, (∀ t ∈ s, HasDerivAt (fun t => c.Dplus (a t)) (D1 t) t) ∧ (∀ t ∈ s, HasDerivAt D1 (D2 t) t) ∧
      ∀ t ∈ s, D2 t + 2 * H t * D1 t = 3 / 2 * c.M * H0 ^ 2 / a t ^ 3 * c.Dplus (a t) := by
  have hE : ∀ t ∈ s, H t = H0 * c.Ea (a t) := by
    intro t ht
    rw [hH t ht, Ea_eq_sqrt c (hpos t ht)]
    simp only [inv_pow, div_eq_mul_inv]
  have hH1 : ∀ t ∈ s, HasDerivAt H (H0 * ((-3 * c.M * (a t)⁻¹ ^ 4 - 2 * (1 - c.M - c.L) * (a t)⁻¹ ^ 3) / (2 * c.Ea (a t)) * (a t * H t))) t := by
    intro t ht
    have := ((hasDerivAt_Ea hc (hpos t ht)).comp t (hrate t ht)).const_mul H0
    refine this.congr_of_eventuallyEq ?_
    filter_upwards [hs.mem_nhds ht] with r hr
    rw [hE r hr]; rfl
  refine ⟨fun t => Dplus1 c (a t) * (a t * H t), _, fun t ht => (hasDerivAt_Dplus hc (hpos t ht)).comp t (hrate t ht),
    fun t ht => ((hasDerivAt_Dplus1 hc (hpos t ht)).comp t (hrate t ht)).mul ((hrate t ht).mul (hH1 t ht)), fun t ht => ?_⟩
  simp only [Function.comp_apply]
  have hEp := (Ea_pos hc (hpos t ht)).ne'
  have ha := (hpos t ht).ne'
  generalize Dplus1 c (a t) = D1
  generalize c.Dplus (a t) = D
  rw [hE t ht]
  set E := c.Ea (a t)
  field_simp
  ring

/-- **C114, normalisation.** `D` is 1 today. -/
theorem C114_today {c : Cosmology} (hc : c.Expanding) : c.D 1 = 1 := by
  refine div_self (ne_of_gt ?_)
  unfold Cosmology.Dplus
  refine mul_pos (Ea_pos hc one_pos) ?_
  have hcont : Continuous fun l : ℝ => (exp l * c.Ea (exp l)) ^ (-3 : ℤ) * exp l := by
    have hE : Continuous fun l : ℝ => c.Ea (exp l) := continuous_iff_continuousAt.mpr fun l =>
      ((hasDerivAt_Ea hc (exp_pos l)).continuousAt).comp continuous_exp.continuousAt
    refine (Continuous.zpow₀ (continuous_exp.mul hE) _ fun l => Or.inl ?_).mul continuous_exp
    exact (mul_pos (exp_pos l) (Ea_pos hc (exp_pos l))).ne'
  refine intervalIntegral.intervalIntegral_pos_of_pos (hcont.intervalIntegrable _ _) (fun l => ?_) ?_
  · exact mul_pos (zpow_pos (mul_pos (exp_pos l) (Ea_pos hc (exp_pos l))) _) (exp_pos l)
  · rw [log_one, logamin]; norm_num

/-- **C114, the growing mode.** In the universe of Einstein and de Sitter `Dplus` is 2/5 of the scale factor, which is the growing mode, minus a part of
the decaying mode because the integral begins at `exp(-20)`: the relative error at `a` is `(exp(-20)/a)^(5/2)`, and `Dplus` is zero at the start of the table. -/
theorem C114_einstein_de_sitter {a : ℝ} (ha : 0 < a) :
    (⟨1, 0⟩ : Cosmology).Dplus a = 2 / 5 * a * (1 - (exp logamin / a) ^ (5 / 2 : ℝ)) := by
  have hE : ∀ b : ℝ, 0 < b → (⟨1, 0⟩ : Cosmology).Ea b = b ^ (-(3 / 2) : ℝ) := by
    intro b _
    unfold Cosmology.Ea
    norm_num
  have hint : (∫ l in logamin..log a, (exp l * (⟨1, 0⟩ : Cosmology).Ea (exp l)) ^ (-3 : ℤ) * exp l) = ∫ l in logamin..log a, exp (5 / 2 * l) := by
    refine intervalIntegral.integral_congr fun l _ => ?_
    rw [hE _ (exp_pos l), ← exp_mul, ← exp_add, ← rpow_intCast, ← exp_mul, ← exp_add]
    congr 1
    push_cast
    ring
  unfold Cosmology.Dplus
  rw [hint, hE a ha, intervalIntegral.integral_comp_mul_left (fun x => exp x) (by norm_num : (5 / 2 : ℝ) ≠ 0), integral_exp]
  have e1 : exp (5 / 2 * log a) = a ^ (5 / 2 : ℝ) := by rw [rpow_def_of_pos ha, mul_comm]
  have e2 : exp (5 / 2 * logamin) = exp logamin ^ (5 / 2 : ℝ) := by rw [← exp_mul, mul_comm]
  rw [e1, e2, div_rpow (exp_pos _).le ha.le, smul_eq_mul]
  have e3 : a ^ (-(3 / 2) : ℝ) * a ^ (5 / 2 : ℝ) = a := by
    rw [← rpow_add ha]; norm_num
  have e4 : a ^ (5 / 2 : ℝ) ≠ 0 := (rpow_pos_of_pos ha _).ne'
  have e5 : a ^ (-(3 / 2) : ℝ) = a / a ^ (5 / 2 : ℝ) := by
    rw [eq_div_iff e4, e3]
  rw [e5]
  field_simp

/-- **C114, distances.** The comoving distance is 0 today, and falls with the scale factor at the rate `1/(a² E)`; so it is one-to-one, and `aback` is possible. -/
theorem C114_distance {c : Cosmology} (hc : c.Expanding) :
    c.Dc 1 = 0 ∧ (∀ a, 0 < a → HasDerivAt c.Dc (-(1 / (a ^ 2 * √(c.M / a ^ 3 + (1 - c.M - c.L) / a ^ 2 + c.L)))) a) ∧
      StrictAntiOn c.Dc (Set.Ioi 0) := by
  have hcont : Continuous fun l : ℝ => 1 / c.Ea (exp l) * (exp l)⁻¹ := by
    have hE : Continuous fun l : ℝ => c.Ea (exp l) := continuous_iff_continuousAt.mpr fun l =>
      ((hasDerivAt_Ea hc (exp_pos l)).continuousAt).comp continuous_exp.continuousAt
    exact (continuous_const.div hE fun l => (Ea_pos hc (exp_pos l)).ne').mul (continuous_exp.inv₀ fun l => (exp_pos l).ne')
  have hd : ∀ a, 0 < a → HasDerivAt c.Dc (-(1 / (a ^ 2 * √(c.M / a ^ 3 + (1 - c.M - c.L) / a ^ 2 + c.L)))) a := by
    intro a ha
    have h1 := (intervalIntegral.integral_hasDerivAt_left (hcont.intervalIntegrable (log a) 0)
      (hcont.stronglyMeasurableAtFilter _ _) hcont.continuousAt)
    have := h1.comp a (hasDerivAt_log ha.ne')
    refine this.congr_deriv ?_
    have e : √(c.M / a ^ 3 + (1 - c.M - c.L) / a ^ 2 + c.L) = c.Ea a := by
      rw [Ea_eq_sqrt c ha]
      simp only [inv_pow, div_eq_mul_inv]
    rw [exp_log ha, e]
    have hE := (Ea_pos hc ha).ne'
    field_simp
  refine ⟨by simp [Cosmology.Dc], hd, ?_⟩
  refine strictAntiOn_of_deriv_neg (convex_Ioi 0) (fun a ha => (hd a ha).continuousAt.continuousWithinAt) ?_
  intro a ha
  rw [interior_Ioi] at ha
  rw [(hd a ha).deriv]
  have h0 : (0 : ℝ) < a := ha
  have := hc a h0
  have e : c.M / a ^ 3 + (1 - c.M - c.L) / a ^ 2 + c.L = c.M * a⁻¹ ^ 3 + (1 - c.M - c.L) * a⁻¹ ^ 2 + c.L := by
    simp only [inv_pow, div_eq_mul_inv]
  rw [e]
  have := sqrt_pos.mpr this
  rw [neg_lt_zero]
  positivity

/-- **C114, velocities.** In the universe of Einstein and de Sitter `disp_to_vel` gives `a E D disp`, and the logarithmic growth rate `FOmega` is 1. -/
theorem C114_velocity_eds {a disp : ℝ} (ha : 0 < a) : (⟨1, 0⟩ : Cosmology).FOmega a = 1 ∧
    (⟨1, 0⟩ : Cosmology).dispToVel disp a = (⟨1, 0⟩ : Cosmology).D a * a * (⟨1, 0⟩ : Cosmology).Ea a * disp := by
  have h : (⟨1, 0⟩ : Cosmology).FOmega a = 1 := by
    unfold Cosmology.FOmega
    norm_num
  refine ⟨h, ?_⟩
  unfold Cosmology.dispToVel Cosmology.D
  rw [h]
  ring

/-- The two cosmologies that come with the file, WMAP7 and WMAP9, nbody/cosmology.py:243-244. -/
theorem wmap_expanding : (⟨0.272, 0.728⟩ : Cosmology).Expanding ∧ (⟨0.2814, 0.7186⟩ : Cosmology).Expanding := by
  constructor <;> · intro a ha; norm_num; positivity

example : (⟨0.272, 0.728⟩ : Cosmology).D 1 = 1 := C114_today wmap_expanding.1

/-- The growth in the universe of Einstein and de Sitter, for all times after the big bang. -/
example : ∃ D1 D2 : ℝ → ℝ, (∀ t ∈ Set.Ioi (0 : ℝ), HasDerivAt (fun t => (⟨1, 0⟩ : Cosmology).Dplus ((3 / 2 * t) ^ (2 / 3 : ℝ))) (D1 t) t) ∧
    (∀ t ∈ Set.Ioi (0 : ℝ), HasDerivAt D1 (D2 t) t) ∧
    ∀ t ∈ Set.Ioi (0 : ℝ), D2 t + 2 * (3 / 2 * t)⁻¹ * D1 t =
      3 / 2 * 1 * 1 ^ 2 / ((3 / 2 * t) ^ (2 / 3 : ℝ)) ^ 3 * (⟨1, 0⟩ : Cosmology).Dplus ((3 / 2 * t) ^ (2 / 3 : ℝ)) := by
  have hp : ∀ t ∈ Set.Ioi (0 : ℝ), 0 < 3 / 2 * t := fun t ht => mul_pos (by norm_num) ht
  refine C114_growth (c := ⟨1, 0⟩) (fun a ha => by norm_num; positivity) (H0 := 1) (H := fun t => (3 / 2 * t)⁻¹) isOpen_Ioi
    (fun t ht => rpow_pos_of_pos (hp t ht) _) (fun t ht => ?_) (fun t ht => ?_)
  · rw [eds_rate (hp t ht), rpow_neg_one, one_mul]
  · have := eds_hasDerivAt (hp t ht)
    rw [eds_rate (hp t ht), rpow_neg_one, one_mul] at this
    exact this

#print axioms C114_friedmann
#print axioms C114_growth
#print axioms C114_today
#print axioms C114_einstein_de_sitter
#print axioms C114_distance
#print axioms C114_velocity_eds

end Pmesh
