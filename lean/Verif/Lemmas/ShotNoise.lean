import Verif.Spec.ShotNoise
import Verif.Lemmas.Interp
import Verif.Lemmas.Symmetry
import Mathlib.Analysis.SpecialFunctions.Integrals.Basic
import Mathlib.MeasureTheory.Constructions.BorelSpace.Order
import Mathlib.MeasureTheory.Function.Floor
import Mathlib.MeasureTheory.Integral.IntervalIntegral.Periodic
import Mathlib.Probability.Independence.Integration

/-! # The Fourier amplitude of one particle and its mean values over the position of the particle -/

namespace Pmesh

open MeasureTheory ProbabilityTheory Complex

/-- Amplitude of the mode `q^c` in the window of a particle at `X` cells. -/
noncomputable def waveAmp (t : Tuned) (q : ℂ) (X : ℝ) : ℂ := ((rawStencil t (unitAxis 0) X).map fun p => (p.2 : ℂ) * q ^ p.1).sum

theorem waveAmp_succ (t : Tuned) {q : ℂ} (hq : q ≠ 0) (X : ℝ) : waveAmp t q (X + 1) = q * waveAmp t q X := by
  have h1 : X + 1 + 1 / 2 = X + 1 / 2 + 1 := by ring
  cases t <;> simp only [waveAmp, rawStencil, tunedSetup, unitAxis, PAxis.grid, if_true, List.zip_cons_cons, List.zip_nil_right, List.map_cons, List.map_nil,
      List.sum_cons, List.sum_nil, mul_one, add_zero, Int.floor_add_one, h1] <;>
    simp only [zpow_add₀ hq, zpow_sub₀ hq, zpow_one] <;> push_cast <;> ring

theorem norm_weighted (q : ℂ) (hq : ‖q‖ = 1) : ∀ l : List (ℤ × ℝ), (∀ p ∈ l, 0 ≤ p.2) → ‖(l.map fun p => (p.2 : ℂ) * q ^ p.1).sum‖ ≤ (l.map Prod.snd).sum
  | [], _ => by simp
  | p :: l, h => by
    simp only [List.map_cons, List.sum_cons]
    refine (norm_add_le _ _).trans (add_le_add ?_ (norm_weighted q hq l fun a ha => h a (List.mem_cons_of_mem _ ha)))
    rw [norm_mul, norm_zpow, hq, one_zpow, mul_one, Complex.norm_real, Real.norm_eq_abs, abs_of_nonneg (h p List.mem_cons_self)]

theorem waveAmp_norm (t : Tuned) {q : ℂ} (hq : ‖q‖ = 1) (X : ℝ) : ‖waveAmp t q X‖ ≤ 1 :=
  (norm_weighted q hq _ (rawStencil_nonneg t _ rfl X)).trans (rawStencil_sum t _ rfl X).le

theorem waveAmp_one (t : Tuned) (X : ℝ) : waveAmp t 1 X = 1 := by
  have := rawStencil_sum t (unitAxis 0) rfl X
  unfold waveAmp
  simp only [one_zpow, mul_one]
  have h : ∀ l : List (ℤ × ℝ), (l.map fun p => (p.2 : ℂ)).sum = ((l.map Prod.snd).sum : ℝ) := by
    intro l
    induction l with
    | nil => simp
    | cons p l ih => simp [ih]
  rw [h, this, ofReal_one]

theorem waveAmp_measurable (t : Tuned) (q : ℂ) : Measurable (waveAmp t q) := by
  have hz : ∀ (f : ℝ → ℤ), Measurable f → Measurable fun X => q ^ f X := fun f hf => (measurable_of_countable fun n : ℤ => q ^ n).comp hf
  have hc : ∀ (f : ℝ → ℤ), Measurable f → Measurable fun X => (f X : ℂ) := fun f hf => (measurable_of_countable fun n : ℤ => (n : ℂ)).comp hf
  have h0 : Measurable fun X : ℝ => ⌊X⌋ := Int.measurable_floor
  have h1 : Measurable fun X : ℝ => ⌊X + 1 / 2⌋ := Int.measurable_floor.comp (by fun_prop)
  have a : ∀ (f : ℝ → ℤ) (_ : Measurable f) (n : ℤ), Measurable fun X => f X + n := fun f hf n => (measurable_of_countable fun i : ℤ => i + n).comp hf
  have s : ∀ (f : ℝ → ℤ) (_ : Measurable f) (n : ℤ), Measurable fun X => f X - n := fun f hf n => (measurable_of_countable fun i : ℤ => i - n).comp hf
  have hX : Measurable fun X : ℝ => (X : ℂ) := Complex.measurable_ofReal
  unfold waveAmp
  cases t <;> simp only [rawStencil, tunedSetup, unitAxis, PAxis.grid, if_true, List.zip_cons_cons, List.zip_nil_right, List.map_cons, List.map_nil,
      List.sum_cons, List.sum_nil, mul_one, add_zero] <;> push_cast
  · exact measurable_const.mul (hz _ h1)
  · have := hc _ h0
    have := hz _ h0
    have := hz _ (a _ h0 1)
    fun_prop
  · have := hc _ h1
    have := hz _ h1
    have := hz _ (a _ h1 1)
    have := hz _ (s _ h1 1)
    fun_prop
  · have := hc _ h0
    have := hz _ h0
    have := hz _ (a _ h0 1)
    have := hz _ (s _ h0 1)
    have := hz _ (a _ (a _ h0 1) 1)
    fun_prop

/-! ### integrals over the position -/

theorem integral_twisted {g : ℝ → ℂ} {μ : ℂ} (hg : ∀ x, g (x + 1) = μ * g x) (hi : ∀ a b : ℝ, IntervalIntegrable g volume a b) :
    ∀ n : ℕ, ∫ x in (0 : ℝ)..n, g x = (∑ i ∈ Finset.range n, μ ^ i) * ∫ x in (0 : ℝ)..1, g x
  | 0 => by simp
  | n + 1 => by
    have hs : ∀ n : ℕ, ∫ x in (n : ℝ)..(n + 1 : ℕ), g x = μ ^ n * ∫ x in (0 : ℝ)..1, g x := by
      intro n
      induction n with
      | zero => simp
      | succ n ih =>
        have h := intervalIntegral.integral_comp_add_right (a := (n : ℝ)) (b := (n + 1 : ℕ)) g 1
        simp only [hg, intervalIntegral.integral_const_mul] at h
        rw [ih] at h
        push_cast at h ⊢
        rw [← h]
        ring
    rw [Finset.sum_range_succ, add_mul, ← integral_twisted hg hi n, ← hs n, intervalIntegral.integral_add_adjacent_intervals (hi _ _) (hi _ _)]

theorem integral_twisted_eq {g : ℝ → ℂ} {μ : ℂ} (hg : ∀ x, g (x + 1) = μ * g x) (hi : ∀ a b : ℝ, IntervalIntegrable g volume a b) {n : ℕ} (hμ : μ ^ n = 1) :
    ∫ x in (0 : ℝ)..n, g x = if μ = 1 then n * ∫ x in (0 : ℝ)..1, g x else 0 := by
  rw [integral_twisted hg hi]
  split_ifs with h
  · simp [h]
  · rw [geom_sum_eq h, hμ]
    simp

/-- Mean of a function of a uniformly distributed coordinate, in units of the cells. -/
theorem uniform_mean {Ω : Type} [MeasurableSpace Ω] {P : Measure Ω} {X : Ω → ℝ} (hX : Measurable X) {L : ℝ} (hL : 0 < L)
    (hU : pdf.IsUniform X (Set.Ico 0 L) P volume) {n : ℕ} (hn : 0 < n) {g : ℝ → ℂ} (hgm : Measurable g) :
    ∫ ω, g (X ω * ((n : ℕ) / L)) ∂P = (n : ℂ)⁻¹ * ∫ x in (0 : ℝ)..n, g x := by
  have h1 : ∫ ω, g (X ω * ((n : ℕ) / L)) ∂P = ∫ x, g (x * ((n : ℕ) / L)) ∂(P.map X) := by
    rw [integral_map hX.aemeasurable]
    exact (hgm.comp (by fun_prop)).aestronglyMeasurable
  have h2 : P.map X = ProbabilityTheory.cond volume (Set.Ico 0 L) := hU
  have hn' : (n : ℝ) ≠ 0 := by exact_mod_cast hn.ne'
  rw [h1, h2, ProbabilityTheory.cond, integral_smul_measure, Real.volume_Ico, integral_Ico_eq_integral_Ioo, ← integral_Ioc_eq_integral_Ioo,
    ← intervalIntegral.integral_of_le hL.le, intervalIntegral.integral_comp_mul_right g (div_ne_zero hn' hL.ne'), sub_zero, ENNReal.toReal_inv,
    ENNReal.toReal_ofReal hL.le, zero_mul, mul_div_cancel₀ _ hL.ne', smul_smul]
  have : L⁻¹ * (n / L)⁻¹ = (n : ℝ)⁻¹ := by field_simp
  rw [this, Complex.real_smul]
  push_cast
  rfl

theorem bounded_intervalIntegrable {g : ℝ → ℂ} (hg : Measurable g) (hb : ∀ x, ‖g x‖ ≤ 1) (a b : ℝ) : IntervalIntegrable g volume a b := by
  rw [intervalIntegrable_iff]
  exact Measure.integrableOn_of_bounded (M := 1) (by simp) hg.aestronglyMeasurable (Filter.Eventually.of_forall hb)

/-- Mean over the positions of an amplitude that changes by the factor `μ` from cell to cell. -/
theorem uniform_twisted {Ω : Type} [MeasurableSpace Ω] {P : Measure Ω} {X : Ω → ℝ} (hX : Measurable X) {L : ℝ} (hL : 0 < L)
    (hU : pdf.IsUniform X (Set.Ico 0 L) P volume) {n : ℕ} (hn : 0 < n) {g : ℝ → ℂ} (hgm : Measurable g) (hb : ∀ x, ‖g x‖ ≤ 1) {μ : ℂ}
    (hg : ∀ x, g (x + 1) = μ * g x) (hμ : μ ^ n = 1) :
    ∫ ω, g (X ω * ((n : ℕ) / L)) ∂P = if μ = 1 then ∫ x in (0 : ℝ)..1, g x else 0 := by
  rw [uniform_mean hX hL hU hn hgm, integral_twisted_eq hg (bounded_intervalIntegrable hgm hb) hμ]
  have hn' : (n : ℂ) ≠ 0 := by exact_mod_cast hn.ne'
  split_ifs
  · rw [inv_mul_cancel_left₀ hn']
  · rw [mul_zero]

/-! ### power of one axis -/

theorem base_half {g : ℝ → ℂ} (hg : ∀ x, g (x + 1) = g x) : ∫ x in (0 : ℝ)..1, g x = ∫ x in (-1 / 2 : ℝ)..(1 / 2), g x := by
  have := Function.Periodic.intervalIntegral_add_eq (f := g) (T := 1) hg 0 (-1 / 2)
  norm_num at this
  norm_num
  exact this

/-- Integral over the unit interval when the function is known inside. -/
theorem integral_base {g : ℝ → ℂ} {f : ℝ → ℝ} {a b : ℝ} (hab : a ≤ b) (h : ∀ x, a ≤ x → x < b → g x = (f x : ℂ)) :
    ∫ x in a..b, g x = ((∫ x in a..b, f x : ℝ) : ℂ) := by
  rw [← intervalIntegral.integral_ofReal, intervalIntegral.integral_of_le hab, intervalIntegral.integral_of_le hab, integral_Ioc_eq_integral_Ioo,
    integral_Ioc_eq_integral_Ioo]
  exact setIntegral_congr_fun measurableSet_Ioo fun x hx => h x hx.1.le hx.2

theorem power_shift (t : Tuned) {q : ℂ} (hq : ‖q‖ = 1) (x : ℝ) :
    waveAmp t q (x + 1) * (starRingEnd ℂ) (waveAmp t q (x + 1)) = waveAmp t q x * (starRingEnd ℂ) (waveAmp t q x) := by
  have hq0 : q ≠ 0 := by
    rintro rfl
    simp at hq
  rw [waveAmp_succ t hq0, map_mul, mul_mul_mul_comm, Complex.mul_conj, Complex.normSq_eq_norm_sq, hq]
  simp

theorem exp_facts (θ : ℝ) : ∃ c s : ℝ, c ^ 2 + s ^ 2 = 1 ∧ exp (-(θ * I)) = ⟨c, -s⟩ ∧ c = 1 - 2 * Real.sin (θ / 2) ^ 2 := by
  refine ⟨Real.cos θ, Real.sin θ, by rw [add_comm]; exact Real.sin_sq_add_cos_sq θ, ?_, ?_⟩
  · rw [← neg_mul, Complex.exp_mul_I]
    apply Complex.ext <;> simp [Complex.cos_ofReal_re, Complex.sin_ofReal_re]
  · have := Real.cos_sq' (θ / 2)
    have h2 := Real.cos_two_mul (θ / 2)
    rw [mul_div_cancel₀ _ (two_ne_zero)] at h2
    rw [h2, this]
    ring

theorem integral_poly (l : List ℝ) (a b : ℝ) :
    ∫ x in a..b, ∑ i ∈ Finset.range l.length, l.getD i 0 * x ^ i = ∑ i ∈ Finset.range l.length, l.getD i 0 * ((b ^ (i + 1) - a ^ (i + 1)) / (i + 1)) := by
  rw [intervalIntegral.integral_finset_sum]
  · simp only [intervalIntegral.integral_const_mul, integral_pow]
  · intro i _
    exact (by fun_prop : Continuous fun x : ℝ => l.getD i 0 * x ^ i).intervalIntegrable _ _

/-- The power of one axis is the mean square of the amplitude. -/
theorem integral_power (t : Tuned) {q : ℂ} (hq : ‖q‖ = 1) {s : ℝ} (hs : q + (starRingEnd ℂ) q = 2 * ((1 - 2 * s : ℝ) : ℂ)) :
    ∫ x in (0 : ℝ)..1, waveAmp t q x * (starRingEnd ℂ) (waveAmp t q x) =
      ((match t with
        | .nnb => 1
        | .cic => 1 - 2 / 3 * s
        | .tsc => 1 - s + 2 / 15 * s ^ 2
        | .pcs => 1 - 4 / 3 * s + 2 / 5 * s ^ 2 - 4 / 315 * s ^ 3 : ℝ) : ℂ) := by
  have hP : q * (starRingEnd ℂ) q = 1 := by
    rw [Complex.mul_conj, Complex.normSq_eq_norm_sq, hq]
    simp
  have hq0 : q ≠ 0 := by
    rintro rfl
    simp at hq
  have hinv : q⁻¹ = (starRingEnd ℂ) q := by
    rw [← mul_one q⁻¹, ← hP, inv_mul_cancel_left₀ hq0]
  have hm1 : q ^ (-1 : ℤ) = (starRingEnd ℂ) q := by rw [zpow_neg_one, hinv]
  set c : ℝ := 1 - 2 * s with hc
  generalize hq' : (starRingEnd ℂ) q = q' at hP hs hm1
  have hq'' : (starRingEnd ℂ) q' = q := by rw [← hq', Complex.conj_conj]
  cases t with
  | nnb =>
    rw [base_half (power_shift .nnb hq), integral_base (f := fun _ => 1) (by norm_num)]
    · norm_num
    · intro x h1 h2
      have hf : ⌊x + 1 / 2⌋ = 0 := by rw [Int.floor_eq_zero_iff]; constructor <;> linarith
      simp only [waveAmp, rawStencil, tunedSetup, unitAxis, PAxis.grid, if_true, List.zip_cons_cons, List.zip_nil_right, List.map_cons, List.map_nil,
        List.sum_cons, List.sum_nil, mul_one, add_zero, hf, zpow_zero, Complex.ofReal_one, map_one]
  | cic =>
    rw [integral_base (f := fun x => ∑ i ∈ Finset.range [1, 2 * c - 2, 2 - 2 * c].length, [1, 2 * c - 2, 2 - 2 * c].getD i 0 * x ^ i) (by norm_num), integral_poly]
    · rw [hc]
      norm_num [Finset.sum_range_succ]
      ring
    · intro x h1 h2
      have hf : ⌊x⌋ = 0 := by rw [Int.floor_eq_zero_iff]; constructor <;> linarith
      simp only [waveAmp, rawStencil, tunedSetup, unitAxis, PAxis.grid, if_true, List.zip_cons_cons, List.zip_nil_right, List.map_cons, List.map_nil,
        List.sum_cons, List.sum_nil, mul_one, add_zero, hf, zero_add, zpow_zero, zpow_one, map_add, map_mul, Complex.conj_ofReal, hq', map_one]
      simp only [List.length_cons, List.length_nil, Finset.sum_range_succ, Finset.sum_range_zero, List.getD_cons_zero, List.getD_cons_succ]
      push_cast
      have hs' : (c : ℂ) = (q + q') / 2 := by rw [hs]; ring
      rw [hs']
      linear_combination (x : ℂ) ^ 2 * hP
  | tsc =>
    rw [base_half (power_shift .tsc hq), integral_base (f := fun x => ∑ i ∈ Finset.range [9 / 16 + 3 / 8 * c + 1 / 16 * c ^ 2, 0, -1 / 2 + c - 1 / 2 * c ^ 2, 0, 1 - 2 * c + c ^ 2].length,
      [9 / 16 + 3 / 8 * c + 1 / 16 * c ^ 2, 0, -1 / 2 + c - 1 / 2 * c ^ 2, 0, 1 - 2 * c + c ^ 2].getD i 0 * x ^ i) (by norm_num), integral_poly]
    · rw [hc]
      norm_num [Finset.sum_range_succ]
      ring
    · intro x h1 h2
      have hf : ⌊x + 1 / 2⌋ = 0 := by rw [Int.floor_eq_zero_iff]; constructor <;> linarith
      simp only [waveAmp, rawStencil, tunedSetup, unitAxis, PAxis.grid, if_true, List.zip_cons_cons, List.zip_nil_right, List.map_cons, List.map_nil,
        List.sum_cons, List.sum_nil, mul_one, add_zero, hf, zero_add, zero_sub, zpow_zero, zpow_one, hm1, map_add, map_mul, Complex.conj_ofReal, hq', hq'', map_one]
      simp only [List.length_cons, List.length_nil, Finset.sum_range_succ, Finset.sum_range_zero, List.getD_cons_zero, List.getD_cons_succ]
      push_cast
      have hs' : (c : ℂ) = (q + q') / 2 := by rw [hs]; ring
      rw [hs']
      linear_combination (((1 / 2 - (x : ℂ)) ^ 2 / 2) ^ 2 + ((1 / 2 + (x : ℂ)) ^ 2 / 2) ^ 2 - 2 * ((1 / 2 - (x : ℂ)) ^ 2 / 2) * ((1 / 2 + (x : ℂ)) ^ 2 / 2)) * hP
  | pcs =>
    rw [integral_base (f := fun x => ∑ i ∈ Finset.range [4 / 9 + 4 / 9 * c + 1 / 9 * c ^ 2, 0, -1 / 3 + 2 / 3 * c - 1 / 3 * c ^ 2, 4 / 9 - 2 / 3 * c + 2 / 9 * c ^ 3,
      1 / 3 - 4 / 3 * c + 5 / 3 * c ^ 2 - 2 / 3 * c ^ 3, -2 / 3 + 2 * c - 2 * c ^ 2 + 2 / 3 * c ^ 3, 2 / 9 - 2 / 3 * c + 2 / 3 * c ^ 2 - 2 / 9 * c ^ 3].length,
      [4 / 9 + 4 / 9 * c + 1 / 9 * c ^ 2, 0, -1 / 3 + 2 / 3 * c - 1 / 3 * c ^ 2, 4 / 9 - 2 / 3 * c + 2 / 9 * c ^ 3,
      1 / 3 - 4 / 3 * c + 5 / 3 * c ^ 2 - 2 / 3 * c ^ 3, -2 / 3 + 2 * c - 2 * c ^ 2 + 2 / 3 * c ^ 3, 2 / 9 - 2 / 3 * c + 2 / 3 * c ^ 2 - 2 / 9 * c ^ 3].getD i 0 * x ^ i)
      (by norm_num), integral_poly]
    · rw [hc]
      norm_num [Finset.sum_range_succ]
      ring
    · intro x h1 h2
      have hf : ⌊x⌋ = 0 := by rw [Int.floor_eq_zero_iff]; constructor <;> linarith
      have h2' : q ^ (1 + 1 : ℤ) = q ^ 2 := by norm_cast
      simp only [waveAmp, rawStencil, tunedSetup, unitAxis, PAxis.grid, if_true, List.zip_cons_cons, List.zip_nil_right, List.map_cons, List.map_nil,
        List.sum_cons, List.sum_nil, mul_one, add_zero, hf, zero_add, zero_sub, zpow_zero, zpow_one, hm1, h2', map_add, map_mul, map_pow, Complex.conj_ofReal, hq', hq'', map_one]
      simp only [List.length_cons, List.length_nil, Finset.sum_range_succ, Finset.sum_range_zero, List.getD_cons_zero, List.getD_cons_succ]
      push_cast
      have hs' : (c : ℂ) = (q + q') / 2 := by rw [hs]; ring
      rw [hs']
      linear_combination (((1 - (x : ℂ)) ^ 3 / 6) ^ 2 + ((4 - 6 * (1 - (x : ℂ)) ^ 2 + 3 * (1 - (x : ℂ)) ^ 3) / 6) ^ 2 + ((x : ℂ) ^ 3 / 6) ^ 2 * (q * q' + 1)
        - 2 * ((1 - (x : ℂ)) ^ 3 / 6) * ((4 - 6 * (1 - (x : ℂ)) ^ 2 + 3 * (1 - (x : ℂ)) ^ 3) / 6) - 2 * ((4 - 6 * (x : ℂ) ^ 2 + 3 * (x : ℂ) ^ 3) / 6) * ((x : ℂ) ^ 3 / 6)
        + ((4 - 6 * (1 - (x : ℂ)) ^ 2 + 3 * (1 - (x : ℂ)) ^ 3) / 6) * ((x : ℂ) ^ 3 / 6) * (q + q') - 3 * ((1 - (x : ℂ)) ^ 3 / 6) * ((x : ℂ) ^ 3 / 6) * (q + q')) * hP

end Pmesh
