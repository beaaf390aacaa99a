import Verif.Lemmas.FWindow
import Verif.Lemmas.AxisWeight
import Verif.Lemmas.Fourier
import Mathlib.Algebra.BigOperators.Finprod
import Mathlib.Data.Int.Interval
import Mathlib.MeasureTheory.Group.Integral

/-! # One axis of a painted particle, averaged over the shifts of the grid -/

namespace Pmesh

open Complex MeasureTheory intervalIntegral

theorem tuned_integral (t : Tuned) (z : ℂ) :
    Integrable (fun x : ℝ => (((Tuned.kern t : Kern ℝ).kernel x : ℝ) : ℂ) * exp (z * x)) ∧
      ∫ x : ℝ, (((Tuned.kern t : Kern ℝ).kernel x : ℝ) : ℂ) * exp (z * x) = expSinc z ^ (Tuned.kern t : Kern ℝ).native := by
  cases t with
  | nnb =>
    refine ⟨(nearest_integral z).1, ?_⟩
    rw [show (Tuned.kern .nnb : Kern ℝ).native = 1 from rfl, pow_one]
    exact (nearest_integral z).2
  | cic => exact linear_integral z
  | tsc => exact quadratic_integral z
  | pcs => exact cubic_integral z

theorem tuned_native_pos (t : Tuned) : 0 < (Tuned.kern t : Kern ℝ).native := by cases t <;> decide

/-- The transform of the stretched window is the transform of the kernel at the stretched frequency. -/
theorem windowAt_integral (t : Tuned) {s : ℝ} (hs : 0 < s) (z : ℂ) :
    Integrable (fun x : ℝ => ((windowAt (Tuned.kern t) s 0 1 x : ℝ) : ℂ) * exp (z * x)) ∧
      ∫ x : ℝ, ((windowAt (Tuned.kern t) s 0 1 x : ℝ) : ℂ) * exp (z * x) =
        expSinc (z / ((Tuned.kern t : Kern ℝ).native / s : ℝ)) ^ (Tuned.kern t : Kern ℝ).native := by
  have hn : (0 : ℝ) < (Tuned.kern t : Kern ℝ).native := by exact_mod_cast tuned_native_pos t
  have hv : (0 : ℝ) < (Tuned.kern t : Kern ℝ).native / s := div_pos hn hs
  obtain ⟨v, hvv⟩ : ∃ v : ℝ, (Tuned.kern t : Kern ℝ).native / s = v := ⟨_, rfl⟩
  rw [hvv] at hv ⊢
  have key : (fun x : ℝ => ((windowAt (Tuned.kern t) s 0 1 x : ℝ) : ℂ) * exp (z * x)) = fun x : ℝ =>
      (fun y : ℝ => (v : ℂ) * ((((Tuned.kern t : Kern ℝ).kernel y : ℝ) : ℂ) * exp (z / v * y))) (x * v) := by
    funext x
    have hvc : (v : ℂ) ≠ 0 := by exact_mod_cast hv.ne'
    simp only [windowAt, if_true, hvv]
    push_cast
    rw [show z / v * (x * v) = z * x by field_simp]
    ring
  rw [key]
  obtain ⟨h1, h2⟩ := tuned_integral t (z / v)
  refine ⟨(h1.const_mul _).comp_mul_right' hv.ne', ?_⟩
  rw [Measure.integral_comp_mul_right (fun y : ℝ => (v : ℂ) * ((((Tuned.kern t : Kern ℝ).kernel y : ℝ) : ℂ) * exp (z / v * y))),
    MeasureTheory.integral_const_mul, h2, abs_of_pos (inv_pos.2 hv), real_smul, ofReal_inv, inv_mul_cancel_left₀]
  exact_mod_cast hv.ne'

theorem expSinc_neg (z : ℂ) : expSinc (-z) = expSinc z := by
  unfold expSinc
  by_cases hz : z = 0
  · simp [hz]
  · rw [if_neg hz, if_neg (neg_ne_zero.2 hz), neg_div, neg_neg, div_neg]
    ring

theorem windowFourier_eq (t : Tuned) {s : ℝ} (hs : 0 < s) (w : ℝ) : windowFourier (Tuned.kern t) s w =
    expSinc (I * w / ((Tuned.kern t : Kern ℝ).native / s : ℝ)) ^ (Tuned.kern t : Kern ℝ).native := by
  have := (windowAt_integral t hs (-(I * w))).2
  rw [neg_div, expSinc_neg] at this
  rw [← this]
  unfold windowFourier
  congr 1
  funext x
  rw [neg_mul]

theorem exp_int_mod {N : ℕ} (hN : 0 < N) (κ n : ℤ) (k : ℕ) (hk : κ % N = k) :
    exp (-(2 * Real.pi * I * (k * ((n % (N : ℤ) : ℤ) : ℂ) / N))) = exp (-(I * (2 * Real.pi * κ / N : ℝ) * n)) := by
  have hNc : (N : ℂ) ≠ 0 := by exact_mod_cast hN.ne'
  obtain ⟨a, ha⟩ : ∃ a : ℤ, κ = k + N * a := ⟨κ / N, by rw [← hk]; exact (Int.emod_add_mul_ediv κ N).symm⟩
  obtain ⟨b, hb⟩ : ∃ b : ℤ, n = n % N + N * b := ⟨n / N, (Int.emod_add_mul_ediv n N).symm⟩
  rw [Complex.exp_eq_exp_iff_exists_int]
  generalize hm : n % (N : ℤ) = m at *
  subst hb ha
  refine ⟨k * b + a * m + N * a * b, ?_⟩
  push_cast
  field_simp
  ring


theorem list_sum_rangeC (n : ℕ) (f : ℕ → ℂ) : ((List.range n).map f).sum = ∑ r ∈ Finset.range n, f r := by
  induction n with
  | zero => simp
  | succ n ih => rw [List.range_succ, List.map_append, List.sum_append, ih, Finset.sum_range_succ]; simp

/-- A particle at grid coordinate `g` on a periodic axis of `N` cells: its spectrum along the axis (phase of the shift undone), averaged over
the shifts of the grid by less than a cell. -/
theorem axis_average (t : Tuned) {s : ℝ} (hs : 0 < s) {N : ℕ} (hN : 0 < N) (κ : ℤ) (k : ℕ) (hk : κ % N = k) (g : ℝ) :
    let f : ℝ → ℂ := fun u => ((List.range N).map fun (c : ℕ) => ((∑ᶠ n : ℤ,
      if IsCell N n c then windowAt (Tuned.kern t) s 0 1 (g + u - n) else 0 : ℝ) : ℂ) *
        exp (-(2 * Real.pi * I * (k * c / N : ℝ)))).sum * exp (I * (2 * Real.pi * κ / N : ℝ) * u)
    IntervalIntegrable f volume 0 1 ∧
      ∫ u in (0 : ℝ)..1, f u = exp (-(I * (2 * Real.pi * κ / N : ℝ) * g)) * windowFourier (Tuned.kern t) s (2 * Real.pi * κ / N) := by
  intro f
  obtain ⟨w, hw⟩ : ∃ w : ℝ, 2 * Real.pi * κ / N = w := ⟨_, rfl⟩
  let h : ℝ → ℂ := fun y => ((windowAt (Tuned.kern t) s 0 1 (y + g) : ℝ) : ℂ) * exp (I * w * y)
  have hh : h = fun y => (fun x : ℝ => exp (-(I * w * g)) * (((windowAt (Tuned.kern t) s 0 1 x : ℝ) : ℂ) * exp (I * w * x))) (y + g) := by
    funext y
    simp only [h]
    rw [mul_left_comm, ← exp_add]
    congr 2
    push_cast
    ring
  obtain ⟨i1, i2⟩ := windowAt_integral t hs (I * w)
  have hint : Integrable h := by
    rw [hh]
    exact (i1.const_mul _).comp_add_right g
  have hval : ∫ y, h y = exp (-(I * w * g)) * windowFourier (Tuned.kern t) s w := by
    rw [hh, integral_add_right_eq_self (fun x : ℝ => exp (-(I * w * g)) *
      (((windowAt (Tuned.kern t) s 0 1 x : ℝ) : ℂ) * exp (I * w * x))) g, MeasureTheory.integral_const_mul, i2, windowFourier_eq t hs]
  let B : Finset ℤ := Finset.Icc ⌊g - s / 2⌋ ⌊g + 1 + s / 2⌋
  have hB : ∀ u : ℝ, 0 ≤ u → u ≤ 1 → ∀ n : ℤ, n ∉ B → windowAt (Tuned.kern t) s 0 1 (g + u - n) = 0 := by
    intro u hu0 hu1 n hn
    by_contra hne
    apply hn
    have h1 : ¬ (g + u - n < -(s / 2)) := fun h => hne (windowAt_zero_of (tuned_confined t) hs 0 1 (Or.inl h))
    have h2 : ¬ (s / 2 ≤ g + u - n) := fun h => hne (windowAt_zero_of (tuned_confined t) hs 0 1 (Or.inr h))
    rw [Finset.mem_Icc]
    constructor
    · have : (⌊g - s / 2⌋ : ℝ) ≤ g - s / 2 := Int.floor_le _
      have : ((⌊g - s / 2⌋ : ℤ) : ℝ) ≤ (n : ℝ) := by linarith
      exact_mod_cast this
    · apply Int.le_floor.mpr; linarith
  have hf : ∀ u : ℝ, 0 ≤ u → u ≤ 1 → f u = ∑ n ∈ B, h (u + ((-n : ℤ) : ℝ)) := by
    intro u hu0 hu1
    have e1 : ∀ c : ℕ, (∑ᶠ n : ℤ, if IsCell N n c then windowAt (Tuned.kern t) s 0 1 (g + u - n) else 0) =
        ∑ n ∈ B, if IsCell N n c then windowAt (Tuned.kern t) s 0 1 (g + u - n) else 0 := by
      intro c
      apply finsum_eq_sum_of_support_subset
      intro n hn
      rw [Function.mem_support] at hn
      by_contra hnb
      apply hn
      rw [hB u hu0 hu1 n hnb, ite_self]
    simp only [f]
    rw [hw, list_sum_rangeC, Finset.sum_congr rfl (fun c _ => by rw [e1 c]), Finset.sum_mul]
    have e2 : ∀ c ∈ Finset.range N, (((∑ n ∈ B, if IsCell N n c then windowAt (Tuned.kern t) s 0 1 (g + u - n) else 0 : ℝ)) : ℂ) *
        exp (-(2 * Real.pi * I * (k * c / N : ℝ))) * exp (I * w * u) =
        ∑ n ∈ B, if n % (N : ℤ) = c then h (u + ((-n : ℤ) : ℝ)) else 0 := by
      intro c _
      rw [ofReal_sum, Finset.sum_mul, Finset.sum_mul]
      apply Finset.sum_congr rfl
      intro n _
      by_cases hc : n % (N : ℤ) = c
      · rw [if_pos hc, if_pos (by unfold IsCell; rw [if_neg hN.ne']; exact hc.symm)]
        have e3 := exp_int_mod hN κ n k hk
        rw [hc, hw] at e3
        have e4 : ((k * c / N : ℝ) : ℂ) = k * ((c : ℤ) : ℂ) / N := by push_cast; ring
        rw [e4, e3, mul_assoc, ← exp_add]
        simp only [h]
        push_cast
        rw [show u + -(n : ℝ) + g = g + u - n by ring]
        congr 2
        ring
      · rw [if_neg hc, if_neg (by unfold IsCell; rw [if_neg hN.ne']; exact fun h => hc h.symm)]
        simp
    rw [Finset.sum_congr rfl e2, Finset.sum_comm]
    apply Finset.sum_congr rfl
    intro n _
    have h0 : 0 ≤ n % (N : ℤ) := Int.emod_nonneg _ (by omega)
    have h1 : n % (N : ℤ) < N := Int.emod_lt_of_pos _ (by omega)
    rw [Finset.sum_eq_single (n % (N : ℤ)).toNat]
    · rw [if_pos (by omega)]
    · intro c _ hc
      rw [if_neg (by omega)]
    · intro hc
      exact absurd (Finset.mem_range.2 (by omega)) hc
  have hii : ∀ n : ℤ, IntervalIntegrable (fun u => h (u + ((-n : ℤ) : ℝ))) volume 0 1 := fun n =>
    (hint.comp_add_right ((-n : ℤ) : ℝ)).intervalIntegrable
  have hsum : IntervalIntegrable (fun u => ∑ n ∈ B, h (u + ((-n : ℤ) : ℝ))) volume 0 1 := by
    have := IntervalIntegrable.sum B (f := fun n u => h (u + ((-n : ℤ) : ℝ))) (fun n _ => hii n)
    refine this.congr ?_
    intro u _
    simp
  have hcongr : Set.EqOn f (fun u => ∑ n ∈ B, h (u + ((-n : ℤ) : ℝ))) (Set.uIcc 0 1) := by
    intro u hu
    rw [Set.uIcc_of_le zero_le_one] at hu
    exact hf u hu.1 hu.2
  constructor
  · exact hsum.congr fun u hu => (hcongr (Set.uIoc_subset_uIcc hu)).symm
  · rw [integral_congr hcongr, intervalIntegral.integral_finset_sum (fun n _ => hii n), hw, ← hval]
    have hS : HasSum (fun n : ℤ => ∫ x in (0 : ℝ)..1, h (x + ((-n : ℤ) : ℝ))) (∫ x, h x) :=
      (Equiv.neg ℤ).hasSum_iff.2 hint.hasSum_intervalIntegral_comp_add_int
    refine HasSum.unique (hasSum_sum_of_ne_finset_zero ?_) hS
    intro n hn
    have : Set.EqOn (fun x => h (x + ((-n : ℤ) : ℝ))) (fun _ => 0) (Set.uIcc 0 1) := by
      intro u hu
      rw [Set.uIcc_of_le zero_le_one] at hu
      simp only [h]
      rw [show u + ((-n : ℤ) : ℝ) + g = g + u - n by push_cast; ring, hB u hu.1 hu.2 n hn]
      simp
    rw [integral_congr this]
    simp

end Pmesh
