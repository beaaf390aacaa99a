import Mathlib.MeasureTheory.Integral.IntervalIntegral.TrapezoidalRule
import Mathlib.Tactic.Linarith
import Mathlib.Tactic.Ring
import Mathlib.Tactic.FieldSimp
import Verif.Model.Qpm

/-! # numpy.trapz on numpy.linspace is the trapezoidal rule -/

namespace Pmesh

open Finset

theorem npTrapz_map (x y : ℕ → ℝ) : ∀ n i : ℕ, npTrapz ((List.range' i (n + 1)).map y) ((List.range' i (n + 1)).map x) =
    ∑ k ∈ range n, (x (i + k + 1) - x (i + k)) * (y (i + k + 1) + y (i + k)) / 2
  | 0, i => by simp [npTrapz]
  | n + 1, i => by
    have ih := npTrapz_map x y n (i + 1)
    rw [List.range'_succ, List.range'_succ, List.map_cons, List.map_cons, List.map_cons, List.map_cons, npTrapz]
    rw [List.range'_succ, List.map_cons, List.map_cons] at ih
    rw [ih, sum_range_succ', add_comm]
    congr 1
    apply sum_congr rfl
    intro k _
    rw [show i + 1 + k + 1 = i + (k + 1) + 1 from by omega, show i + 1 + k = i + (k + 1) from by omega]

/-- The factor of the code is the trapezoidal rule with 1024 intervals. -/
theorem qFactor_eq (f : ℝ → ℝ) (a b : ℝ) : qFactor f a b = trapezoidal_integral f 1024 a b := by
  unfold qFactor npLinspace
  dsimp only
  rw [List.map_map, List.range_eq_range', npTrapz_map]
  have hx : ∀ i : ℕ, i ≤ 1024 → (if i = 1025 - 1 ∧ 1 < 1025 then b else (i : ℝ) * ((b - a) / ((1025 - 1 : ℕ) : ℝ)) + a) =
      a + (i : ℝ) * ((b - a) / 1024) := by
    intro i hi
    split_ifs with h
    · rw [h.1]; push_cast; ring
    · push_cast; norm_num; ring
  have e : b = a + ((1024 : ℕ) : ℝ) * ((b - a) / 1024) := by push_cast; ring
  conv_rhs => rw [e, ← sum_trapezoidal_integral_adjacent_intervals (by norm_num : 0 < 1024)]
  apply sum_congr rfl
  intro k hk
  rw [mem_range] at hk
  simp only [Function.comp_apply, zero_add]
  rw [hx (k + 1) (by omega), hx k (by omega), trapezoidal_integral_one]
  push_cast
  ring

/-- The error of the factor for a function with a bounded second derivative. -/
theorem qFactor_error {f f' f'' : ℝ → ℝ} (h1 : ∀ x, HasDerivAt f (f' x) x) (h2 : ∀ x, HasDerivAt f' (f'' x) x) {a b z : ℝ}
    (hz : ∀ x ∈ Set.uIcc a b, |f'' x| ≤ z) :
    |qFactor f a b - ∫ x in a..b, f x| ≤ |b - a| ^ 3 * z / (12 * 1024 ^ 2) := by
  rw [qFactor_eq]
  rcases eq_or_ne a b with rfl | hab
  · simp
  have hu : UniqueDiffOn ℝ (Set.uIcc a b) := uniqueDiffOn_uIcc hab
  have hd : ∀ x ∈ Set.uIcc a b, derivWithin f (Set.uIcc a b) x = f' x := fun x hx => (h1 x).hasDerivWithinAt.derivWithin (hu x hx)
  have hdd : ∀ x ∈ Set.uIcc a b, HasDerivWithinAt (derivWithin f (Set.uIcc a b)) (f'' x) (Set.uIcc a b) x := fun x hx =>
    (h2 x).hasDerivWithinAt.congr hd (hd x hx)
  have hz0 : 0 ≤ z := (abs_nonneg _).trans (hz a Set.left_mem_uIcc)
  have := trapezoidal_error_le (f := f) (a := a) (b := b) (fun x _ => (h1 x).differentiableAt.differentiableWithinAt)
    (fun x hx => (hdd x hx).differentiableWithinAt) (ζ := z) (by
      intro x
      rw [iteratedDerivWithin_eq_iterate]
      change |derivWithin (derivWithin f (Set.uIcc a b)) (Set.uIcc a b) x| ≤ z
      by_cases hx : x ∈ Set.uIcc a b
      · rw [(hdd x hx).derivWithin (hu x hx)]
        exact hz x hx
      · rw [derivWithin_zero_of_notMem_closure (by rw [isCompact_uIcc.isClosed.closure_eq]; exact hx)]
        simpa using hz0) (N := 1024) (by norm_num)
  simpa [trapezoidal_error] using this

end Pmesh
