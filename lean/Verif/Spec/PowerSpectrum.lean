import Mathlib.Analysis.SpecialFunctions.Integrals.Basic

/-! # Vocabulary for the power spectrum -/

namespace Pmesh

/-- A table of wave numbers and power, as a user has it: positive numbers, at least one line, increasing wave numbers. -/
structure PowerTable (kp : List (ℝ × ℝ)) : Prop where
  ne : kp ≠ []
  pos : ∀ q ∈ kp, 0 < q.1 ∧ 0 < q.2
  incr : kp.Pairwise fun a b => a.1 < b.1

/-- Mean of `exp(i k·r)` over a ball of radius `R`, as a function of `x = |k| R`: slices of the unit ball perpendicular to `k` have the area `π (1 - z²)`, and the ball has the
volume `4π/3`. -/
noncomputable def ballWave (x : ℝ) : ℝ := ∫ z in (-1 : ℝ)..1, (Real.pi * (1 - z ^ 2)) / (4 * Real.pi / 3) * Real.cos (x * z)

/-- Variance of the density in balls of radius `R` for the power `P` (in the convention of the code, the power over `(2π)³`). -/
noncomputable def ballVariance (P : ℝ → ℝ) (R : ℝ) : ℝ := ∫ k in Set.Ioi 0, 4 * Real.pi * k ^ 2 * P k * ballWave (R * k) ^ 2

end Pmesh
