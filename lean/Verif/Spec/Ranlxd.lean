import Mathlib.Data.Rat.Defs
import Mathlib.Algebra.Order.Ring.Rat
import Mathlib.Algebra.BigOperators.Group.List.Basic

/-! # The recurrence of RANLUX, independent of its implementation -/

namespace Pmesh

/-- Numbers with at most 53 bits, of which at most 48 after the point, are representable: rounding keeps them. -/
def ExactRounding (rnd : ℚ → ℚ) : Prop :=
  ∀ (z : ℤ) (e : ℕ), |z| ≤ 2 ^ 53 → e ≤ 48 → rnd ((z : ℚ) / 2 ^ e) = (z : ℚ) / 2 ^ e

/-- The subtract-with-borrow sequence with lags 5 and 12 and base `2^48`: `x` are the words and `c` the borrows. -/
structure SubtractWithBorrow (x c : ℕ → ℤ) : Prop where
  first : c 0 = 0
  word : ∀ n, x (n + 12) = x (n + 7) - x n - c n + 2 ^ 48 * c (n + 1)
  borrow : ∀ n, c (n + 1) = if x (n + 7) - x n - c n < 0 then 1 else 0

/-- The bits made from a seed: the 31 lowest bits of the seed, then each bit is the sum of the bits 31 and 13 before. -/
structure SeedBits (seed : ℕ) (b : ℕ → ℕ) : Prop where
  first : ∀ n < 31, b n = seed / 2 ^ n % 2
  more : ∀ n, b (n + 31) = (b n + b (n + 18)) % 2

/-- The number whose bits start the generator: zero means one, only the low 32 bits of the seed count, and a seed of `2^31` or more counts as the
negative `int` with the same bits, of which the magnitude is used. -/
def seedMagnitude (seed : ℕ) : ℕ :=
  if seed = 0 then 1 else if seed % 2 ^ 32 < 2 ^ 31 then seed % 2 ^ 32 else 2 ^ 32 - seed % 2 ^ 32

/-- Word number `k`: 48 inverted bits, the first one the most significant. -/
def seedWord (b : ℕ → ℕ) (k : ℕ) : ℤ := ((List.range 48).map fun l => (1 - (b (48 * k + l) : ℤ)) * 2 ^ (47 - l)).sum

end Pmesh
