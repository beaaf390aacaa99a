import Verif.Model.Dtype
import Verif.Spec.Layout

/-! # Vocabulary for number types -/

namespace Pmesh

/-- `x` is a number of the type (floating point numbers without bounds of the exponent). -/
def DType.Holds : DType → ℚ → Prop
  | .int b, x => ∃ m : ℤ, x = m ∧ -2 ^ (b - 1) ≤ m ∧ m < 2 ^ (b - 1)
  | .uint b, x => ∃ m : ℤ, x = m ∧ 0 ≤ m ∧ m < 2 ^ b
  | .float p, x => ∃ (m k : ℤ), x = m * 2 ^ k ∧ |m| ≤ 2 ^ p

/-- A type of numpy. -/
def DType.Real : DType → Prop
  | .int b => b = 8 ∨ b = 16 ∨ b = 32 ∨ b = 64
  | .uint b => b = 8 ∨ b = 16 ∨ b = 32 ∨ b = 64
  | .float p => p = 11 ∨ p = 24 ∨ p = 53

/-- What the ranks hand to `gather` for the copies of particle `i` of rank `q`, rank by rank. -/
def copiesOf (n : ℕ) (L : ℕ → Lay) (v : ℕ → List ℚ) (q i : ℕ) : List ℚ :=
  (List.range n).flatMap fun r => ((((L q).sentIdx r).zip ((L r).segment q (v r))).filter fun p => p.1 = i).map (·.2)

end Pmesh
