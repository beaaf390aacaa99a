import Verif.Lemmas.FloatRound
import Mathlib.Algebra.Order.Floor.Ring
import Mathlib.Data.Rat.Floor
import Mathlib.Algebra.BigOperators.Group.Multiset.Basic

/-! # Sums in floating point -/

namespace Pmesh

/-- `s` is the result of adding the numbers of `M` in some order and with some brackets, every addition rounded to `p` digits. -/
inductive FlSum (p : ℕ) : Multiset ℚ → ℚ → Prop where
  | zero : FlSum p 0 0
  | one (x : ℚ) : FlSum p {x} x
  | add {M N : Multiset ℚ} {a b : ℚ} : FlSum p M a → FlSum p N b → FlSum p (M + N) (flRound p (a + b))

/-- The routine `S` adds lists of numbers in some order. -/
def Sums (p : ℕ) (S : List ℚ → ℚ) : Prop := ∀ l : List ℚ, FlSum p (l : Multiset ℚ) (S l)

/-- `x` is a floating point number with `p` digits. -/
def IsFloat (p : ℕ) (x : ℚ) : Prop := flRound p x = x

end Pmesh
