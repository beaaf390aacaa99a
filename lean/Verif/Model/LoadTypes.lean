import Verif.Model.Grid

/-!
# `GridND.load` with the number types of numpy

`bincount` gives 64-bit integers and `numpy.zeros` doubles, so that the type of the result depends on whether some rank has no particles.
Integers wrap around at `2 ^ 63`; doubles are rounded by `rnd` after each operation (all numbers here are integers).
-/

namespace Pmesh

/-- Wraps to 64 bits with sign. -/
def wrapInt64 (x : ℤ) : ℤ := (x + 9223372036854775808) % 18446744073709551616 - 9223372036854775808

/-- An array of `int64` or `float64` numbers. -/
inductive LoadArr where
  | int (l : List ℤ)
  | float (l : List ℤ)
  deriving DecidableEq

/-- The numbers in the array. -/
def LoadArr.vals : LoadArr → List ℤ
  | .int l => l
  | .float l => l

/-- `a + b` of numpy; an integer array is converted if the other is of doubles. -/
def LoadArr.add (rnd : ℤ → ℤ) : LoadArr → LoadArr → LoadArr
  | .int a, .int b => .int (List.zipWith (fun x y => wrapInt64 (x + y)) a b)
  | .int a, .float b => .float (List.zipWith (fun x y => rnd (rnd x + y)) a b)
  | .float a, .int b => .float (List.zipWith (fun x y => rnd (x + rnd y)) a b)
  | .float a, .float b => .float (List.zipWith (fun x y => rnd (x + y)) a b)

/-- `a ** gamma` of numpy for a natural number `gamma`. -/
def LoadArr.pow (rnd : ℤ → ℤ) (gamma : ℕ) : LoadArr → LoadArr
  | .int a => .int (a.map fun x => wrapInt64 (x ^ gamma))
  | .float a => .float (a.map fun x => rnd (x ^ gamma))

section
variable {K : Type*} [Field K] [LinearOrder K] [IsStrictOrderedRing K] [FloorRing K]

/-- `load` on one rank before the reduction, pmesh/domain.py:432-459. -/
def loadLocalT (ld : List K → Option ℕ) (size : ℕ) (pos : List (List K)) : Option LoadArr :=
  if pos.length ≠ 0 then do
    let d ← pos.mapM ld
    pure (.int ((bincount d size).map Nat.cast))
  else some (.float (List.replicate size 0))

/-- `GridND.load`, pmesh/domain.py:409-465.  `allreduce` of python objects adds the arrays with `+`, here in the order of the ranks. -/
def loadT (rnd : ℤ → ℤ) (g : Grid K) (gamma : ℕ) (pos : List (List (List K))) : Option LoadArr := do
  let locs ← pos.mapM (loadLocalT (loadDomain g) g.size)
  match locs with
  | [] => none
  | a :: rest => some ((rest.foldl (LoadArr.add rnd) a).pow rnd gamma)

end
end Pmesh
