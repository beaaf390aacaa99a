import Verif.Model.Grid

/-!
# `GridND.decompose` with the integer types of the code

`sil` and `sir` are arrays of `i2` (pmesh/domain.py:604-605, `short int` in pmesh/_domain.pyx:13-14), `offset` and `totalsize` of `int32`
(pmesh/_domain.pyx:45-50).
-/

namespace Pmesh

/-- Assignment of an integer to an element of type `i2`. -/
def toInt16 (x : ℤ) : ℤ := (x + 32768) % 65536 - 32768

/-- An integer of type `int32`. -/
def wrapInt32 (x : ℤ) : ℤ := (x + 2147483648) % 4294967296 - 2147483648

section
variable {K : Type*} [Field K] [LinearOrder K] [IsStrictOrderedRing K] [FloorRing K]

/-- `(sil, sir)` of one particle after the assignment to arrays of `i2`, pmesh/domain.py:625-632. -/
def particleRange16 (g : Grid K) (s x : List K) : List (ℤ × ℤ) :=
  (particleRange g s x).map fun a => (toInt16 a.1, toInt16 a.2)

/-- `GridND.decompose`, pmesh/domain.py:561-652. -/
def decompose16 (g : Grid K) (s : List K) (pos : List (List K)) : Except FillErr Sends :=
  decomposeBy g (particleRange16 g s) pos

/-- Domain number of one particle in `load`, with `sil` of type `i2`, pmesh/domain.py:436-456. -/
def loadDomain16 (g : Grid K) (x : List K) : Option ℕ :=
  let sil := List.zipWith (fun (e : List K) (x : K) =>
      let tmp := if g.periodic then pyMod x (e.getLastD 0) else x
      toInt16 ((digitize tmp e : ℤ) - 1)) g.edges x
  ravelMultiIndex (!g.periodic) g.shape sil

/-- `GridND.load`, pmesh/domain.py:409-465. -/
def load16 (g : Grid K) (gamma : ℕ) (pos : List (List (List K))) : Option (List ℕ) := loadOf (loadDomain16 g) g.size gamma pos

end

/-- `totalsize`, the length of the array of indices, with the sums in `int32`, pmesh/_domain.pyx:45-50. -/
def totalsize32 (counts : List ℕ) : ℤ := counts.foldl (fun (a : ℤ) (c : ℕ) => wrapInt32 (a + wrapInt32 c)) 0

end Pmesh
