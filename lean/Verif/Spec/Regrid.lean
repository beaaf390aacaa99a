import Verif.Spec.Mesh

/-! # What C37 speaks about: a field spread over ranks and its sum -/

namespace Pmesh
section
variable {K : Type} [Field K] [LinearOrder K] [IsStrictOrderedRing K] [FloorRing K]

/-- A field `field` spread over the ranks of mesh `m` is the field `glob` of one rank, whose array has strides `st`. -/
def PMesh.Spread (m : PMesh K) (st : List ℤ) (field : ℕ → ℤ → K) (glob : ℤ → K) : Prop :=
  ∀ r < m.nrank, ∀ c, ValidIndex (m.localShape r) c → field r (m.addr r c) = glob ((m.serial st).addr 0 (m.global r c))

/-- Sum of all elements of a field spread over the ranks. -/
def PMesh.fieldSum (m : PMesh K) (field : ℕ → ℤ → K) : K :=
  ((List.range m.nrank).map fun r => ((ndindex (m.localShape r)).map fun c => field r (m.addr r c)).sum).sum

end
end Pmesh
