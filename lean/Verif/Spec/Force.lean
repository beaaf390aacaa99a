import Verif.Spec.Mesh

/-! # Vocabulary for forces from a mesh -/

namespace Pmesh

/-- The local arrays `loc` of the ranks hold the global field `A`. -/
def PMesh.HoldsField {K : Type} [Field K] (m : PMesh K) (loc : ℕ → ℤ → K) (A : List ℕ → K) : Prop :=
  ∀ r < m.nrank, ∀ c, ValidIndex (m.localShape r) c → loc r (m.addr r c) = A (m.global r c)

end Pmesh
