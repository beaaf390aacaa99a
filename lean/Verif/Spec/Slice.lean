import Verif.Spec.Preview
import Verif.Spec.Symmetry
import Verif.Model.Mesh

/-! # Vocabulary for projections of a mesh -/

namespace Pmesh

/-- The mode of a mesh with `n` axes that has the components `k` along the axes `axes`, and 0 along the others. -/
def extended (n : ℕ) (axes k : List ℕ) : List ℕ := (List.range n).map fun j => if j ∈ axes then k.getD (axes.idxOf j) 0 else 0

/-- How the cells of a mesh are split over the ranks. -/
def PMesh.tiling {K : Type} [Field K] (m : PMesh K) : Tiling := ⟨m.nmesh, m.nmesh, m.nrank, m.start, m.localShape⟩

end Pmesh
