import Verif.Spec.Mesh
import Verif.Model.OldPM

/-! # Vocabulary for the deprecated `ParticleMesh` -/

namespace Pmesh
section
variable {K : Type} [Field K] [LinearOrder K] [IsStrictOrderedRing K] [FloorRing K]

/-- The cic window of the new code. -/
def cicWindow : Resampler K := ⟨linearK, some .cic, 2⟩

/-- The local arrays are in C order. -/
def PMesh.CContiguous (m : PMesh K) : Prop :=
  ∀ r < m.nrank, ∀ c, ValidIndex (m.localShape r) c → m.addr r c = (cOrder (m.localShape r) c : ℕ)

/-- The slabs belong to the ranks in C order. -/
def PMesh.CRanks (m : PMesh K) : Prop := ∀ r < m.nrank, cOrder m.shape (m.coord r) = r

/-- Particles with their masses divided by the volume of a cell: painting them gives the density. -/
def asDensity (cell : K) (ps : List (Particle K)) : List (Particle K) := ps.map fun p => { p with mass := p.mass / cell }

/-- The volume of a cell. -/
def PMesh.cellVolume (m : PMesh K) : K := (List.zipWith (fun b (n : ℕ) => b / (n : K)) m.box m.nmesh).prod

end
end Pmesh
