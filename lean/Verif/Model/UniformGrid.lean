import Verif.Model.Mesh

/-! # Model of `mesh_coordinates` and `generate_uniform_particle_grid`, pmesh/pm.py:1697-1751 -/

namespace Pmesh

section
variable {K : Type} [Field K] [LinearOrder K] [IsStrictOrderedRing K] [FloorRing K]

/-- `mesh_coordinates`, pmesh/pm.py:1697-1702: the indices of the local array in C order, plus the start of the rank. -/
def PMesh.meshCoordinates (m : PMesh K) (r : ℕ) : List (List ℕ) :=
  (ndindex (m.localShape r)).map fun c => List.zipWith (· + ·) c (m.start r)

/-- The positions of `generate_uniform_particle_grid(shift)`, pmesh/pm.py:1728-1738: `source += shift`,
`source *= BoxSize / Nmesh`.  `shift` has one number per axis (after `broadcast_to`). -/
def PMesh.uniformGrid (m : PMesh K) (shift : List K) (r : ℕ) : List (List K) :=
  (m.meshCoordinates r).map fun i =>
    List.zipWith (· * ·) (List.zipWith (fun (a : ℕ) s => (a : K) + s) i shift)
      (List.zipWith (fun b (n : ℕ) => b / (n : K)) m.box m.nmesh)

/-- One id of `generate_uniform_particle_grid`, pmesh/pm.py:1744-1749: the first index, then for each further axis `i` multiply
by `Nmesh[i]` and add the index. -/
def gridId (nmesh i : List ℕ) : ℕ :=
  (List.range' 1 (nmesh.length - 1)).foldl (fun id d => id * nmesh.getD d 0 + i.getD d 0) (i.getD 0 0)

/-- The ids of `generate_uniform_particle_grid(return_id=True)`. -/
def PMesh.gridIds (m : PMesh K) (r : ℕ) : List ℕ := (m.meshCoordinates r).map (gridId m.nmesh)

end
end Pmesh
