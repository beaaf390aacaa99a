import Verif.Props.RankFree
import Mathlib.Analysis.Complex.Exponential

/-! # Vocabulary for aliasing -/

namespace Pmesh

open Complex

/-- Index of the mode under which the wave with `κ_j` periods on axis `j` is stored. -/
def waveIndex (κ : List ℤ) (nmesh : List ℕ) : List ℕ := List.zipWith (fun (q : ℤ) (n : ℕ) => (q % n).toNat) κ nmesh

/-- Fourier amplitude of the point particles of all ranks: `Σ_p m_p exp(-2πi Σ_j κ_j x_j / L_j)`. -/
noncomputable def SolverRun.pointWave (a : SolverRun) (κ : ℕ → ℤ) : ℂ :=
  ∑ r ∈ Finset.range a.m.nrank, ∑ i ∈ Finset.range (a.pos r).length, (((a.mass r).at i : ℝ) : ℂ) *
    exp (-(2 * Real.pi * I * ((∑ j ∈ Finset.range a.m.nmesh.length, κ j * ((a.pos r).getD i []).getD j 0 / a.m.box.getD j 0 : ℝ) : ℂ)))

/-- Sum of the absolute values of the masses. -/
noncomputable def SolverRun.totalMass (a : SolverRun) : ℝ :=
  ∑ r ∈ Finset.range a.m.nrank, ∑ i ∈ Finset.range (a.pos r).length, |(a.mass r).at i|

/-- The wave that differs from `κ` by `b_j` times the number of cells on axis `j`, and looks the same on the mesh. -/
def aliasOf (nmesh : List ℕ) (κ : List ℤ) (b : Fin nmesh.length → ℤ) (j : ℕ) : ℤ :=
  κ.getD j 0 + (nmesh.getD j 0 : ℕ) * (if h : j < nmesh.length then b ⟨j, h⟩ else 0)

end Pmesh
