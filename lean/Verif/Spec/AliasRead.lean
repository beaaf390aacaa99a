import Verif.Spec.Aliasing

/-! # Vocabulary for values read from a mesh -/

namespace Pmesh

open Complex

/-- The plane wave with `κ_j` periods on axis `j` of the box: `exp(2πi Σ_j κ_j x_j / L_j)`. -/
noncomputable def planeWave (box : List ℝ) (κ : ℕ → ℤ) (x : List ℝ) : ℂ :=
  exp (2 * Real.pi * I * ((∑ j ∈ Finset.range box.length, κ j * x.getD j 0 / box.getD j 0 : ℝ) : ℂ))

/-- `rep` gives every mode of the mesh a wave that it stores, of at most half a period per cell, as `fftfreq` does. -/
structure Representatives (nmesh : List ℕ) (rep : List ℕ → List ℤ) : Prop where
  len : ∀ k, ValidIndex nmesh k → (rep k).length = nmesh.length
  index : ∀ k, ValidIndex nmesh k → waveIndex (rep k) nmesh = k
  half : ∀ k, ValidIndex nmesh k → ∀ j < nmesh.length, 2 * |(rep k).getD j 0| ≤ (nmesh.getD j 0 : ℕ)

/-- Relative error due to aliasing for a wave: `Π_j (1 + π²/4 (2|κ_j| / N_j)^p) - 1`. -/
noncomputable def aliasError (p : ℕ) (nmesh : List ℕ) (κ : List ℤ) : ℝ :=
  ∏ j ∈ Finset.range nmesh.length, (1 + Real.pi ^ 2 / 4 * (2 * |((κ.getD j 0 : ℤ) : ℝ)| / (nmesh.getD j 0 : ℕ)) ^ p) - 1

end Pmesh
