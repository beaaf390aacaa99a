import Verif.Spec.NoiseLaw
import Verif.Props.Fourier

/-! # Random fields in real space -/

namespace Pmesh

/-- Where the stored modes of a field of `N × N × M` cells are: `place k` is the element, on whatever rank, that holds the mode `k`. -/
structure NoiseLayout (N M : ℕ) (cshape : List ℕ) (place : List ℕ → NoisePlace) : Prop where
  stored : StoredShape [N, N, M] cshape
  ok : ∀ k, ValidIndex cshape k → (place k).OK N M
  mode : ∀ k, ValidIndex cshape k → (place k).mode = k

/-- The element of a field at index `x`, if white noise is generated, multiplied with the transfer function `T` and transformed by `c2r`. -/
noncomputable def randomField {σ : Type} (r : Rng σ ℝ) (rnd : ℝ → ℝ) (N M : ℕ) (cshape : List ℕ) (box : Fin 3 → ℝ) (seed : ℕ) (mean : ℝ)
    (place : List ℕ → NoisePlace) (T : List ℕ → ℂ) (x : List ℕ) : ℝ :=
  c2r [N, N, M] cshape (fun k => T k * ⟨(noiseAt r rnd N M box seed false mean (place k)).1, (noiseAt r rnd N M box seed false mean (place k)).2⟩) x

/-- The transfer function keeps the field real. -/
def HermitianTransfer (nmesh : List ℕ) (T : List ℕ → ℂ) : Prop :=
  ∀ k, ValidIndex nmesh k → T (opposite nmesh k) = (starRingEnd ℂ) (T k)

/-- Expected power of the modes of white noise: one, but one half for the modes that are their own opposite, and zero for the mean. -/
noncomputable def modePower (nmesh k : List ℕ) : ℝ :=
  if k = nmesh.map (fun _ => 0) then 0 else if k = opposite nmesh k then 1 / 2 else 1

/-- The correlation function of a field with transfer function `T`. -/
noncomputable def correlation (nmesh : List ℕ) (T : List ℕ → ℂ) (x y : List ℕ) : ℝ :=
  ((ndindex nmesh).map fun k => modePower nmesh k * ‖T k‖ ^ 2 * Real.cos (2 * Real.pi * (phaseArg nmesh k x - phaseArg nmesh k y))).sum

end Pmesh
