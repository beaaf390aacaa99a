import Verif.Model.Field
import Mathlib.Analysis.SpecialFunctions.Complex.Circle
import Mathlib.Analysis.Complex.Trigonometric

/-!
# Model of `r2c`, `c2r` and their derivatives, pmesh/pm.py

The transforms themselves are done by the library pfft; its contract (the unnormalised discrete Fourier transform of the
global array, in exact arithmetic) is `dftForward` and `dftBackward`.  pmesh adds the normalisation.  Arrays are global arrays
here; how they are split is in `Tiling`.  Which buffers the plans use (in place, padded, transposed; pmesh/pm.py:660-690,
987-1017) is not modelled.
-/

namespace Pmesh

open Complex

/-- `Σ_j k_j x_j / N_j`. -/
noncomputable def phaseArg : List ℕ → List ℕ → List ℕ → ℝ
  | n :: ns, k :: ks, x :: xs => (k : ℝ) * x / n + phaseArg ns ks xs
  | _, _, _ => 0

/-- `PFFT_FORWARD`: `Σ_x f(x) exp(-2πi k·x/N)`. -/
noncomputable def dftForward (nmesh : List ℕ) (f : List ℕ → ℂ) (k : List ℕ) : ℂ :=
  ((ndindex nmesh).map fun x => f x * exp (-(2 * Real.pi * I * phaseArg nmesh k x))).sum

/-- `PFFT_BACKWARD`: `Σ_k F(k) exp(2πi k·x/N)`. -/
noncomputable def dftBackward (nmesh : List ℕ) (F : List ℕ → ℂ) (x : List ℕ) : ℂ :=
  ((ndindex nmesh).map fun k => F k * exp (2 * Real.pi * I * phaseArg nmesh k x)).sum

/-- The full spectrum that a Hermitian-compressed array stands for: modes that are not stored are the conjugates of their
opposites. -/
noncomputable def decompress (nmesh cshape : List ℕ) (F : List ℕ → ℂ) (k : List ℕ) : ℂ :=
  if (List.zipWith (fun (n i : ℕ) => decide (i < n)) cshape k).all id then F k
  else (starRingEnd ℂ) (F (List.zipWith (fun (n j : ℕ) => (n - j) % n) nmesh k))

/-- `r2c` of a real mesh, pmesh/pm.py:655-694: the stored modes (at the indices below `cshape`).
`out.value[...] *= numpy.prod(self.Nmesh ** -1.0)` is line 692. -/
noncomputable def r2c (nmesh : List ℕ) (f : List ℕ → ℝ) (k : List ℕ) : ℂ :=
  dftForward nmesh (fun x => (f x : ℂ)) k * ((nmesh.map fun (n : ℕ) => ((n : ℝ)⁻¹)).prod : ℝ)

/-- `c2r` to a real mesh, pmesh/pm.py:987-1019. -/
noncomputable def c2r (nmesh cshape : List ℕ) (F : List ℕ → ℂ) (x : List ℕ) : ℝ :=
  (dftBackward nmesh (decompress nmesh cshape F) x).re

/-- The same two for a mesh of complex numbers (`dtype` complex). -/
noncomputable def r2cFull (nmesh : List ℕ) (f : List ℕ → ℂ) (k : List ℕ) : ℂ :=
  dftForward nmesh f k * ((nmesh.map fun (n : ℕ) => ((n : ℝ)⁻¹)).prod : ℝ)

noncomputable def c2rFull (nmesh : List ℕ) (F : List ℕ → ℂ) (x : List ℕ) : ℂ := dftBackward nmesh F x

/-- `c2r_vjp`, pmesh/pm.py:865-870. -/
noncomputable def c2rVjp (nmesh : List ℕ) (v : List ℕ → ℝ) (k : List ℕ) : ℂ :=
  r2c nmesh v k * ((nmesh.map fun (n : ℕ) => (n : ℝ)).prod : ℝ)

/-- `r2c_vjp`, pmesh/pm.py:1021-1026. -/
noncomputable def r2cVjp (nmesh cshape : List ℕ) (v : List ℕ → ℂ) (x : List ℕ) : ℝ :=
  c2r nmesh cshape v x * (nmesh.map fun (n : ℕ) => ((n : ℝ)⁻¹)).prod

/-- `RealField.cdot` on rank `r`, pmesh/pm.py:897-899. -/
def realCdot {K : Type} [Field K] (t : Tiling) (r : ℕ) (f g : List ℕ → K) : Prog K K :=
  .coll .allreduce ((ndindex (t.lshape r)).map fun c => f c * g c).sum fun vs => .ret vs.sum

/-- A complex number as a pair. -/
noncomputable def toCx (z : ℂ) : Cx ℝ := (z.re, z.im)

end Pmesh
