import Verif.Model.Fourier
import Mathlib.Analysis.SpecialFunctions.Complex.Arg
import Mathlib.Analysis.SpecialFunctions.Pow.Real

/-!
# Model of `whitenoise.generate` for one and two axes, pmesh/whitenoise.py:23-39, and of what `generate_whitenoise` adds

`numpy.random.RandomState(seed).normal(size=Nmesh)` is an array of real numbers that depends on the seed and the mesh only; it is an
argument. `numpy.fft.fftn` is the discrete Fourier transform in exact arithmetic.
-/

namespace Pmesh

open Complex

/-- Number of elements of `slice(a, a + b)` of an axis with `N` elements. -/
def sliceLen (N a b : ℕ) : ℕ := min (a + b) N - min a N

/-- `full` of pmesh/whitenoise.py:27-29. -/
noncomputable def fullNoise (nmesh : List ℕ) (normal : List ℕ → ℝ) (k : List ℕ) : ℂ :=
  dftForward nmesh (fun x => (normal x : ℂ)) k * (((nmesh.prod : ℕ) : ℝ) ^ (-(1 / 2) : ℝ) : ℝ)

/-- `generate(complex, start, Nmesh, seed, unitary)`, pmesh/whitenoise.py:23-39, at the local indices; `none` for the ValueError of more
axes (here also of three, which is another branch) and of slices that do not have the shape of `complex` (those with one element
would be broadcast). -/
noncomputable def lowNoise (nmesh start shape : List ℕ) (unitary : Bool) (normal : List ℕ → ℝ) : Option (List ℕ → ℂ) :=
  if nmesh.length ≤ 2 ∧ List.zipWith (fun N (ab : ℕ × ℕ) => sliceLen N ab.1 ab.2) nmesh (start.zip shape) = shape then
    some fun c =>
      let z := fullNoise nmesh normal (List.zipWith (· + ·) start c)
      if unitary then exp (I * (arg z : ℂ)) else z
  else none

/-- `generate_whitenoise(seed, unitary, mean, type)` of a complex type on two axes, pmesh/pm.py:1683-1692. That `apply` gives each mode its
own coordinates is C32. -/
noncomputable def lowWhitenoise (nmesh start shape : List ℕ) (box : List ℝ) (unitary : Bool) (mean : ℝ) (normal : List ℕ → ℝ) :
    Option (List ℕ → ℂ) :=
  (lowNoise nmesh start shape unitary normal).map fun f c =>
    if (List.range nmesh.length).all (fun d =>
      decide ((wavAxis Real.pi (start.getD d 0) (shape.getD d 0) (nmesh.getD d 0) (box.getD d 0)).getD (c.getD d 0) 0 = 0)) then (mean : ℂ)
    else f c

end Pmesh
