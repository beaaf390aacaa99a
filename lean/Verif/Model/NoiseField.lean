import Verif.Model.WhiteNoise
import Verif.Model.Ranlxd
import Verif.Model.Apply
import Verif.Model.Field
import Mathlib.Analysis.SpecialFunctions.Trigonometric.Basic
import Mathlib.Analysis.SpecialFunctions.Log.Basic

/-! # Model of `whitenoise.generate` (three axes) and `ParticleMesh.generate_whitenoise`, pmesh/pm.py:1655-1695 -/

namespace Pmesh

/-- `gsl_rng_ranlxd1`. -/
def ranlxdRng (rnd : ℚ → ℚ) : Rng RlState := ⟨ranlxd1Set rnd, rlGetDouble rnd⟩

/-- `ampl * cos(phase)` and `ampl * sin(phase)`, _whitenoise_generics.h:176-185 and _whitenoise_imp.c:23, in exact arithmetic. -/
noncomputable def polarIdeal (unitary : Bool) (a p : ℝ) : ℝ × ℝ :=
  let ampl := if unitary then 1 else Real.sqrt (-Real.log a)
  let phase := p * 2 * Real.pi
  (ampl * Real.cos phase, ampl * Real.sin phase)

/-- The same of the rational numbers that the generator makes. -/
noncomputable def polarReal (unitary : Bool) (a p : ℚ) : ℝ × ℝ := polarIdeal unitary a p

/-- The fields that `_whitenoise.generate` fills in, pmesh/_whitenoise.pyx:30-42. -/
def noiseGen (nmesh start shape : List ℕ) (strides : List ℤ) (unitary : Bool) : NoiseGen :=
  ⟨fun d => nmesh.getD d 0, fun d => start.getD d 0, fun d => shape.getD d 0, fun d => strides.getD d 0, unitary⟩

section
variable {σ D K : Type} [Field D] [LinearOrder D] [FloorRing D] [Field K] [DecidableEq K] (r : Rng σ D) (polar : Bool → D → D → K × K)
  (rnd : D → D)

/-- `generate_whitenoise(seed, unitary, mean, type)` of a complex type on one rank, pmesh/pm.py:1683-1692: the memory of the
field.  `mem` is what is in the memory before, `start`, `shape`, `strides` describe the local array, `order` is the order of the
axes that `apply` uses and `pi` is `numpy.pi`. -/
def generateWhitenoise (pi : K) (nmesh start shape : List ℕ) (strides : List ℤ) (order : List ℕ) (box : List K) (seed : ℕ)
    (unitary : Bool) (mean : K) (mem : ℤ → K × K) : ℤ → K × K :=
  let mem := genericFill r polar rnd (noiseGen nmesh start shape strides unitary) seed mem
  applyField shape strides order .wavenumber box (nmesh.map fun n => (n : K))
    (fun d j => (wavAxis pi (start.getD d 0) (shape.getD d 0) (nmesh.getD d 0) (box.getD d 0)).getD j 0)
    (fun d j => ((start.getD d 0 + j : ℕ) : K))
    (fun k v => if k.all (fun ki => decide (ki = 0)) then (mean, 0) else v) none mem

end
end Pmesh
