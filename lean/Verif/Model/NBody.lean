import Mathlib.Analysis.SpecialFunctions.Trigonometric.Basic
import Mathlib.Analysis.SpecialFunctions.Log.Basic
import Mathlib.MeasureTheory.Integral.IntervalIntegral.Basic
import Verif.Spec.Simulation
import Verif.Model.Abopt

/-!
# The N-body program that comes with pmesh, examples/nbody.py

Not modelled: `print(Q.min(axis=0), ...)` (which fails on a rank without particles), `energy` (never called), `analyze` and `write_report` (power spectra with nbodykit, a plot), the command line.
The functions of the cosmology (`pt`, `PowerSpectrum`) are parameters.
-/

namespace Pmesh

/-- What the arrays `Q`, `S`, `V` (class `State`, examples/nbody.py:78-82) and `F` hold of one particle: place on the grid, displacement, velocity, force. -/
structure NBody where
  q : List ℝ
  s : List ℝ
  v : List ℝ
  f : List ℝ

/-- `X = S + Q`, examples/nbody.py:201. -/
def NBody.x (b : NBody) : List ℝ := List.zipWith (· + ·) b.s b.q

/-- `V[...] += F * K(...)`, examples/nbody.py:95. -/
def NBody.kick (c : ℝ) (b : NBody) : NBody := { b with v := List.zipWith (fun v f => v + f * c) b.v b.f }

/-- `S[...] += V * D(...)`, examples/nbody.py:96. -/
def NBody.drift (c : ℝ) (b : NBody) : NBody := { b with s := List.zipWith (fun s v => s + v * c) b.s b.v }

/-- A class of factors, examples/nbody.py:13-75: `K(ai, af, ar)` and `D(ai, af, ar)`. -/
structure Factors where
  K : ℝ → ℝ → ℝ → ℝ
  D : ℝ → ℝ → ℝ → ℝ

/-- The functions of `PerturbationGrowth` that the factors use. -/
structure Growth where
  E : ℝ → ℝ
  Gf : ℝ → ℝ
  gf : ℝ → ℝ
  Gp : ℝ → ℝ
  gp : ℝ → ℝ

section
variable (pt : Growth)

/-- examples/nbody.py:14-15, 28-29. -/
noncomputable def kickFast (ai af ar : ℝ) : ℝ := 1 / (ar ^ 2 * pt.E ar) * (pt.Gf af - pt.Gf ai) / pt.gf ar

/-- examples/nbody.py:16-17, 24-25. -/
noncomputable def driftFast (ai af ar : ℝ) : ℝ := 1 / (ar ^ 3 * pt.E ar) * (pt.Gp af - pt.Gp ai) / pt.gp ar

/-- examples/nbody.py:20-23, 36-39, 47-50; `quad` as the exact integral. -/
noncomputable def kickQuad (ai af _ar : ℝ) : ℝ := ∫ a in ai..af, 1.0 / (a * a * pt.E a)

/-- examples/nbody.py:30-33, 40-43, 62-65. -/
noncomputable def driftQuad (ai af _ar : ℝ) : ℝ := ∫ a in ai..af, 1.0 / (a * a * a * pt.E a)

/-- Class `FastPM`, examples/nbody.py:13-17. -/
noncomputable def fastPM : Factors := ⟨kickFast pt, driftFast pt⟩

/-- Class `FastPM1`, examples/nbody.py:19-25. -/
noncomputable def fastPM1 : Factors := ⟨kickQuad pt, driftFast pt⟩

/-- Class `FastPM2`, examples/nbody.py:27-33. -/
noncomputable def fastPM2 : Factors := ⟨kickFast pt, driftQuad pt⟩

/-- Class `Quinn`, examples/nbody.py:35-43. -/
noncomputable def quinn : Factors := ⟨kickQuad pt, driftQuad pt⟩

/-- Class `TVE`, examples/nbody.py:45-54: `ar ** -2 * quad(...)`. -/
noncomputable def tve : Factors := ⟨kickQuad pt, fun ai af ar => ar⁻¹ ^ 2 * ∫ a in ai..af, 1.0 / (a * pt.E a)⟩

/-- Class `VTE`, examples/nbody.py:56-65: `ar ** -1 * quad(...)`. -/
noncomputable def vte : Factors := ⟨fun ai af ar => ar⁻¹ * ∫ a in ai..af, 1.0 / (a * pt.E a), driftQuad pt⟩

/-- Class `Naive`, examples/nbody.py:67-75. -/
noncomputable def naive : Factors :=
  ⟨fun ai af ar => 1.0 / (ar * ar * pt.E ar) * (af - ai), fun ai af ar => 1.0 / (ar * ar * ar * pt.E ar) * (af - ai)⟩

end

/-- A statement of the loops over the time steps. -/
inductive NbOp where
  | force
  | kick (ai af ar : ℝ)
  | drift (ai af ar : ℝ)

/-- `zip(time_steps[:-1], time_steps[1:])`, examples/nbody.py:93, 112, 145. -/
def stepPairs (times : List ℝ) : List (ℝ × ℝ) := times.zip times.tail

/-- examples/nbody.py:137-152. -/
noncomputable def symp1 (times : List ℝ) : List NbOp :=
  .force :: (stepPairs times).flatMap fun p =>
    let ai := p.1; let af := p.2
    [.force, .kick ai af ai, .drift ai af af, .force]

/-- examples/nbody.py:84-102; `(ai * af) ** 0.5`. -/
noncomputable def symp2 (times : List ℝ) : List NbOp :=
  .force :: (stepPairs times).flatMap fun p =>
    let ai := p.1; let af := p.2
    let ac := Real.sqrt (ai * af)
    [.kick ai ac ai, .drift ai af ac, .force, .kick ac af af]

/-- examples/nbody.py:104-134. -/
noncomputable def symp3 (times : List ℝ) : List NbOp :=
  .force :: (stepPairs times).flatMap fun p =>
    let ai := p.1; let af := p.2
    let dloga := Real.log af - Real.log ai
    let ac1 := af
    let ac2 := ac1 * Real.exp (-2.0 / 3.0 * dloga)
    let ac3 := af
    let ad1 := ai * Real.exp (-1 / 24 * dloga)
    let ad2 := ad1 * Real.exp (3 / 4 * dloga)
    let ad3 := af
    [.drift ai ac1 ai, .force, .kick ai ad1 af, .drift af ac2 ad1, .force, .kick ad1 ad2 ac2, .drift ac2 ac3 ad2, .force, .kick ad2 ad3 ac3]

/-- `sum(ki ** 2 for ki in k)`; `k2[k2 == 0] = 1.0`, examples/nbody.py:156-157, 164-165. -/
noncomputable def nbK2 (nmesh : List ℕ) (box : List ℝ) (k : List ℕ) : ℝ :=
  let k2 := ((waveVector Real.pi nmesh box k).map fun ki => ki ^ 2).sum
  if k2 = 0 then 1 else k2

/-- `dx1_transfer(d)`, examples/nbody.py:154-160. -/
noncomputable def dx1Transfer (nmesh : List ℕ) (box : List ℝ) (d : ℕ) (k : List ℕ) : ℂ :=
  Complex.I * ((waveVector Real.pi nmesh box k).getD d 0 : ℝ) / (nbK2 nmesh box k : ℝ)

/-- `force_transfer(d)`, examples/nbody.py:162-170; `C` is the size of a cell. -/
noncomputable def forceTransfer (nmesh : List ℕ) (box : List ℝ) (d : ℕ) (k : List ℕ) : ℂ :=
  let C := box.getD d 0 / (nmesh.getD d 0 : ℝ)
  let w := (waveVector Real.pi nmesh box k).getD d 0 * C
  let kfinite := 1.0 / C * 1 / 6.0 * (8 * Real.sin w - Real.sin (2 * w))
  Complex.I * (kfinite : ℝ) / (nbK2 nmesh box k : ℝ)

/-- examples/nbody.py:200-207, `force` on rank `r`: decompose, paint, count the particles of all ranks, normalise. -/
noncomputable def nbDensity (m : PMesh ℝ) (w : Resampler ℝ) (sm : List ℝ) (r : ℕ) (X : List (List ℝ)) :
    Prog (Msg (List ℝ)) (Except MeshErr (ℤ → ℝ)) :=
  (pmDecompose m sm r X).andThen fun lay =>
    (pmPaint m w none false r (some lay) X (.scalar 1) .none fun _ => 0).andThen fun mem =>
      abTotal X.length fun N => .ret (.ok fun z => mem z * (1.0 * (m.nmesh.prod : ℝ) / (N : ℝ)))

/-- `F[...] = force(pm, Q, S)` on all ranks, examples/nbody.py:199-218.  The code computes the layout once; here `decompose` is repeated, with the same result. -/
def Machine.NbForce (a : Machine) (w : Resampler ℝ) (om : ℝ) (s s' : ℕ → List NBody) : Prop :=
  ∃ (dens : ℕ → ℤ → ℝ) (F : ℕ → List ℕ → ℂ) (field : ℕ → ℕ → ℤ → ℝ) (val : ℕ → ℕ → List ℝ),
    AllReturn a.m.nrank (fun r => nbDensity a.m w a.sm r ((s r).map NBody.x)) (fun r => .ok (dens r)) ∧
    a.IsR2c dens F ∧
    (∀ d < a.m.nmesh.length, a.IsC2r (a.times (forceTransfer a.m.nmesh a.m.box d) F) (field d) ∧
      AllReturn a.m.nrank (fun r => (pmDecompose a.m a.sm r ((s r).map NBody.x)).andThen fun lay =>
        pmReadout a.m w none r (some lay) ((s r).map NBody.x) .none (field d r)) (fun r => .ok (val d r))) ∧
    ∀ r < a.m.nrank, s' r = (s r).mapIdx fun i b =>
      { b with f := (List.range a.m.nmesh.length).map fun d => 1.5 * om * (val d r).getD i 0 }

/-- One statement, on all ranks. -/
def Machine.NbStep (a : Machine) (w : Resampler ℝ) (om : ℝ) (fac : Factors) : NbOp → (ℕ → List NBody) → (ℕ → List NBody) → Prop
  | .force, s, s' => a.NbForce w om s s'
  | .kick ai af ar, s, s' => ∀ r < a.m.nrank, s' r = (s r).map (NBody.kick (fac.K ai af ar))
  | .drift ai af ar, s, s' => ∀ r < a.m.nrank, s' r = (s r).map (NBody.drift (fac.D ai af ar))

/-- The statements in order. -/
def Machine.NbRun (a : Machine) (w : Resampler ℝ) (om : ℝ) (fac : Factors) : List NbOp → (ℕ → List NBody) → (ℕ → List NBody) → Prop
  | [], s, s' => s' = s
  | op :: l, s, s' => ∃ u, a.NbStep w om fac op s u ∧ a.NbRun w om fac l u s'

/-- examples/nbody.py:270-275, `simulate` on rank `r` for one point of the grid, after the displacements `dx` (the values of the field at the point) have been
read: `S = DX1 * pt.D1(a=a0)`, `V = S * a0 ** 2 * pt.f1(a0) * pt.E(a0)`. -/
def nbInit (D1 a0 f1 E : ℝ) (q dx : List ℝ) : NBody :=
  let s := dx.map (· * D1)
  ⟨q, s, s.map fun x => x * a0 ^ 2 * f1 * E, []⟩

/-- The transfer functions of `simulate`, examples/nbody.py:253-267: `convolve` (the amplitude of the power spectrum) and then `dx1_transfer(d)`. -/
noncomputable def nbKernels (P : ℝ → ℝ) (nmesh : List ℕ) (box : List ℝ) : List (List ℕ → ℂ) :=
  (List.range nmesh.length).map fun d k =>
    dx1Transfer nmesh box d k * (Real.sqrt (P (Real.sqrt ((waveVector Real.pi nmesh box k).map fun ki => ki ^ 2).sum) / box.prod) : ℝ)

/-- `simulate`, examples/nbody.py:245-288, on all ranks: `a` is `pm` (white noise and displacements), `a'` is `fpm` (forces); `s'` are the
particles at the end.  `pm.generate_uniform_particle_grid(shift=0)`; the bodies stay on the ranks on which the grid puts them. -/
def NbSimulate {σ : Type} (rng : Rng σ) (rnd : ℚ → ℚ) (w w' : Resampler ℝ) (P D1 f1 E : ℝ → ℝ) (om : ℝ) (fac : Factors)
    (scheme : List ℝ → List NbOp) (times : List ℝ) (seed : ℕ) (a a' : Machine) (ar : ℕ → NoiseRank) (s' : ℕ → List NBody) : Prop :=
  let a0 := times.headD 0
  ∃ s, a.Start rng rnd w seed true 0 ar [0, 0, 0] (nbKernels P a.m.nmesh a.m.box) (fun _ q dx => nbInit (D1 a0) a0 (f1 a0) (E a0) q dx) s ∧
    a'.NbRun w' om fac (scheme times) s s'

end Pmesh
