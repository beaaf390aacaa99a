import Verif.Spec.Force
import Verif.Spec.Field
import Verif.Model.Fourier
import Verif.Model.Mesh
import Verif.Model.UniformGrid
import Verif.Props.NoiseGlobal

/-! # A particle-mesh simulation on some number of ranks -/

namespace Pmesh

/-- How a program is run: the mesh with its split over ranks, the smoothing for `decompose`, the split of the modes over ranks. -/
structure Machine where
  m : PMesh ℝ
  sm : List ℝ
  t : Tiling

/-- The restrictions of C23 and C24; modes and cells belong to the same mesh and ranks. -/
structure Machine.OK (a : Machine) (w : Resampler ℝ) : Prop where
  mesh : a.m.OK
  plain : a.m.PlainRanks
  smoothing : a.m.SmoothingOK a.sm
  halo : a.m.HaloFits a.sm
  covers : ∀ e ∈ a.sm, w.Covers e 1
  modes : a.t.OK
  modes_mesh : a.t.nmesh = a.m.nmesh
  modes_rank : a.t.nrank = a.m.nrank
  storage : a.t.Storage

/-- What the FFT library does in `r2c` (pm.py:655-694): from the local arrays of cells to the local arrays of modes. -/
def Machine.IsR2c (a : Machine) (dens : ℕ → ℤ → ℝ) (F : ℕ → List ℕ → ℂ) : Prop :=
  ∀ rho, a.m.HoldsField dens rho → a.t.Holds F (r2c a.m.nmesh rho)

/-- What the FFT library does in `c2r` (pm.py:987-1019). -/
def Machine.IsC2r (a : Machine) (F : ℕ → List ℕ → ℂ) (field : ℕ → ℤ → ℝ) : Prop :=
  ∀ G, a.t.Holds F G → a.m.HoldsField field (c2r a.m.nmesh a.t.cshape G)

/-- `apply(lambda k, v: T(k) * v)` on rank `r` (pm.py:1082-1139; see C32). -/
def Machine.times (a : Machine) (T : List ℕ → ℂ) (F : ℕ → List ℕ → ℂ) (r : ℕ) (c : List ℕ) : ℂ := T (a.t.global r c) * F r c

/-- A simulation: what a body is (its position, its mass, and anything else, such as id and momentum), the transfer functions of step `n`,
one for each field that is read at the bodies, and how step `n` changes a body, given the values read. -/
structure Sys (B : Type) where
  x : B → List ℝ
  mass : B → ℝ
  kernel : ℕ → List (List ℕ → ℂ)
  next : ℕ → B → List ℝ → B

section
variable {B : Type}

/-- The bodies of all ranks. -/
def Machine.all (a : Machine) (s : ℕ → List B) : List B := (List.range a.m.nrank).flatMap s

/-- Step `n`: decompose, paint with the masses, `r2c`; for each transfer function multiply, `c2r`, decompose and readout; change the bodies. -/
def Machine.Step (a : Machine) (w : Resampler ℝ) (sys : Sys B) (n : ℕ) (s s' : ℕ → List B) : Prop :=
  ∃ (dens : ℕ → ℤ → ℝ) (F : ℕ → List ℕ → ℂ) (field : ℕ → ℕ → ℤ → ℝ) (val : ℕ → ℕ → List ℝ),
    AllReturn a.m.nrank (fun r => (pmDecompose a.m a.sm r ((s r).map sys.x)).andThen fun lay =>
      pmPaint a.m w none false r (some lay) ((s r).map sys.x) (.array ((s r).map sys.mass)) .none fun _ => 0) (fun r => .ok (dens r)) ∧
    a.IsR2c dens F ∧
    (∀ d < (sys.kernel n).length, a.IsC2r (a.times ((sys.kernel n).getD d 0) F) (field d) ∧
      AllReturn a.m.nrank (fun r => (pmDecompose a.m a.sm r ((s r).map sys.x)).andThen fun lay =>
        pmReadout a.m w none r (some lay) ((s r).map sys.x) .none (field d r)) (fun r => .ok (val d r))) ∧
    ∀ r < a.m.nrank, s' r = (s r).mapIdx fun i b => sys.next n b ((List.range (sys.kernel n).length).map fun d => (val d r).getD i 0)

/-- `n` steps. -/
def Machine.Steps (a : Machine) (w : Resampler ℝ) (sys : Sys B) : ℕ → (ℕ → List B) → (ℕ → List B) → Prop
  | 0, s, s' => s' = s
  | n + 1, s, s' => ∃ u, a.Steps w sys n s u ∧ a.Step w sys n u s'

/-- Initial conditions: white noise in the modes; for each transfer function of `D` multiply, `c2r`, and readout at the particles of the
uniform grid; `mk id x values` makes the body. -/
def Machine.Start {σ : Type} (rng : Rng σ) (rnd : ℚ → ℚ) (a : Machine) (w : Resampler ℝ) (seed : ℕ) (unitary : Bool) (mean : ℝ)
    (ar : ℕ → NoiseRank) (shift : List ℝ) (D : List (List ℕ → ℂ)) (mk : ℕ → List ℝ → List ℝ → B) (s : ℕ → List B) : Prop :=
  ∃ (field : ℕ → ℕ → ℤ → ℝ) (val : ℕ → ℕ → List ℝ),
    (∀ d < D.length,
      a.IsC2r (a.times (D.getD d 0) fun r c => ⟨(noiseOn rng rnd a.t a.m.box seed unitary mean ar r c).1,
        (noiseOn rng rnd a.t a.m.box seed unitary mean ar r c).2⟩) (field d) ∧
      AllReturn a.m.nrank (fun r => (pmDecompose a.m a.sm r (a.m.uniformGrid shift r)).andThen fun lay =>
        pmReadout a.m w none r (some lay) (a.m.uniformGrid shift r) .none (field d r)) (fun r => .ok (val d r))) ∧
    ∀ r < a.m.nrank, s r = ((a.m.uniformGrid shift r).zip (a.m.gridIds r)).mapIdx fun i xi =>
      mk xi.2 xi.1 ((List.range D.length).map fun d => (val d r).getD i 0)

end
end Pmesh
