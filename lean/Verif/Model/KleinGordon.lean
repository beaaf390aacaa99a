import Verif.Spec.Simulation

/-!
# The solver of the Klein-Gordon equation that comes with pmesh, examples/klein-gordon.py

Not modelled: `monitor` (norms and pictures on the way), `main`.
-/

namespace Pmesh

/-- `numpy.diff(steps)`, examples/klein-gordon.py:58. -/
def diffs (steps : List ℝ) : List ℝ := List.zipWith (fun y x => y - x) steps.tail steps

/-- `sum(ki ** 2 for ki in k)` for the wave vector of a mode, examples/klein-gordon.py:68, 73, 78. -/
noncomputable def kgK2 (nmesh : List ℕ) (box : List ℝ) (k : List ℕ) : ℝ := ((waveVector Real.pi nmesh box k).map fun ki => ki ^ 2).sum

/-- The factor of `transfer_n_2` and `transfer_n`, examples/klein-gordon.py:67-70, 77-81. -/
noncomputable def kgFactor (nmesh : List ℕ) (box : List ℝ) (dt : ℝ) (k : List ℕ) : ℝ := 1 / dt ^ 2 - 1 / 4 * -kgK2 nmesh box k + 1 / 4

/-- The factor of `transfer_n_1`, examples/klein-gordon.py:72-75. -/
noncomputable def kgFactor1 (nmesh : List ℕ) (box : List ℝ) (dt : ℝ) (k : List ℕ) : ℝ := -1 / dt ^ 2 - 1 / 4 * -kgK2 nmesh box k + 1 / 4

/-- `u_k_n` from `u_k_n_1` and `u_k_n_2` on all ranks, examples/klein-gordon.py:83-88: `c2r`, the nonlinear term in real space, `r2c`; `transfer_n_1`; `transfer_n`. -/
def Machine.KgNext (a : Machine) (F : ℝ → ℝ) (dt : ℝ) (U2 U1 U : ℕ → List ℕ → ℂ) : Prop :=
  ∃ (x : ℕ → ℤ → ℝ) (G : ℕ → List ℕ → ℂ), a.IsC2r U1 x ∧ a.IsR2c (fun r z => F (x r z)) G ∧
    ∀ r c, U r c = ((1 / kgFactor a.m.nmesh a.m.box dt (a.t.global r c) : ℝ) : ℂ) *
      (G r c - a.times (fun k => (kgFactor1 a.m.nmesh a.m.box dt k : ℝ)) U1 r c) - U2 r c

/-- The loop, examples/klein-gordon.py:66-95; `U` is the last `u_k_n`. -/
def Machine.KgLoop (a : Machine) (F : ℝ → ℝ) : List ℝ → (ℕ → List ℕ → ℂ) → (ℕ → List ℕ → ℂ) → (ℕ → List ℕ → ℂ) → Prop
  | [], _, U1, U => U = U1
  | dt :: ds, U2, U1, U => ∃ U', a.KgNext F dt U2 U1 U' ∧ a.KgLoop F ds U1 U' U

/-- `kgsolver(steps, u_0, du_0, F)`, examples/klein-gordon.py:31-100.  `none`: with fewer than two times `dsteps[0]` is an IndexError, with two times `u_k_n` is never set
(UnboundLocalError). -/
def Machine.KgSolve (a : Machine) (F : ℝ → ℝ) (steps : List ℝ) (u0 du0 : ℕ → ℤ → ℝ) (res : Option (ℕ → ℤ → ℝ)) : Prop :=
  match diffs steps with
  | [] => res = none
  | [_] => res = none
  | d0 :: d1 :: ds => ∃ U2 U1 U out, a.IsR2c u0 U2 ∧ a.IsR2c (fun r z => u0 r z + du0 r z * d0) U1 ∧ a.KgLoop F (d1 :: ds) U2 U1 U ∧
      a.IsC2r U out ∧ res = some out

end Pmesh
