import Verif.Spec.NBody
import Mathlib.Analysis.Calculus.ContDiff.Basic
import Mathlib.Analysis.SpecialFunctions.ExpDeriv

/-! # Vocabulary for the time integration of the N-body program -/

namespace Pmesh

/-- The statements of a scheme, when the force is a function `Φ` of the displacements.  The lists of the body may hold the components of one
particle or of all particles. -/
noncomputable def NBody.runWith (fac : Factors) (Φ : List ℝ → List ℝ) : List NbOp → NBody → NBody
  | [], b => b
  | .force :: l, b => NBody.runWith fac Φ l { b with f := Φ b.s }
  | .kick ai af ar :: l, b => NBody.runWith fac Φ l (b.kick (fac.K ai af ar))
  | .drift ai af ar :: l, b => NBody.runWith fac Φ l (b.drift (fac.D ai af ar))

/-- A vector as a list, and back. -/
def vecOf (n : ℕ) (l : List ℝ) : Fin n → ℝ := fun i => l.getD i 0

/-- A force field, as a function of lists. -/
def forceOf {n : ℕ} (F : (Fin n → ℝ) → Fin n → ℝ) (l : List ℝ) : List ℝ := List.ofFn (F (vecOf n l))

/-- The equations of motion in the expanding universe: `dS/da = V / (a³ E)`, `dV/da = F(S) / (a² E)`, for times near `a0`. -/
structure Moves {n : ℕ} (E : ℝ → ℝ) (F : (Fin n → ℝ) → Fin n → ℝ) (a0 : ℝ) (S V : ℝ → Fin n → ℝ) : Prop where
  dS : ∀ᶠ a in nhds a0, HasDerivAt S ((1 / (a ^ 3 * E a)) • V a) a
  dV : ∀ᶠ a in nhds a0, HasDerivAt V ((1 / (a ^ 2 * E a)) • F (S a)) a

/-- What the classes of factors assume of the background: `E` is continuous and not 0; `gf` and `gp` are the derivatives of `Gf` and `Gp`, not 0. -/
structure Growth.OK (pt : Growth) : Prop where
  E_cont : ContinuousOn pt.E (Set.Ioi 0)
  E_ne : ∀ a > 0, pt.E a ≠ 0
  Gf : ∀ a > 0, HasDerivAt pt.Gf (pt.gf a) a
  gf_ne : ∀ a > 0, pt.gf a ≠ 0
  Gp : ∀ a > 0, HasDerivAt pt.Gp (pt.gp a) a
  gp_ne : ∀ a > 0, pt.gp a ≠ 0

/-- Linear theory: `Gp` is the growth function `D1` and `gp` its derivative (`f1 = d log D1 / d log a`), `Gf` the growth of the velocities
`a² f1 E D1`, and `gf` its derivative by the equation of growth. -/
structure Growth.Linear (pt : Growth) (D1 f1 : ℝ → ℝ) (om : ℝ) : Prop where
  E_ne : ∀ a > 0, pt.E a ≠ 0
  Gp : ∀ a > 0, pt.Gp a = D1 a
  gp : ∀ a > 0, pt.gp a = D1 a * f1 a / a
  gp_ne : ∀ a > 0, pt.gp a ≠ 0
  Gf : ∀ a > 0, pt.Gf a = a ^ 2 * f1 a * pt.E a * D1 a
  gf : ∀ a > 0, pt.gf a = 1.5 * om * D1 a / (a ^ 2 * pt.E a)
  gf_ne : ∀ a > 0, pt.gf a ≠ 0

end Pmesh
