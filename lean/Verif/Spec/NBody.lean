import Verif.Model.NBody

/-! # Vocabulary for the N-body program -/

namespace Pmesh

/-- The three schemes. -/
noncomputable def nbSchemes : List (List ℝ → List NbOp) := [symp1, symp2, symp3]

/-- The seven classes of factors. -/
noncomputable def nbFactors (pt : Growth) : List Factors := [fastPM pt, fastPM1 pt, fastPM2 pt, quinn pt, tve pt, vte pt, naive pt]

/-- The clocks of a program: positions are known at time `x`, velocities at time `v`, the force is that of time `f` (if there is one).
A kick from `ai` to `af` begins at the time of the velocities and has as reference the time of the force; a drift from `ai` to `af` begins at the
time of the positions and has as reference the time of the velocities.  At the end the clocks show `xe` and `ve`. -/
def Clocked : List NbOp → ℝ → ℝ → Option ℝ → ℝ → ℝ → Prop
  | [], x, v, _, xe, ve => x = xe ∧ v = ve
  | .force :: l, x, v, _, xe, ve => Clocked l x v (some x) xe ve
  | .kick ai af ar :: l, x, v, f, xe, ve => ai = v ∧ f = some ar ∧ Clocked l x af f xe ve
  | .drift ai af ar :: l, x, v, f, xe, ve => ai = x ∧ ar = v ∧ Clocked l af v f xe ve

/-- The factor of a kick; 0 for another statement. -/
def Factors.kickOf (fac : Factors) : NbOp → ℝ
  | .kick ai af ar => fac.K ai af ar
  | _ => 0

/-- The factor of a drift. -/
def Factors.driftOf (fac : Factors) : NbOp → ℝ
  | .drift ai af ar => fac.D ai af ar
  | _ => 0

/-- Going back undoes going forth. -/
structure Factors.Odd (fac : Factors) : Prop where
  K : ∀ ai af ar, fac.K af ai ar = -fac.K ai af ar
  D : ∀ ai af ar, fac.D af ai ar = -fac.D ai af ar

/-- What a run leaves to the caller of a body: `Q`, `S`, `V`. -/
def NBody.state (b : NBody) : List ℝ × List ℝ × List ℝ := (b.q, b.s, b.v)

end Pmesh
