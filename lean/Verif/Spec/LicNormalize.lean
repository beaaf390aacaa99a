import Verif.Spec.Lic
import Mathlib.Analysis.InnerProductSpace.PiL2

/-! # Lengths of vectors and distances of positions -/

namespace Pmesh

/-- The Euclidean length of the vector that the fields have in the element `a`. -/
noncomputable def vectorLength (vectors : List (ℤ → ℝ)) (a : ℤ) : ℝ := Real.sqrt ((vectors.map fun v => v a ^ 2).sum)

/-- A position of `n` coordinates as a point of Euclidean space. -/
noncomputable def toPoint (n : ℕ) (x : List ℝ) : EuclideanSpace ℝ (Fin n) := WithLp.toLp 2 fun i => x.getD i 0

end Pmesh
