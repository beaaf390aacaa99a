import Mathlib.Analysis.Calculus.Deriv.Basic
import Verif.Model.Cosmology

/-! # Vocabulary for the background cosmology -/

namespace Pmesh

open Real

/-- An expansion history: the scale factor as a function of time is positive and obeys the equation of Friedmann with matter `M`, vacuum `L`,
the rest in curvature, and the rate `H0` at `a = 1`. -/
structure ScaleFactor (M L H0 : ℝ) (a : ℝ → ℝ) (t0 t1 : ℝ) : Prop where
  pos : ∀ t ∈ Set.uIcc t0 t1, 0 < a t
  rate : ∀ t ∈ Set.uIcc t0 t1, HasDerivAt a (H0 * a t * √(M / a t ^ 3 + (1 - M - L) / a t ^ 2 + L)) t

/-- The density does not vanish in the past or future. -/
def Cosmology.Expanding (c : Cosmology) : Prop := ∀ a : ℝ, 0 < a → 0 < c.M * a⁻¹ ^ 3 + (1 - c.M - c.L) * a⁻¹ ^ 2 + c.L

end Pmesh
