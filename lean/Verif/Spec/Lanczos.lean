import Verif.Model.Lanczos
import Verif.Spec.Window
import Mathlib.Algebra.BigOperators.Finprod

/-!
# Vocabulary for painting with any window
-/

namespace Pmesh
section
variable {K : Type*} [Field K] [LinearOrder K] [IsStrictOrderedRing K] [FloorRing K]

/-- The window within its declared support. -/
def OldWindow.cut (W : OldWindow K) (d : K) : K := if -(W.support : K) ≤ d ∧ d < W.support then W.f d else 0

/-- The window centred at `x`, in cell `g` of an axis with the given period (0: none): the sum over the images of the cell. -/
noncomputable def windowSum (W : OldWindow K) (period : ℕ) (x : K) (g : ℤ) : K :=
  ∑ᶠ n : ℤ, if (if period = 0 then n else n % (period : ℤ)) = g then W.cut (x - n) else 0

/-- The values of the window at the points of a grid add up to `s`, wherever the grid is. -/
def OldWindow.SumsTo (W : OldWindow K) (s : K) : Prop := ∀ x : K, ∑ᶠ n : ℤ, W.cut (x - n) = s

/-- The content of the mesh. -/
def flatTotal (shape : List ℕ) (flat : ℤ → K) : K := ((ndindex shape).map fun c => flat (cOrder shape c : ℕ)).sum

end
end Pmesh
