import Verif.Spec.Domain
import Verif.Model.Rounding

/-!
# Vocabulary for statements about rounding
-/

namespace Pmesh

section
variable {K : Type*} [Field K] [LinearOrder K] [IsStrictOrderedRing K] [FloorRing K]

/-- The box sizes are numbers of the format, and the first domain along each axis is not empty. -/
structure GridInFormat (R : Rounding K) (g : Grid K) : Prop where
  box : ∀ j < g.ndim, R.rnd (g.box j) = g.box j
  first : ∀ j < g.ndim, 0 < (g.axis j).getD 1 0

/-- A position whose coordinates are numbers of the format. -/
def PosInFormat (R : Rounding K) (g : Grid K) (x : List K) : Prop :=
  g.ndim ≤ x.length ∧ ∀ j < g.ndim, R.rnd (x.getD j 0) = x.getD j 0

/-- `δ` bounds the rounding error of every number up to twice the box size. -/
def ErrorBound (R : Rounding K) (g : Grid K) (δ : K) : Prop :=
  ∀ j < g.ndim, ∀ y, |y| ≤ 2 * g.box j → |R.rnd y - y| ≤ δ

/-- Some coordinate of the position lies so little below a multiple of the box size that its distance to the multiple below, rounded, is
the box size. -/
def RoundsToBox (R : Rounding K) (g : Grid K) (x : List K) : Prop :=
  ∃ j < g.ndim, x.getD j 0 < 0 ∧ R.rnd (x.getD j 0 - ⌊x.getD j 0 / g.box j⌋ * g.box j) = g.box j

end
end Pmesh
