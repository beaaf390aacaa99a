import Verif.Spec.Field

/-! # Vocabulary for projections -/

namespace Pmesh

/-- The sum of the array `G` of shape `shape` over all elements whose index along the kept `axes`, in this order, is `g`. -/
def projection {V : Type} [AddCommMonoid V] (shape axes : List ℕ) (G : List ℕ → V) (g : List ℕ) : V :=
  ((ndindex shape).map fun c => if (axes.map fun d => c.getD d 0) = g then G c else 0).sum

/-- The elements of the projection in C order. -/
def projected {V : Type} [AddCommMonoid V] (shape axes : List ℕ) (G : List ℕ → V) : List V :=
  (ndindex (axes.map fun d => shape.getD d 0)).map (projection shape axes G)

end Pmesh
