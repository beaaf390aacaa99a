import Mathlib.Algebra.BigOperators.Group.List.Basic

/-! # Vocabulary for load balancing -/

namespace Pmesh

/-- Total load of the domains that `assign` gives to rank `r`. -/
def rankLoad {M : Type*} [AddCommMonoid M] (loads : List M) (assign : List ℕ) (r : ℕ) : M :=
  (((loads.zip assign).filter fun p => p.2 = r).map (·.1)).sum

end Pmesh
