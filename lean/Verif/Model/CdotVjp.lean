import Verif.Model.Field

/-! # Model of `BaseComplexField.cdot_vjp`, pmesh/pm.py:976-985 -/

namespace Pmesh

/-- `cdot_vjp(v, metric)` at local index `c` of rank `r`: `self * v`, times the metric. `metric2` as for `cdot`; `v` is a number. -/
def cdotVjp {K : Type} [Field K] (pi : K) (t : Tiling) (box : List K) (metric2 : Option (K → K)) (v : Cx K) (r : ℕ) (f : List ℕ → Cx K)
    (c : List ℕ) : Cx K :=
  cxMul (cxMul (f c) v) (metric2.elim 1 fun m => m (kSquared pi t.nmesh box (t.global r c)), 0)

end Pmesh
