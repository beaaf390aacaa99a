import Verif.Model.Spmd
import Verif.Model.Numpy
import Mathlib.Algebra.Field.Defs
import Mathlib.Algebra.BigOperators.Group.List.Basic

/-!
# Model of two small collective helpers

`FromRoot` of pmesh/tools.py and the inner product of `ParticleMeshVectorSpace` in pmesh/abopt.py.
-/

namespace Pmesh

/-! ## FromRoot -/

/-- `FromRoot(comm)(func)(*args)` on rank `r`, pmesh/tools.py:20-30.  `func` gives the result or the exception of the call;
it makes no collective calls.  `none` is Python's `None`. -/
def fromRoot {E A : Type} (r : ℕ) (func : Except E A) : Prog (Option A) (Except E (Option A)) :=
  if r = 0 then
    match func with
    | .error e => .ret (.error e)
    | .ok rt => .coll .bcast (some rt) fun vs => .ret (.ok (vs.getD 0 none))
  else .coll .bcast none fun vs => .ret (.ok (vs.getD 0 none))

/-! ## The inner product of the vector space -/

section
variable {K : Type} [Field K]

/-- A numpy array with one or two axes. -/
inductive NdArr (K : Type) where
  | vec (l : List K)
  | mat (columns : ℕ) (rows : List (List K))

/-- `len(a)`. -/
def NdArr.len : NdArr K → ℕ
  | .vec l => l.length
  | .mat _ rows => rows.length

/-- A number or a matrix, as `a.dot(b)` gives it. -/
inductive DotRes (K : Type) where
  | num (x : K)
  | mat (rows : List (List K))

/-- `numpy.dot`; `none` is the ValueError for shapes that do not match. -/
def NdArr.dot : NdArr K → NdArr K → Option (DotRes K)
  | .vec a, .vec b => if a.length = b.length then some (.num (List.zipWith (· * ·) a b).sum) else none
  | .mat c a, .mat c' b =>
    if c = b.length then
      some (.mat (a.map fun row => (List.range c').map fun j => (List.zipWith (fun x row' => x * row'.getD j 0) row b).sum))
    else none
  | .mat c a, .vec b =>
    if c = b.length then some (.mat [a.map fun row => (List.zipWith (· * ·) row b).sum]) else none
  | .vec a, .mat c' b =>
    if a.length = b.length then some (.mat [(List.range c').map fun j => (List.zipWith (fun x row => x * row.getD j 0) a b).sum])
    else none

/-- The errors of `dot`. -/
inductive DotErr where
  | assertion | value | type
  deriving DecidableEq

/-- The sum of the contributions to `allreduce`; different kinds cannot be added (`none`, TypeError). -/
def DotRes.total (vs : List (DotRes K)) : Option (DotRes K) :=
  match vs with
  | [] => none
  | v :: vs => vs.foldl (fun acc w => match acc, w with
    | some (.num a), .num b => some (.num (a + b))
    | some (.mat a), .mat b => some (.mat (List.zipWith (List.zipWith (· + ·)) a b))
    | _, _ => none) (some v)

/-- `ParticleMeshVectorSpace.dot(a, b)` of two arrays on a rank with `q` particles, pmesh/abopt.py:50-58. -/
def vsDot (q : ℕ) (a b : NdArr K) : Prog (DotRes K) (Except DotErr (DotRes K)) :=
  if a.len = b.len ∧ a.len = q then
    match a.dot b with
    | none => .ret (.error .value)
    | some x => .coll .allreduce x fun vs => match DotRes.total vs with
      | none => .ret (.error .type)
      | some y => .ret (.ok y)
  else .ret (.error .assertion)

end
end Pmesh
