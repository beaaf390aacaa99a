import Verif.Model.Field

/-!
# Model of `Field.preview` and of the collective sum, pmesh/pm.py:549-615, 725-743

The field is a `RealField` (`preview` of a complex field is `preview` of its `c2r()`), and `Nmesh` is not given.
-/

namespace Pmesh

section
variable {V : Type} [AddCommMonoid V]

/-- The index into `a` of the element with index `i` of `a.transpose(perm)`: axis `perm[p]` of `a` is axis `p` of the
transposed array. -/
def untranspose (perm i : List ℕ) : List ℕ := (List.range perm.length).map fun e => i.getD (perm.idxOf e) 0

/-- `removeaxes = set(range(self.ndim)) - set(axes)`, pmesh/pm.py:607. -/
def removedAxes (ndim : ℕ) (axes : List ℕ) : List ℕ := (List.range ndim).filter fun d => !axes.contains d

/-- `result[local_slice] += a`, pmesh/pm.py:610 and 612, where `result` is zero and has shape `shape`: the slice starts at
`start` and has shape `len`; `a` is the function `val` of the index in the slice. -/
def addSlice (shape start len : List ℕ) (val : List ℕ → V) : List V :=
  (ndindex shape).map fun g =>
    if (List.zipWith (fun (i s : ℕ) => decide (s ≤ i)) g start).all id &&
        (List.zipWith (fun (i e : ℕ) => decide (i < e)) g (List.zipWith (· + ·) start len)).all id then
      val (List.zipWith (· - ·) g start)
    else 0

/-- The `result` of rank `r` before `Allreduce`, pmesh/pm.py:597-611; `f` is the local array.  If all axes are kept the
array is added as it is, and numpy broadcasts its axes of length 1. -/
def previewLocal (t : Tiling) (r : ℕ) (axes : List ℕ) (f : List ℕ → V) : Except String (List V) :=
  let ndim := t.nmesh.length
  let pick (l : List ℕ) := axes.map fun d => l.getD d 0
  if axes.any fun d => decide (ndim ≤ d) then .error "IndexError"
  else if axes.length ≠ ndim then
    let removed := removedAxes ndim axes
    let all := axes ++ removed
    if all.length ≠ ndim then .error "axes don't match array"
    else .ok (addSlice (pick t.cshape) (pick (t.start r)) (pick (t.lshape r)) fun k =>
      ((ndindex (removed.map fun d => (t.lshape r).getD d 0)).map fun rm => f (untranspose all (k ++ rm))).sum)
  else if (List.zipWith (fun (a b : ℕ) => decide (a = b ∨ a = 1)) (t.lshape r) (pick (t.lshape r))).all id then
    .ok (addSlice (pick t.cshape) (pick (t.start r)) (pick (t.lshape r)) fun k =>
      f (List.zipWith (fun (a i : ℕ) => if a = 1 then 0 else i) (t.lshape r) k))
  else .error "could not be broadcast"

/-- `comm.Allreduce(MPI.IN_PLACE, result)`: elementwise sum of arrays with `n` elements. -/
def allreduceSum (n : ℕ) (vs : List (List V)) : List V := (List.range n).map fun j => (vs.map fun v => v.getD j 0).sum

/-- `preview(axes=axes)` on rank `r`, pmesh/pm.py:575-615: the elements of the result in C order. -/
def preview (t : Tiling) (r : ℕ) (axes : List ℕ) (f : List ℕ → V) : Prog (List V) (Except String (List V)) :=
  match previewLocal t r axes f with
  | .error e => .ret (.error e)
  | .ok result => .coll .allreduce result fun vs => .ret (.ok (allreduceSum result.length vs))

/-- Repeated `sum1.sum(axis=-1)`, pmesh/pm.py:736-737, of an array given as a function of the index. -/
def sumLast : List ℕ → (List ℕ → V) → V
  | [], f => f []
  | n :: ns, f => sumLast (n :: ns).dropLast fun i => ((List.range ((n :: ns).getLastD 0)).map fun j => f (i ++ [j])).sum
termination_by shape => shape.length

/-- `csum`, pmesh/pm.py:725-739, on rank `r`; `order` is `argsort(strides)[::-1]`, by which the axes are transposed. -/
def csum (t : Tiling) (order : List ℕ) (f : List ℕ → V) (r : ℕ) : Prog V V :=
  let sum1 := sumLast (order.map fun d => (t.lshape r).getD d 0) fun i => f (untranspose order i)
  .coll .allreduce sum1 fun vs => .ret vs.sum

end
end Pmesh
