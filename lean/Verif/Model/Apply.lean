import Verif.Model.Numpy
import Mathlib.Algebra.Field.Defs
import Mathlib.Algebra.BigOperators.Group.List.Basic

/-!
# Model of `slabiter`, `xslabiter` and `Field.apply`, pmesh/pm.py:87-153, 617-648

An array is a view into a memory `ℤ → V`: a shape, a stride per axis and an offset, in elements.  `func` is pointwise: it gets
the coordinates and the value of an element.  Memory of the input and of a separate output do not overlap.
-/

namespace Pmesh

/-- A numpy array, without its memory. -/
structure View where
  shape : List ℕ
  strides : List ℤ
  offset : ℤ
deriving Repr, DecidableEq

/-- Address of the element with index `c`. -/
def View.addr (v : View) (c : List ℕ) : ℤ := v.offset + (List.zipWith (fun (i : ℕ) s => (i : ℤ) * s) c v.strides).sum

/-- Address of the element that an array of shape `v.shape` contributes at index `c` of a larger array with as many axes:
an axis of length one is repeated. -/
def View.bcast (v : View) (c : List ℕ) : ℤ := v.addr (List.zipWith (fun n i => if n = 1 then 0 else i) v.shape c)

/-- `a.transpose(axes)`. -/
def View.transpose (v : View) (axes : List ℕ) : View :=
  ⟨axes.map fun d => v.shape.getD d 0, axes.map fun d => v.strides.getD d 0, v.offset⟩

/-- `a[None, ...]`. -/
def View.newaxis (v : View) : View := ⟨1 :: v.shape, 0 :: v.strides, v.offset⟩

/-- `a[i]`. -/
def View.row (v : View) (i : ℕ) : View := ⟨v.shape.tail, v.strides.tail, v.offset + i * v.strides.headD 0⟩

/-- The array of the coordinates along axis `d`, which broadcasts to the shape of the field: its shape is one in all other
axes (`create_coords`, pmesh/pm.py:1504-1531). -/
def sparseView (shape : List ℕ) (d : ℕ) : View :=
  ⟨(List.range shape.length).map fun k => if k = d then shape.getD d 0 else 1,
    (List.range shape.length).map fun k => if k = d then 1 else 0, 0⟩

/-- `optimized_view` and the entries of `optx`, `opti`, pmesh/pm.py:90-106.  `order` is
`numpy.argsort(field.value.strides)[::-1]`. -/
def slabView (ndim : ℕ) (order : List ℕ) (v : View) : View := if ndim = 2 then v.newaxis else v.transpose order

/-- `nslabs`, pmesh/pm.py:93 and 102. -/
def slabCount (shape order : List ℕ) : ℕ := if shape.length = 2 then 1 else shape.getD (order.headD 0) 0

/-- `axis`, pmesh/pm.py:91 and 99. -/
def slabAxis (ndim : ℕ) (order : List ℕ) : ℕ := if ndim = 2 then 2 else order.headD 0

/-- `x[0] if d != self.axis else x[irow]`, pmesh/pm.py:114-115 and 148: the coordinates along axis `d` of slab `irow`. -/
def slabCoord (shape order : List ℕ) (irow d : ℕ) : View :=
  (slabView shape.length order (sparseView shape d)).row (if d ≠ slabAxis shape.length order then 0 else irow)

/-- The values of `kind`. -/
inductive ApplyKind where
  | relative | index | absolute | wavenumber | circular
deriving Repr, DecidableEq

section
variable {K V : Type} [Field K]

/-- The coordinates that `func` gets, pmesh/pm.py:634-645: those of `x`, of `i`, or `[ki * L / N …]`. `x d` and `i d` are the
coordinates along axis `d`. -/
def applyCoord (kind : ApplyKind) (box nmesh : List K) (x i : ℕ → ℕ → K) (d j : ℕ) : K :=
  match kind with
  | .relative | .absolute | .wavenumber => x d j
  | .index => i d j
  | .circular => x d j * box.getD d 0 / nmesh.getD d 0

/-- Assignment of one element. -/
def writeOne (mem : ℤ → V) (w : ℤ × V) : ℤ → V := fun a => if a = w.1 then w.2 else mem a

/-- Assignment of an array that has been computed before. -/
def writeAll (mem : ℤ → V) (ws : List (ℤ × V)) : ℤ → V := ws.foldl writeOne mem

/-- `oslab[...] = func(k, islab)` for slab `irow`: the right hand side is evaluated first.  `coord d j` are the coordinates;
`inp` is the memory that `islab` is in. -/
def applySlab (shape order : List ℕ) (coord : ℕ → ℕ → K) (func : List K → V → V) (istr ostr : List ℤ) (irow : ℕ)
    (inp out : ℤ → V) : ℤ → V :=
  let islab := (slabView shape.length order ⟨shape, istr, 0⟩).row irow
  let oslab := (slabView shape.length order ⟨shape, ostr, 0⟩).row irow
  writeAll out ((ndindex islab.shape).map fun p =>
    (oslab.addr p, func ((List.range shape.length).map fun d => coord d ((slabCoord shape order irow d).bcast p).toNat)
      (inp (islab.addr p))))

/-- `Field.apply(func, kind, out)`, pmesh/pm.py:617-648: the memory of the result.  `out` is `none` for `out=Ellipsis` (in place),
otherwise strides and memory of the array that is written (a new field for `out=None`, whose content is arbitrary). -/
def applyField (shape : List ℕ) (strides : List ℤ) (order : List ℕ) (kind : ApplyKind) (box nmesh : List K)
    (x i : ℕ → ℕ → K) (func : List K → V → V) (out : Option (List ℤ × (ℤ → V))) (mem : ℤ → V) : ℤ → V :=
  let coord := applyCoord kind box nmesh x i
  match out with
  | none => (List.range (slabCount shape order)).foldl (fun m irow =>
      applySlab shape order coord func strides strides irow m m) mem
  | some (ostr, omem) => (List.range (slabCount shape order)).foldl (fun m irow =>
      applySlab shape order coord func strides ostr irow mem m) omem

end
end Pmesh
