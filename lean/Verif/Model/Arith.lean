import Verif.Model.Field

/-!
# Model of arithmetic on fields, `Field.__array_ufunc__`, pmesh/pm.py:169-208, 217-218

The operators are those of `numpy.lib.mixins.NDArrayOperatorsMixin` (pm.py:12): `a + b` is `numpy.add(a, b)`, and `a += b` is
`a = numpy.add(a, b, out=(a,))`.  All fields of a program are of one class and so of one shape; other operands are numbers or arrays of
this shape, as functions of the index.  Ufuncs with a boolean result or another shape return an array (pm.py:193-199) and are not
modelled.
-/

namespace Pmesh

variable {ι K : Type} [Zero K]

/-- The state of a program: which object each name is bound to, the values of the objects, and the number of objects so far. -/
structure ArithState (ι K : Type) where
  env : ℕ → Option ℕ
  val : ℕ → ι → Cx K
  next : ℕ

/-- An operand: a field by its name, or a number or array, with the information whether its `dtype` is complex. -/
inductive ArithArg (ι K : Type) where
  | name (x : ℕ)
  | lit (cplx : Bool) (v : ι → Cx K)

/-- The statements `x = op(a, b)`, `x op= b` and `x = y`. -/
inductive ArithStmt (ι K : Type) where
  | bin (x : ℕ) (op : Cx K → Cx K → Cx K) (a b : ArithArg ι K)
  | inplace (x : ℕ) (op : Cx K → Cx K → Cx K) (b : ArithArg ι K)
  | rebind (x y : ℕ)

/-- The values of an operand, `x.value` for a field, pm.py:182-183. `none`: the name is not bound. -/
def ArithState.eval (s : ArithState ι K) : ArithArg ι K → Option (ι → Cx K)
  | .name x => (s.env x).map s.val
  | .lit _ v => some v

/-- `r[...] = value` in `create`, pm.py:1632: a real field keeps the real part only. -/
def storeField (real : Bool) (z : Cx K) : Cx K := if real then (z.1, 0) else z

/-- Bind `x` to a new object with these values. -/
def ArithState.bindNew (s : ArithState ι K) (x : ℕ) (v : ι → Cx K) : ArithState ι K :=
  ⟨Function.update s.env x (some s.next), Function.update s.val s.next v, s.next + 1⟩

/-- The `dtype` of the operand is complex. -/
def ArithArg.isComplex : ArithArg ι K → Bool
  | .name _ => false
  | .lit c _ => c

/-- One statement on fields; `real` says that the fields hold real numbers.  The result of a ufunc becomes a new field,
`self.pm.create(type(self), value=result)`, pm.py:199.  With `out` the ufunc writes the values of that field first (pm.py:184-187), where numpy refuses to
write complex results to real arrays, and then again a new field is made.  `none` is an exception. -/
def fieldStep (real : Bool) (s : ArithState ι K) : ArithStmt ι K → Option (ArithState ι K)
  | .bin x op a b => do
    let va ← s.eval a
    let vb ← s.eval b
    return s.bindNew x fun i => storeField real (op (va i) (vb i))
  | .inplace x op b => do
    let o ← s.env x
    let vb ← s.eval b
    if real && b.isComplex then none
    else
      let r := fun i => storeField real (op (s.val o i) (vb i))
      return ({ s with val := Function.update s.val o r } : ArithState ι K).bindNew x r
  | .rebind x y => do
    let o ← s.env y
    return { s with env := Function.update s.env x (some o) }

/-- A program on fields. -/
def fieldRun (real : Bool) (s : ArithState ι K) (p : List (ArithStmt ι K)) : Option (ArithState ι K) := p.foldlM (fieldStep real) s

end Pmesh
