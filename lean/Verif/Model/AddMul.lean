import Verif.Model.Helpers
import Verif.Model.Field

/-!
# Model of `ParticleMeshVectorSpace.addmul`, pmesh/abopt.py:23-41

The step of an optimiser: `a + b * c ** p`.  Exact arithmetic: the conversion to the precision of `b` is not modelled.  A field is its
local array, as a function of the local index; all fields belong to the mesh of the vector space.  Fields of different classes have local
arrays of different shapes; that numpy broadcasts some of them by accident is not modelled (`.error .value` here).
-/

namespace Pmesh

/-- What may be passed to `addmul`, besides arrays: a number, the three classes of fields of pmesh/pm.py:651, 1072, 1080
(`ComplexField` is `TransposedComplexField`, pmesh/pm.py:1089), something else. -/
inductive VsVal (K : Type) where
  | num (z : Cx K)
  | real (f : List ℕ → K)
  | complex (f : List ℕ → Cx K)
  | untransposed (f : List ℕ → Cx K)
  | other

section
variable {K : Type} [Field K]

/-- `z ** p` of a complex number. -/
def cxPow (z : Cx K) : ℕ → Cx K
  | 0 => (1, 0)
  | p + 1 => cxMul z (cxPow z p)

/-- Elementwise arithmetic of fields and numbers, `Field.__array_ufunc__`, pmesh/pm.py:169-207.  The result of a `RealField` is
written to a new `RealField`, which keeps the real parts. -/
def VsVal.ufunc (op : Cx K → Cx K → Cx K) : VsVal K → VsVal K → Except DotErr (VsVal K)
  | .num z, .num w => .ok (.num (op z w))
  | .num z, .real f => .ok (.real fun i => (op z (f i, 0)).1)
  | .real f, .num z => .ok (.real fun i => (op (f i, 0) z).1)
  | .real f, .real g => .ok (.real fun i => (op (f i, 0) (g i, 0)).1)
  | .num z, .complex f => .ok (.complex fun i => op z (f i))
  | .complex f, .num z => .ok (.complex fun i => op (f i) z)
  | .complex f, .complex g => .ok (.complex fun i => op (f i) (g i))
  | .num z, .untransposed f => .ok (.untransposed fun i => op z (f i))
  | .untransposed f, .num z => .ok (.untransposed fun i => op (f i) z)
  | .untransposed f, .untransposed g => .ok (.untransposed fun i => op (f i) (g i))
  | .other, _ => .error .type
  | _, .other => .error .type
  | _, _ => .error .value

/-- `c ** p`. -/
def VsVal.pow (c : VsVal K) (p : ℕ) : Except DotErr (VsVal K) :=
  VsVal.ufunc (fun z _ => cxPow z p) c (.num ((p : K), 0))

/-- The operand that meets the array `b.plain` (pmesh/pm.py:245: real and imaginary parts along one more axis): a number is used for
both parts, of a `ComplexField` the parts are taken, pmesh/abopt.py:30-33. -/
def VsVal.parts : VsVal K → Except DotErr (List ℕ → Cx K × Cx K)
  | .num z => .ok fun _ => (z, z)
  | .complex f => .ok fun i => (((f i).1, 0), ((f i).2, 0))
  | .real _ => .error .value
  | .untransposed _ => .error .value
  | .other => .error .type

/-- `addmul(a, b, c, p)` for numbers and fields, pmesh/abopt.py:23-37 and 41.  Assignment to the real array `r.plain` keeps real
parts. -/
def vsAddmul (a b c : VsVal K) (p : ℕ := 1) : Except DotErr (VsVal K) :=
  match b with
  | .real _ => do
    let cp ← c.pow p
    let bc ← VsVal.ufunc cxMul b cp
    VsVal.ufunc (fun z w => z + w) a bc
  | .complex f => do
    let c' ← c.parts
    let a' ← a.parts
    return .complex fun i =>
      (((a' i).1 + cxMul ((f i).1, 0) (cxPow (c' i).1 p)).1, ((a' i).2 + cxMul ((f i).2, 0) (cxPow (c' i).2 p)).1)
  | .num _ => do
    let cp ← c.pow p
    let bc ← VsVal.ufunc cxMul b cp
    VsVal.ufunc (fun z w => z + w) a bc
  | .untransposed _ => .error .type
  | .other => .error .type

/-- An array operand: a real number or an array. -/
inductive ArrVal (K : Type) where
  | num (x : K)
  | arr (l : List K)

/-- `op` of an array with a number or an array; arrays of another length raise ValueError (that arrays of length one are repeated is
not modelled). -/
def ArrVal.with (op : K → K → K) (l : List K) : ArrVal K → Except DotErr (List K)
  | .num x => .ok (l.map fun y => op y x)
  | .arr l' => if l'.length = l.length then .ok (List.zipWith op l l') else .error .value

/-- `addmul(a, b, c, p)` for an array `b` with one number for each particle on a rank with `q` particles, pmesh/abopt.py:38-40. -/
def vsAddmulArray (q : ℕ) (a : ArrVal K) (b : List K) (c : ArrVal K) (p : ℕ := 1) : Except DotErr (List K) :=
  if b.length = q then do
    let bc ← c.with (fun y x => y * x ^ p) b
    a.with (fun y x => x + y) bc
  else .error .assertion

end
end Pmesh
