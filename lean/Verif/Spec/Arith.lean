import Verif.Model.Arith

/-!
# Arithmetic on numpy arrays

What the same program does with arrays in place of fields: results of expressions are new arrays with the exact values, complex if an
operand is, and statements such as `x += b` change the array that `x` is bound to.
-/

namespace Pmesh

variable {ι K : Type} [Zero K]

/-- One statement on arrays. -/
def arrayStep (real : Bool) (s : ArithState ι K) : ArithStmt ι K → Option (ArithState ι K)
  | .bin x op a b => do
    let va ← s.eval a
    let vb ← s.eval b
    return s.bindNew x fun i => op (va i) (vb i)
  | .inplace x op b => do
    let o ← s.env x
    let vb ← s.eval b
    if real && b.isComplex then none
    else return { s with val := Function.update s.val o fun i => op (s.val o i) (vb i) }
  | .rebind x y => do
    let o ← s.env y
    return { s with env := Function.update s.env x (some o) }

/-- A program on arrays. -/
def arrayRun (real : Bool) (s : ArithState ι K) (p : List (ArithStmt ι K)) : Option (ArithState ι K) := p.foldlM (arrayStep real) s

/-- What the program sees: the values under each name. -/
def ArithState.see (s : ArithState ι K) (x : ℕ) : Option (ι → Cx K) := (s.env x).map s.val

/-- The names are bound to objects that exist. -/
def ArithState.Bound (s : ArithState ι K) : Prop := ∀ x o, s.env x = some o → o < s.next

/-- No two names are bound to one object. -/
def ArithState.Unshared (s : ArithState ι K) : Prop := ∀ x y o, s.env x = some o → s.env y = some o → x = y

/-- All values are real. -/
def RealValues (v : ι → Cx K) : Prop := ∀ i, (v i).2 = 0

/-- The operation maps real numbers to real numbers. -/
def RealOp (op : Cx K → Cx K → Cx K) : Prop := ∀ z w, z.2 = 0 → w.2 = 0 → (op z w).2 = 0

/-- The statement uses real numbers and real operations. -/
def ArithStmt.Real : ArithStmt ι K → Prop
  | .bin _ op a b => RealOp op ∧ (∀ c v, a = .lit c v → c = false ∧ RealValues v) ∧ ∀ c v, b = .lit c v → c = false ∧ RealValues v
  | .inplace _ op b => RealOp op ∧ ∀ c v, b = .lit c v → c = false ∧ RealValues v
  | .rebind _ _ => True

/-- The statement is not `x = y`. -/
def ArithStmt.NotAlias : ArithStmt ι K → Prop
  | .rebind _ _ => False
  | _ => True

/-- The statement is not `x op= b`. -/
def ArithStmt.NotInplace : ArithStmt ι K → Prop
  | .inplace _ _ _ => False
  | _ => True

end Pmesh
