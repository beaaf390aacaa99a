import Verif.Model.Spmd
import Verif.Model.Numpy
import Verif.Model.Buffers
import Mathlib.Algebra.Field.Defs
import Mathlib.Algebra.BigOperators.Group.List.Basic

/-!
# Model of `RealField.cdot` with any operand, pmesh/pm.py:210-215, 897-899

The operands may be fields of two `ParticleMesh` objects on the same ranks, or an array.
-/

namespace Pmesh

/-- The shape of the product of two numpy arrays; `none` is the ValueError.  Axes are matched from the last; here the lists have the same length. -/
def bcastShape : List ℕ → List ℕ → Option (List ℕ)
  | [], [] => some []
  | n :: ns, m :: ms => do
    let s ← bcastShape ns ms
    if n = m then some (n :: s) else if n = 1 then some (m :: s) else if m = 1 then some (n :: s) else none
  | _, _ => none

/-- The element of an array of shape `sh` that numpy uses at index `c` of the product. -/
def bcastIndex (sh c : List ℕ) : List ℕ := List.zipWith (fun n i => if n = 1 then 0 else i) sh c

/-- The second operand on one rank: class, shape and elements of a field, or an array. -/
inductive CdotArg (K : Type) where
  | field (cls : FieldType) (shape : List ℕ) (val : List ℕ → K)
  | array (shape : List ℕ) (val : List ℕ → K)

/-- The exceptions. -/
inductive CdotErr where
  | type | value
  deriving DecidableEq

/-- `self.cdot(other)` of a `RealField` on one rank.  For an array the code calls `all` on the truth value of a comparison of tuples, which raises TypeError
whatever the shapes. -/
def cdotAny {K : Type} [Field K] (shape : List ℕ) (val : List ℕ → K) : CdotArg K → Prog K (Except CdotErr K)
  | .array _ _ => .ret (.error .type)
  | .field cls shape' val' =>
    if cls ≠ .real then .ret (.error .type)
    else match bcastShape shape shape' with
      | none => .ret (.error .value)
      | some s => .coll .allreduce ((ndindex s).map fun c => val (bcastIndex shape c) * val' (bcastIndex shape' c)).sum fun vs => .ret (.ok vs.sum)

end Pmesh
