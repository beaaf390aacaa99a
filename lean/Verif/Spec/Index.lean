import Mathlib.Algebra.BigOperators.Group.List.Basic

/-!
# C-order (row-major) numbering, the independent vocabulary for "which element of an array"
-/

namespace Pmesh

/-- Row-major number of a multi-index in an array of the given shape. -/
def cOrder : List ℕ → List ℕ → ℕ
  | _ :: ns, d :: ds => d * ns.prod + cOrder ns ds
  | _, _ => 0

/-- `D` is a valid multi-index of an array of shape `shape`. -/
def ValidIndex (shape D : List ℕ) : Prop := List.Forall₂ (fun n d => d < n) shape D

instance (shape D : List ℕ) : Decidable (ValidIndex shape D) := by
  unfold ValidIndex; infer_instance

end Pmesh
