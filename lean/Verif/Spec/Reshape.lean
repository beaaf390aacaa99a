import Verif.Model.Reshape

/-! # Specification for C80 -/

namespace Pmesh

/-- A mesh made by the constructor. -/
def MeshDesc.Made {K : Type} (split : ℕ → List ℕ) (accepts : List ℕ → List ℕ → ℕ → Bool) (p : MeshDesc K) : Prop :=
  ∃ nmesh box comm np dtype plan win, newMesh split accepts nmesh box comm np dtype plan win = .ok p

/-- One number per axis. -/
def PerAxis.expand {A : Type} (n : ℕ) : PerAxis A → List A
  | .scalar a => List.replicate n a
  | .array l => l

/-- The new mesh has the number of cells and the box given, and all that the user chose before. -/
structure MeshDesc.Like {K : Type} (p q : MeshDesc K) (nmesh : List ℕ) (box : List K) : Prop where
  nmesh : q.nmesh = nmesh
  box : q.box = box
  comm : q.comm = p.comm
  np : q.np = p.np
  dtype : q.dtype = p.dtype
  resampler : q.resampler = p.resampler

end Pmesh
