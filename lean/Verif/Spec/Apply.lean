import Verif.Spec.Index
import Verif.Model.Apply

/-! # What `apply` has to do -/

namespace Pmesh

/-- Address of element `c` of an array whose first element has address zero. -/
def elementAddr (strides : List ℤ) (c : List ℕ) : ℤ := (List.zipWith (fun (i : ℕ) s => (i : ℤ) * s) c strides).sum

/-- A numpy array with as many strides as axes and no two elements at the same place. -/
structure Proper (shape : List ℕ) (strides : List ℤ) : Prop where
  len : strides.length = shape.length
  inj : ∀ c c', ValidIndex shape c → ValidIndex shape c' → elementAddr strides c = elementAddr strides c' → c = c'

/-- The coordinates of element `c`: one number per axis, which depends on the index along that axis. -/
def ownCoords {K : Type} (coord : ℕ → ℕ → K) (c : List ℕ) : List K := (List.range c.length).map fun d => coord d (c.getD d 0)

/-- The coordinate that `kind` asks for: position or wavenumber, mesh index, or the wavenumber times the cell size `L / N`. -/
def kindCoord {K : Type} [Field K] (kind : ApplyKind) (box nmesh : List K) (x i : ℕ → ℕ → K) (d j : ℕ) : K :=
  if kind = .index then i d j
  else if kind = .circular then (box.getD d 0 / nmesh.getD d 0) * x d j
  else x d j

/-- Memory `res` is `out`, with `func(coordinates, value)` of each element of the input in the elements of the output. -/
def Applied {K V : Type} (shape : List ℕ) (istr ostr : List ℤ) (coord : ℕ → ℕ → K) (func : List K → V → V)
    (mem out res : ℤ → V) : Prop :=
  (∀ c, ValidIndex shape c → res (elementAddr ostr c) = func (ownCoords coord c) (mem (elementAddr istr c))) ∧
  ∀ a, (∀ c, ValidIndex shape c → elementAddr ostr c ≠ a) → res a = out a

end Pmesh
