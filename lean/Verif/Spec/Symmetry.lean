import Verif.Spec.Mesh
import Verif.Spec.Field
import Mathlib.Data.Real.Basic
import Mathlib.Algebra.Order.Archimedean.Real.Basic
import Mathlib.Data.Complex.Basic

/-! # Vocabulary for the symmetries of a periodic box -/

namespace Pmesh

/-- The components of `l` in the order `axes`, as in `numpy.transpose`: component `j` of the result is component `axes[j]` of `l`. -/
def transposed {α : Type} [Zero α] (axes : List ℕ) (l : List α) : List α := axes.map fun a => l.getD a 0

/-- A position seen in a mirror: `x_j ↦ L_j - x_j` along the axes with `flip_j`. -/
def mirrored {K : Type} [Field K] : List Bool → List K → List K → List K
  | f :: fs, b :: bs, x :: xs => (if f then b - x else x) :: mirrored fs bs xs
  | _, _, _ => []

/-- A cell or mode seen in a mirror: `i_j ↦ -i_j` modulo `N_j` along the axes with `flip_j`. -/
def mirroredCell : List Bool → List ℕ → List ℕ → List ℕ
  | f :: fs, n :: ns, i :: is => (if f then (n - i) % n else i) :: mirroredCell fs ns is
  | _, _, _ => []

/-- The transfer function of a real kernel: opposite modes have conjugate values. -/
def RealTransfer (nmesh : List ℕ) (T : List ℕ → ℂ) : Prop :=
  ∀ k, ValidIndex nmesh k → T (opposite nmesh k) = (starRingEnd ℂ) (T k)

end Pmesh
