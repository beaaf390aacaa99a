import Verif.Spec.Mesh
import Mathlib.Data.Real.Basic
import Mathlib.Algebra.Order.Archimedean.Real.Basic

/-! # Vocabulary for displacements by whole cells -/

namespace Pmesh

/-- A position moved by `s` cells, on a mesh of `nmesh` cells in a box. -/
def shiftedPos {K : Type} [Field K] : List ℕ → List K → List ℤ → List K → List K
  | n :: ns, b :: bs, s :: ss, x :: xs => (x + s * (b / n)) :: shiftedPos ns bs ss xs
  | _, _, _, _ => []

/-- A cell moved by `s` cells in the periodic box. -/
def movedCell : List ℕ → List ℤ → List ℕ → List ℕ
  | n :: ns, s :: ss, c :: cs => (((c : ℤ) + s) % (n : ℤ)).toNat :: movedCell ns ss cs
  | _, _, _ => []

/-- `Σ_j k_j s_j / N_j`. -/
noncomputable def shiftArg : List ℕ → List ℕ → List ℤ → ℝ
  | n :: ns, k :: ks, s :: ss => (k : ℝ) * s / n + shiftArg ns ks ss
  | _, _, _ => 0

end Pmesh
