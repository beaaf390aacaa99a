import Verif.Spec.Lic
import Mathlib.Algebra.BigOperators.Group.Finset.Basic

/-! # Vocabulary for the accuracy of interpolation -/

namespace Pmesh

section
variable {K : Type} [Field K] [LinearOrder K] [IsStrictOrderedRing K] [FloorRing K]

/-- The function `φ` of positions repeats itself with the periods `L`, one per axis. -/
def BoxPeriodic (L : List K) (φ : List K → K) : Prop :=
  ∀ x y : List K, x.length = L.length → y.length = L.length →
    (∀ j < L.length, ∃ k : ℤ, y.getD j 0 = x.getD j 0 + k * L.getD j 0) → φ y = φ x

/-- Around `x` the function `φ` differs from a linear function by at most `1/2 Σ_j M_j (y_j - x_j)^2`.  Functions with second
derivatives bounded by `M_j` have this property by Taylor's theorem. -/
def BoundedCurvature (φ : List K → K) (M x : List K) : Prop :=
  ∃ g : List K, ∀ y : List K, y.length = x.length →
    |φ y - φ x - ∑ j ∈ Finset.range x.length, g.getD j 0 * (y.getD j 0 - x.getD j 0)| ≤
      1 / 2 * ∑ j ∈ Finset.range x.length, M.getD j 0 * (y.getD j 0 - x.getD j 0) ^ 2

/-- Around `x` the function `φ` changes by at most `Σ_j M_j |y_j - x_j|`. -/
def BoundedSlope (φ : List K → K) (M x : List K) : Prop :=
  ∀ y : List K, y.length = x.length →
    |φ y - φ x| ≤ ∑ j ∈ Finset.range x.length, M.getD j 0 * |y.getD j 0 - x.getD j 0|

/-- Size of a cell along axis `j`. -/
def PMesh.cell (m : PMesh K) (j : ℕ) : K := m.box.getD j 0 / (m.nmesh.getD j 0 : ℕ)

/-- The real field with the local arrays `field` is the function `φ` at the centres of the cells. -/
def PMesh.Samples (m : PMesh K) (field : ℕ → ℤ → K) (φ : List K → K) : Prop :=
  ∀ r < m.nrank, ∀ c, ValidIndex (m.localShape r) c → field r (m.addr r c) = φ (cellPosition m (m.global r c))

/-- Largest variance of the window, in cells squared. -/
def windowVariance : Tuned → K
  | .nnb => 1 / 4
  | .cic => 1 / 4
  | .tsc => 1 / 4
  | .pcs => 1 / 3

end
end Pmesh
