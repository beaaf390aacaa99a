import Verif.Spec.Interp

/-! # Vocabulary for the accuracy of gradients -/

namespace Pmesh

section
variable {K : Type} [Field K] [LinearOrder K] [IsStrictOrderedRing K] [FloorRing K]

/-- Around `x` the function `φ` differs from the linear function with gradient `g` by at most `1/2 Σ_j M_j (y_j - x_j)^2`. -/
def Tangent (φ : List K → K) (g M x : List K) : Prop :=
  ∀ y : List K, y.length = x.length →
    |φ y - φ x - ∑ j ∈ Finset.range x.length, g.getD j 0 * (y.getD j 0 - x.getD j 0)| ≤
      1 / 2 * ∑ j ∈ Finset.range x.length, M.getD j 0 * (y.getD j 0 - x.getD j 0) ^ 2

/-- Around `x` the function `φ` differs from the quadratic function with gradient `g` and second derivatives `H` by at most
`C/6 |y - x|_1^3`. -/
def Osculating (φ : List K → K) (g : List K) (H : ℕ → ℕ → K) (C : K) (x : List K) : Prop :=
  ∀ y : List K, y.length = x.length →
    |φ y - φ x - ∑ j ∈ Finset.range x.length, g.getD j 0 * (y.getD j 0 - x.getD j 0) -
      1 / 2 * ∑ j ∈ Finset.range x.length, ∑ k ∈ Finset.range x.length, H j k * ((y.getD j 0 - x.getD j 0) * (y.getD k 0 - x.getD k 0))| ≤
      C / 6 * (∑ j ∈ Finset.range x.length, |y.getD j 0 - x.getD j 0|) ^ 3

end
end Pmesh
