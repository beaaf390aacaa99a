import Verif.Spec.Field
import Verif.Spec.Mesh

/-! # Vocabulary for the differentiable operators -/

namespace Pmesh

/-- Inner product of two distributed arrays; rank `r` has the positions `idx r`. -/
def arrayDot {K ι : Type} [Field K] (n : ℕ) (idx : ℕ → List ι) (a b : ℕ → ι → K) : K :=
  ((List.range n).map fun r => ((idx r).map fun i => a r i * b r i).sum).sum

/-- Inner product of two distributed arrays whose elements have `D` components. -/
def componentsDot {K ι : Type} [Field K] (n D : ℕ) (idx : ℕ → List ι) (a b : ℕ → ι → ℕ → K) : K :=
  ((List.range D).map fun d => arrayDot n idx (fun r i => a r i d) (fun r i => b r i d)).sum

/-- A choice of one mode from each pair of opposite modes. -/
structure IndependentModes (nmesh : List ℕ) (H : List (List ℕ)) : Prop where
  nodup : H.Nodup
  valid : ∀ k ∈ H, ValidIndex nmesh k
  some : ∀ k, ValidIndex nmesh k → k ∈ H ∨ opposite nmesh k ∈ H
  one : ∀ k ∈ H, opposite nmesh k ∈ H → opposite nmesh k = k

/-- The wavevector of a mode: `2π/L` times the index modulo `N`, between `-N/2` (included) and `N/2`. -/
def waveVector {K : Type} [Field K] (pi : K) (nmesh : List ℕ) (box : List K) (i : List ℕ) : List K :=
  List.zipWith (fun (nb : ℕ × K) (j : ℕ) => (Int.bmod (j : ℤ) nb.1 : K) * (2 * pi) / nb.2) (nmesh.zip box) i

/-- One of the components of the wavevector is that of the Nyquist frequency. -/
def OnNyquist (nmesh i : List ℕ) : Prop := ∃ p ∈ nmesh.zip i, 2 * p.2 = p.1

end Pmesh
