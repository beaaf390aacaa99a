import Mathlib.Data.Int.ModEq
import Mathlib.Algebra.Order.Group.Unbundled.Int

/-! # Integer modes of a mesh -/

namespace Pmesh

/-- Both names of the Nyquist mode are in the mesh: along each axis `-⌈n/2⌉ ≤ x ≤ ⌊n/2⌋`. -/
def InMesh (x : List ℤ) (nmesh : List ℕ) : Prop := List.Forall₂ (fun (xd : ℤ) (n : ℕ) => -(n : ℤ) - 1 ≤ 2 * xd ∧ 2 * xd ≤ n) x nmesh

/-- The frequencies of the discrete Fourier transform: `-⌊n/2⌋ ≤ x < ⌈n/2⌉` along each axis. -/
def FFTMode (x : List ℤ) (nmesh : List ℕ) : Prop := List.Forall₂ (fun (xd : ℤ) (n : ℕ) => -(n : ℤ) ≤ 2 * xd ∧ 2 * xd < n) x nmesh

/-- The frequencies that a real transform stores along its last axis: `0 … ⌊n/2⌋`. -/
def HalfMode (x : List ℤ) (nmesh : List ℕ) : Prop :=
  ∃ (y : List ℤ) (k : ℤ), x = y ++ [k] ∧ ∃ (m : List ℕ) (n : ℕ), nmesh = m ++ [n] ∧ FFTMode y m ∧ 0 ≤ k ∧ 2 * k ≤ (n : ℤ)

/-- The same plane wave on the points of the mesh. -/
def SameMode (x y : List ℤ) (nmesh : List ℕ) : Prop :=
  ∀ d < nmesh.length, x.getD d 0 ≡ y.getD d 0 [ZMOD nmesh.getD d 0]

/-- The largest of the absolute values is at most `s`. -/
def NormLe (x : List ℤ) (s : ℕ) : Prop := ∀ a ∈ x, a.natAbs ≤ s

end Pmesh
