import Verif.Model.NoiseField
import Verif.Spec.Apply
import Mathlib.MeasureTheory.Measure.Lebesgue.Basic
import Mathlib.Probability.Independence.Basic

/-! # An ideal random generator -/

namespace Pmesh

open MeasureTheory ProbabilityTheory

/-- The uniform distribution on the numbers between zero and one. -/
noncomputable def unif : Measure ℝ := volume.restrict (Set.Ioo 0 1)

/-- A random choice `ω` of the generator, which is ideal in the following sense.  The first `n` numbers after `gsl_rng_set(seed)` are turned into `n` different seeds
`col 0, …, col (n - 1)`, and all the numbers after `gsl_rng_set(col k)`, for all `k`, are independent and uniformly distributed. -/
structure IdealNumbers {Ω σ : Type} [MeasurableSpace Ω] (P : Measure Ω) (r : Ω → Rng σ ℝ) (rnd : ℝ → ℝ) (seed n : ℕ) (col : ℕ → ℕ) : Prop where
  seeds : ∀ ω, ∀ k < n, toSeed rnd ((r ω).uniform seed k) = col k
  distinct : ∀ k < n, ∀ l < n, col k = col l → k = l
  measurable : ∀ k < n, ∀ m, Measurable fun ω => (r ω).uniform (col k) m
  uniform : ∀ k < n, ∀ m, P.map (fun ω => (r ω).uniform (col k) m) = unif
  independent : iIndepFun (fun (x : Fin n × ℕ) ω => (r ω).uniform (col x.1) x.2) P

/-- An element of the local array of a rank: start and shape of the array, its strides, the order of its axes in memory, what is in the memory before, and the
local index of the element. -/
structure NoisePlace where
  start : Fin 3 → ℕ
  shape : Fin 3 → ℕ
  strides : Fin 3 → ℤ
  order : List ℕ
  mem : ℤ → ℝ × ℝ
  index : Fin 3 → ℕ

namespace NoisePlace
variable (p : NoisePlace)

/-- The mode that the element holds. -/
def mode : List ℕ := [p.start 0 + p.index 0, p.start 1 + p.index 1, p.start 2 + p.index 2]

/-- The array lies in the mesh of `N × N × M` cells, no two elements of it are at the same place in memory, and it is a piece of a field that is compressed
or not split along the last axis. -/
structure OK (N M : ℕ) : Prop where
  inside : p.start 0 + p.shape 0 ≤ N ∧ p.start 1 + p.shape 1 ≤ N ∧ p.start 2 + p.shape 2 ≤ M
  proper : Proper [p.shape 0, p.shape 1, p.shape 2] [p.strides 0, p.strides 1, p.strides 2]
  order : p.order.Perm [0, 1, 2]
  valid : p.index 0 < p.shape 0 ∧ p.index 1 < p.shape 1 ∧ p.index 2 < p.shape 2
  whole : p.start 2 + p.shape 2 ≤ M / 2 + 1 ∨ p.start 2 = 0

end NoisePlace

/-- The mode that `generate_whitenoise(seed, unitary, mean)` leaves there, for generators with real numbers and with exact square root, logarithm, cosine and
sine. -/
noncomputable def noiseAt {σ : Type} (r : Rng σ ℝ) (rnd : ℝ → ℝ) (N M : ℕ) (box : Fin 3 → ℝ) (seed : ℕ) (unitary : Bool) (mean : ℝ) (p : NoisePlace) : ℝ × ℝ :=
  generateWhitenoise r polarIdeal rnd Real.pi [N, N, M] [p.start 0, p.start 1, p.start 2] [p.shape 0, p.shape 1, p.shape 2]
    [p.strides 0, p.strides 1, p.strides 2] p.order [box 0, box 1, box 2] seed unitary mean p.mem
    (elementAddr [p.strides 0, p.strides 1, p.strides 2] [p.index 0, p.index 1, p.index 2])

end Pmesh
