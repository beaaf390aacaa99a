import Verif.Model.Window
import Mathlib.Analysis.SpecialFunctions.Trigonometric.Basic
import Mathlib.Probability.Distributions.Uniform
import Mathlib.Probability.Independence.Basic

/-! # Vocabulary for the shot noise of random particles -/

namespace Pmesh

open MeasureTheory ProbabilityTheory

/-- Random particles: each of the `n` ranks has a fixed number `cnt r` of them, and all their coordinates are independent and uniformly distributed in the box. -/
structure UniformCatalog {Ω : Type} [MeasurableSpace Ω] (P : Measure Ω) (n : ℕ) (cnt : ℕ → ℕ) (box : List ℝ) (pos : Ω → ℕ → List (List ℝ)) : Prop where
  count : ∀ ω, ∀ r < n, (pos ω r).length = cnt r
  measurable : ∀ r < n, ∀ i < cnt r, ∀ j < box.length, Measurable fun ω => ((pos ω r).getD i []).getD j 0
  uniform : ∀ r < n, ∀ i < cnt r, ∀ j < box.length, pdf.IsUniform (fun ω => ((pos ω r).getD i []).getD j 0) (Set.Ico 0 (box.getD j 0)) P volume
  independent : iIndepFun (fun (x : ((r : Fin n) × Fin (cnt r)) × Fin box.length) ω => ((pos ω x.1.1).getD x.1.2 []).getD x.2 0) P

/-- Power of the shot noise on one axis for the mode with `k` waves in `n` cells, in terms of `s = sin² (π k / n)`, for the four windows (the formulas of Jing 2005 for
nnb, cic and tsc). -/
noncomputable def shotPower (t : Tuned) (n k : ℕ) : ℝ :=
  let s := Real.sin (Real.pi * k / n) ^ 2
  match t with
  | .nnb => 1
  | .cic => 1 - 2 / 3 * s
  | .tsc => 1 - s + 2 / 15 * s ^ 2
  | .pcs => 1 - 4 / 3 * s + 2 / 5 * s ^ 2 - 4 / 315 * s ^ 3

end Pmesh
