import Verif.Model.CheckGrad
import Verif.Spec.Field

/-! # Vocabulary for the check of gradients -/

namespace Pmesh

/-- Standard deviation of the values of `f` on a list. -/
noncomputable def stdDev {ι : Type} (l : List ι) (f : ι → ℝ) : ℝ :=
  Real.sqrt ((l.map fun i => (f i - (l.map f).sum / l.length) ^ 2).sum / l.length)

/-- `GradWithin S1 S2 rtol atol a b`: the numbers `a` and `b` agree to the tolerance of the check, in which a number that is 0 counts with the
standard deviation `S1` or `S2` of its column instead of its absolute value. -/
def GradWithin (S1 S2 rtol atol a b : ℝ) : Prop :=
  let den := ((if a = 0 then S1 else |a|) + (if b = 0 then S2 else |b|)) * rtol + atol
  0 < den ∧ -den ≤ a - b ∧ a - b < den

/-- `Rep xs v`: the data `xs` of the ranks hold the vector `v` with components `idx`.  Reading a component, changing a
component and taking differences do on the data of the ranks what they do on vectors. -/
structure GradInput.OK {W X ι : Type} [DecidableEq ι] (inp : GradInput W X ι) (n : ℕ) (idx : List ι)
    (Rep : (ℕ → X) → (ι → ℝ) → Prop) : Prop where
  get : ∀ xs v, Rep xs v → ∀ i ∈ idx, AllReturn n (fun r => inp.get r (xs r) i) fun _ => .ok (v i)
  perturb : ∀ xs v, Rep xs v → ∀ i ∈ idx, ∀ e, ∃ xs', AllReturn n (fun r => inp.perturb r (xs r) i e) (fun r => .ok (xs' r)) ∧
    Rep xs' (Function.update v i (v i + e))
  sub : ∀ xs ys v u, Rep xs v → Rep ys u → Rep (fun r => inp.sub (xs r) (ys r)) fun i => v i - u i

/-- The programs of the code under test compute: the function `Y`, the vector `G` as its gradient, and `J` as its
directional derivative (right or wrong ones), for inputs that hold a vector. -/
structure GradCode.Computes {W X ι : Type} (code : GradCode W X) (n : ℕ) (Rep : (ℕ → X) → (ι → ℝ) → Prop)
    (Y : (ι → ℝ) → ℝ) (G : ι → ℝ) (J : (ι → ℝ) → ℝ) : Prop where
  compute : ∀ xs v, Rep xs v → AllReturn n (fun r => code.compute r (xs r)) fun _ => .ok (Y v)
  vjp : ∃ gs, AllReturn n code.vjp (fun r => .ok (gs r)) ∧ Rep gs G
  jvp : ∀ xs v, Rep xs v → AllReturn n (fun r => code.jvp r (xs r)) fun _ => .ok (J v)

/-- The rows of the ranks, `len r` rows with `dim` entries on rank `r`, are the rows of the matrix `v`, in the order of the
ranks. -/
def RowsHold (n : ℕ) (len : ℕ → ℕ) (dim : ℕ) (xs : ℕ → List (List ℝ)) (v : ℕ × ℕ → ℝ) : Prop :=
  ∀ r < n, (xs r).length = len r ∧ (∀ row ∈ xs r, row.length = dim) ∧
    ∀ i < len r, ∀ d < dim, ((xs r).getD i []).getD d 0 = v (((List.range r).map len).sum + i, d)

/-- The vector with `c` in component `i` and 0 elsewhere. -/
def axisVector {ι : Type} [DecidableEq ι] (i : ι) (c : ℝ) : ι → ℝ := fun j => if j = i then c else 0

/-- The change of `Y` between the two points at distance `eps` from `v` on both sides along component `i`. -/
def centralDiff {ι : Type} [DecidableEq ι] (Y : (ι → ℝ) → ℝ) (v : ι → ℝ) (eps : ℝ) (i : ι) : ℝ :=
  Y (Function.update v i (v i + eps)) - Y (Function.update v i (v i - eps))

/-- What the check demands: for each component, twice the step times the gradient agrees with the directional derivative to
`rtol`, and with the central difference to `10000 rtol`. -/
def GradAgrees {ι : Type} [DecidableEq ι] (idx : List ι) (Y : (ι → ℝ) → ℝ) (G : ι → ℝ) (J : (ι → ℝ) → ℝ) (v : ι → ℝ)
    (eps rtol atol : ℝ) : Prop :=
  ∀ i ∈ idx,
    GradWithin (stdDev idx fun i => J (axisVector i (2 * eps))) (stdDev idx fun i => 2 * eps * G i) rtol atol
      (J (axisVector i (2 * eps))) (2 * eps * G i) ∧
    GradWithin (stdDev idx (centralDiff Y v eps)) (stdDev idx fun i => 2 * eps * G i) (10000 * rtol) atol
      (centralDiff Y v eps i) (2 * eps * G i)

end Pmesh
