import Verif.Model.Qpm

/-! # Vocabulary for the leap-frog solver -/

namespace Pmesh

variable {K : Type*} [Field K] [LinearOrder K] [IsStrictOrderedRing K]

/-- The clocks of a leap-frog run with steps `d`: positions are known at `x`, velocities at `v`, the force is that of the positions at time `f`
(if there is one); the last step has begun at `s`.
A kick is half a step long, begins at the time of the velocities, and the time of the force is one of its ends.
A drift begins at the time of the positions, goes forward, does not leave the step, and uses velocities of the middle of the step.
At the notice that a step is done, and at the end, positions, velocities and force belong to the time that is told to the caller.
At the request to write a snapshot, the positions belong to the time that is told to the caller. The end is the end. -/
def QClock (d : K) : List (QOp K) → (x v s : K) → Option K → Prop
  | [], _, _, _, _ => True
  | .accel :: r, x, v, s, _ => QClock d r x v s (some x)
  | .kick a b :: r, x, v, s, f => a = v ∧ b = a + d / 2 ∧ (f = some a ∨ f = some b) ∧ QClock d r x b s f
  | .drift a b :: r, x, v, s, f => a = x ∧ a ≤ b ∧ s ≤ a ∧ b ≤ s + d ∧ v = s + d / 2 ∧ QClock d r b v s f
  | .stepDone l :: r, x, v, _, f => x = l ∧ v = l ∧ f = some l ∧ QClock d r x v l f
  | .write l :: r, x, v, s, f => x = l ∧ QClock d r x v s f
  | .finished l :: r, x, v, _, f => x = l ∧ v = l ∧ f = some l ∧ r = []

/-- The times at which the caller is asked to write a snapshot. -/
def qWrites : List (QOp K) → List K
  | [] => []
  | .write l :: r => l :: qWrites r
  | _ :: r => qWrites r

/-- The times at which the caller is told that a step is done. -/
def qDones : List (QOp K) → List K
  | [] => []
  | .stepDone l :: r => l :: qDones r
  | _ :: r => qDones r

/-- The number of steps `[l + i d, l + (i+1) d]`, `i < n`, that contain a time, ends included. -/
def stepsWith (l d : K) (n : ℕ) (o : K) : ℕ :=
  (List.range n).countP fun i : ℕ => l + (i : K) * d ≤ o ∧ o ≤ l + ((i : K) + 1) * d

end Pmesh
