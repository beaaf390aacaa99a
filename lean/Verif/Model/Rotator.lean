import Mathlib.Data.Nat.Notation
import Mathlib.Logic.Function.Basic

/-!
# Model of `Rotator`, pmesh/tools.py:9-19

The ranks run their statements in any order.  A barrier is two events on each rank: the rank arrives, and leaves after all ranks have
arrived at the barrier of the same number.
-/

namespace Pmesh

/-- What a rank does next; `work` is a step of the body of the `with` block. -/
inductive RotOp
  | arrive
  | leave
  | work
deriving DecidableEq, Repr

/-- `comm.Barrier()` -/
def rotBarrier : List RotOp := [RotOp.arrive, RotOp.leave]

/-- `__enter__`, tools.py:12-15. -/
def rotEnter (rank : ℕ) : List RotOp := rotBarrier ++ (List.range rank).flatMap fun _ => rotBarrier

/-- `__exit__`, tools.py:16-19. It runs also if the body raises. -/
def rotExit (size rank : ℕ) : List RotOp := ((List.range' rank (size - rank)).flatMap fun _ => rotBarrier) ++ rotBarrier

/-- `with Rotator(comm): body`, the body being `w rank` steps on that rank. -/
def rotProg (size : ℕ) (w : ℕ → ℕ) (rank : ℕ) : List RotOp := rotEnter rank ++ List.replicate (w rank) RotOp.work ++ rotExit size rank

/-- What rank `r` has done when it is at position `s r`. -/
def rotDone (size : ℕ) (w : ℕ → ℕ) (s : ℕ → ℕ) (r : ℕ) : List RotOp := (rotProg size w r).take (s r)

/-- Rank `r` can do its next step: if that is leaving a barrier, all have arrived there. -/
def RotEnabled (size : ℕ) (w : ℕ → ℕ) (s : ℕ → ℕ) (r : ℕ) : Prop :=
  ∃ op, (rotProg size w r)[s r]? = some op ∧
    (op = RotOp.leave → ∀ r' < size, (rotDone size w s r).count RotOp.arrive ≤ (rotDone size w s r').count RotOp.arrive)

/-- The positions that the ranks can be at, in all schedules. -/
inductive RotReach (size : ℕ) (w : ℕ → ℕ) : (ℕ → ℕ) → Prop
  | start : RotReach size w fun _ => 0
  | step {s : ℕ → ℕ} (h : RotReach size w s) (r : ℕ) (hr : r < size) (he : RotEnabled size w s r) : RotReach size w (Function.update s r (s r + 1))

end Pmesh
