import Verif.Model.Timers

/-!
# What timers should show

Only the programs are used here, not the timers.
-/

namespace Pmesh

variable {κ K : Type*}

/-- An exception leaves the program. -/
def TimerProg.raises : TimerProg κ K → Bool
  | .done => false
  | .fail => true
  | .work _ next => next.raises
  | .timed _ body next => body.raises || next.raises

/-- The time that passes while the program runs. -/
def TimerProg.elapsed [Add K] [Zero K] : TimerProg κ K → K
  | .done => 0
  | .fail => 0
  | .work dt next => dt + next.elapsed
  | .timed _ body next => body.elapsed + if body.raises then 0 else next.elapsed

/-- The time that passes inside the blocks of a key; `inside` says whether the program itself is in such a block. -/
def TimerProg.timeIn [DecidableEq κ] [Add K] [Zero K] (key : κ) (inside : Bool) : TimerProg κ K → K
  | .done => 0
  | .fail => 0
  | .work dt next => (if inside then dt else 0) + next.timeIn key inside
  | .timed k body next => body.timeIn key (inside || decide (k = key)) + if body.raises then 0 else next.timeIn key inside

/-- The keys of the blocks that are entered, in this order. -/
def TimerProg.entered : TimerProg κ K → List κ
  | .done => []
  | .fail => []
  | .work _ next => next.entered
  | .timed k body next => k :: (body.entered ++ if body.raises then [] else next.entered)

/-- No block is entered inside a block of the same key. -/
def TimerProg.NotNested : TimerProg κ K → Prop
  | .done => True
  | .fail => True
  | .work _ next => next.NotNested
  | .timed k body next => k ∉ body.entered ∧ body.NotNested ∧ next.NotNested

end Pmesh
