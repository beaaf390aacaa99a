import Mathlib.Algebra.Group.Basic

/-!
# Timers of pmesh/tools.py

`Timer` and `Timers`.  A program is what happens between the calls of the clock: work that takes some time, `with T[key]:` blocks, and exceptions.
The clock only moves when work is done; the time that the timers themselves take is left out.
-/

namespace Pmesh

/-- The attributes of a `Timer`, tools.py:32-36. -/
structure Timer (K : Type*) where
  t0 : K
  spent : K

/-- Programs that use timers. -/
inductive TimerProg (κ K : Type*) where
  /-- The end of a block. -/
  | done
  /-- An exception is raised. -/
  | fail
  /-- Work that takes the time `dt`. -/
  | work (dt : K) (next : TimerProg κ K)
  /-- `with T[key]: body`. -/
  | timed (key : κ) (body next : TimerProg κ K)

/-- The clock `MPI.Wtime` and the entries of the dictionary `Timers`, in the order of insertion. -/
structure TimerState (κ K : Type*) where
  now : K
  timers : List (κ × Timer K)

variable {κ K : Type*} [DecidableEq κ]

/-- `dict.__getitem__`; `none` if the key is not there. -/
def timerGet (key : κ) : List (κ × Timer K) → Option (Timer K)
  | [] => none
  | (k, t) :: l => if k = key then some t else timerGet key l

/-- The timer of a key is changed. -/
def timerUpd (key : κ) (f : Timer K → Timer K) : List (κ × Timer K) → List (κ × Timer K)
  | [] => []
  | (k, t) :: l => if k = key then (k, f t) :: l else (k, t) :: timerUpd key f l

variable [AddCommGroup K]

/-- `Timers.__getitem__`, tools.py:46-49: a new timer if there is none. -/
def timersGetitem (key : κ) (s : TimerState κ K) : TimerState κ K :=
  if (timerGet key s.timers).isSome then s else { s with timers := s.timers ++ [(key, ⟨s.now, 0⟩)] }

/-- `Timer.__enter__`, tools.py:37-38. -/
def timerEnter (key : κ) (s : TimerState κ K) : TimerState κ K :=
  { s with timers := timerUpd key (fun t => { t with t0 := s.now }) s.timers }

/-- `Timer.__exit__`, tools.py:40-42. -/
def timerExit (key : κ) (s : TimerState κ K) : TimerState κ K :=
  { s with timers := timerUpd key (fun t => { t with spent := t.spent + (s.now - t.t0) }) s.timers }

/-- The execution of a program; `true` if an exception leaves it.  `__exit__` is called in either case and returns `None`, so that an
exception goes on, tools.py:40-42. -/
def timerRun : TimerProg κ K → TimerState κ K → TimerState κ K × Bool
  | .done, s => (s, false)
  | .fail, s => (s, true)
  | .work dt next, s => timerRun next { s with now := s.now + dt }
  | .timed key body next, s =>
    let r := timerRun body (timerEnter key (timersGetitem key s))
    let s' := timerExit key r.1
    if r.2 then (s', true) else timerRun next s'

/-- The lines of `Timers.__str__`, tools.py:50-51. -/
def timersReport (s : TimerState κ K) : List (κ × K) := s.timers.map fun e => (e.1, e.2.spent)

end Pmesh
