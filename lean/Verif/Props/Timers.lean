import Verif.Lemmas.Timers
import Mathlib.Algebra.Order.Group.Defs
import Mathlib.Algebra.Group.Int.Defs

/-!
# C123: timers show the time spent in their blocks
-/

namespace Pmesh

variable {κ K : Type*} [DecidableEq κ] [AddCommGroup K]

/-- **C123.**  In a program in which no block is entered inside a block of the same key, `str(T)` has one line for each key that was used, in the order of first use, with the time that
passed inside the blocks of this key, also of blocks left by an exception; and exceptions are not held back. -/
theorem C123_report_partial (p : TimerProg κ K) (hp : p.NotNested) (now : K) :
    timersReport (timerRun p ⟨now, []⟩).1 = p.entered.eraseDups.map (fun k => (k, p.timeIn k false)) ∧ (timerRun p ⟨now, []⟩).2 = p.raises := by
  refine ⟨?_, timerRun_raises p _⟩
  have hk := timerRun_keys p [] (⟨now, []⟩ : TimerState κ K) (by simp)
  simp only [List.nil_append] at hk
  unfold timersReport
  rw [report_eq _ (by rw [hk]; exact eraseDups_nodup _), hk]
  refine List.map_congr_left fun k _ => ?_
  have := timerRun_spent k p ⟨now, []⟩ hp
  simp only [spentOf, timerGet, Option.map_none, Option.getD_none, zero_add] at this
  rw [this]

/-- Two timers, one inside the other, the outer used twice, the second time left by an exception. -/
def exTimers : TimerProg ℕ ℤ :=
  .work 5 (.timed 7 (.work 3 (.timed 2 (.work 4 .done) (.work 1 .done))) (.work 10 (.timed 7 (.work 6 .fail) (.work 100 .done))))

example : timersReport (timerRun exTimers ⟨1000, []⟩).1 = [(7, 14), (2, 4)] :=
  (C123_report_partial exTimers (by simp [exTimers, TimerProg.NotNested, TimerProg.entered]) 1000).1

/-- **C123.**  A later program adds its time to the times that the timers have. -/
theorem C123_adds_partial (p q : TimerProg κ K) (hp : p.NotNested) (hq : q.NotNested) (now idle : K) (k : κ) :
    let s := (timerRun p ⟨now, []⟩).1
    ((timerGet k (timerRun q { s with now := s.now + idle }).1.timers).map Timer.spent).getD 0 = p.timeIn k false + q.timeIn k false := by
  intro s
  have h1 := timerRun_spent k p ⟨now, []⟩ hp
  have h2 := timerRun_spent k q { s with now := s.now + idle } hq
  simp only [spentOf, timerGet, Option.map_none, Option.getD_none, zero_add] at h1
  simp only [spentOf] at h2
  rw [h2]
  exact congrArg (· + _) h1

example := C123_adds_partial exTimers exTimers (by simp [exTimers, TimerProg.NotNested, TimerProg.entered])
  (by simp [exTimers, TimerProg.NotNested, TimerProg.entered]) 1000 50 7

/-- **C123 violated** for a timer used inside its own block: the time before the inner block is lost and the time of the inner block counts twice. -/
theorem C123_violated_nested (k : κ) (a b c now : K) :
    let p : TimerProg κ K := .timed k (.work a (.timed k (.work b .done) (.work c .done))) .done
    p.timeIn k false = a + b + c ∧ timersReport (timerRun p ⟨now, []⟩).1 = [(k, b + (b + c))] := by
  intro p
  constructor
  · simp [p, TimerProg.timeIn, TimerProg.raises]
    abel
  · simp [p, timerRun, timersReport, timerExit, timerEnter, timersGetitem, timerGet, timerUpd]
    abel

/-- Ten seconds of work before an inner block of one second show as two seconds. -/
example : timersReport (timerRun (.timed 0 (.work 10 (.timed 0 (.work 1 .done) .done)) .done : TimerProg ℕ ℤ) ⟨0, []⟩).1 = [(0, 2)] := by decide

#print axioms C123_report_partial
#print axioms C123_adds_partial
#print axioms C123_violated_nested

end Pmesh
