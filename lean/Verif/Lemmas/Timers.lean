import Verif.Spec.Timers
import Mathlib.Tactic.Abel
import Mathlib.Data.List.Induction

namespace Pmesh

variable {κ K : Type*} [DecidableEq κ]

theorem timerGet_upd (key k : κ) (f : Timer K → Timer K) (l : List (κ × Timer K)) :
    timerGet k (timerUpd key f l) = if k = key then (timerGet k l).map f else timerGet k l := by
  induction l with
  | nil => simp [timerUpd, timerGet]
  | cons e l ih =>
    obtain ⟨k', t⟩ := e
    by_cases h : k' = key
    · subst h
      by_cases h2 : k = k'
      · subst h2; simp [timerUpd, timerGet]
      · simp [timerUpd, timerGet, h2, Ne.symm h2]
    · by_cases h2 : k' = k
      · subst h2; simp [timerUpd, timerGet, h]
      · simp [timerUpd, timerGet, h, h2, ih]

theorem timerUpd_keys (key : κ) (f : Timer K → Timer K) (l : List (κ × Timer K)) : (timerUpd key f l).map Prod.fst = l.map Prod.fst := by
  induction l with
  | nil => rfl
  | cons e l ih =>
    obtain ⟨k', t⟩ := e
    by_cases h : k' = key <;> simp [timerUpd, h, ih]

theorem timerGet_append (k : κ) (l l' : List (κ × Timer K)) : timerGet k (l ++ l') = (timerGet k l).or (timerGet k l') := by
  induction l with
  | nil => simp [timerGet]
  | cons e l ih =>
    obtain ⟨k', t⟩ := e
    by_cases h : k' = k <;> simp [timerGet, h, ih]

theorem timerGet_isSome {k : κ} {l : List (κ × Timer K)} : (timerGet k l).isSome ↔ k ∈ l.map Prod.fst := by
  induction l with
  | nil => simp [timerGet]
  | cons e l ih =>
    obtain ⟨k', t⟩ := e
    by_cases h : k' = k
    · simp [timerGet, h]
    · simp only [timerGet, h, if_false, ih, List.map_cons, List.mem_cons]
      exact ⟨Or.inr, fun h' => h'.resolve_left (Ne.symm h)⟩

variable [AddCommGroup K]

@[simp] theorem getitem_now (key : κ) (s : TimerState κ K) : (timersGetitem key s).now = s.now := by
  unfold timersGetitem; split <;> rfl

theorem timerRun_raises (p : TimerProg κ K) : ∀ s, (timerRun p s).2 = p.raises := by
  induction p with
  | done => intro s; rfl
  | fail => intro s; rfl
  | work dt next ih => intro s; simp [timerRun, TimerProg.raises, ih]
  | timed k body next ihb ihn =>
    intro s
    simp only [timerRun, TimerProg.raises, ihb]
    cases body.raises <;> simp [ihn]

theorem timerRun_now (p : TimerProg κ K) : ∀ s, (timerRun p s).1.now = s.now + p.elapsed := by
  induction p with
  | done => intro s; simp [timerRun, TimerProg.elapsed]
  | fail => intro s; simp [timerRun, TimerProg.elapsed]
  | work dt next ih => intro s; simp [timerRun, TimerProg.elapsed, ih, add_assoc]
  | timed k body next ihb ihn =>
    intro s
    simp only [timerRun, TimerProg.elapsed, timerRun_raises]
    cases body.raises <;> simp [ihn, ihb, timerExit, timerEnter, add_assoc]

/-- The timers of other keys are left alone. -/
theorem timerRun_other (p : TimerProg κ K) {k : κ} : ∀ s, k ∉ p.entered → timerGet k (timerRun p s).1.timers = timerGet k s.timers := by
  induction p with
  | done => intro s _; rfl
  | fail => intro s _; rfl
  | work dt next ih => intro s h; simpa [timerRun] using ih _ h
  | timed k' body next ihb ihn =>
    intro s h
    simp only [TimerProg.entered, List.mem_cons, List.mem_append, not_or] at h
    obtain ⟨hk, hb, hn⟩ := h
    have h1 : timerGet k (timerExit k' (timerRun body (timerEnter k' (timersGetitem k' s))).1).timers = timerGet k s.timers := by
      simp only [timerExit, timerGet_upd, if_neg hk, ihb _ hb, timerEnter]
      unfold timersGetitem
      split
      · rfl
      · simp [timerGet_append, timerGet, Ne.symm hk]
    simp only [timerRun, timerRun_raises]
    cases hr : body.raises
    · simp only [hr, Bool.false_eq_true, if_false] at hn ⊢
      rw [ihn _ hn, h1]
    · simpa using h1

/-- The time shown for a key, zero if it has no timer. -/
def spentOf (k : κ) (s : TimerState κ K) : K := ((timerGet k s.timers).map Timer.spent).getD 0

theorem timeIn_true (key : κ) (p : TimerProg κ K) : p.timeIn key true = p.elapsed := by
  induction p with
  | done => rfl
  | fail => rfl
  | work dt next ih => simp [TimerProg.timeIn, TimerProg.elapsed, ih]
  | timed k body next ihb ihn => simp [TimerProg.timeIn, TimerProg.elapsed, ihb, ihn]

theorem getitem_spent (k key : κ) (s : TimerState κ K) : spentOf k (timersGetitem key s) = spentOf k s := by
  unfold timersGetitem
  split
  · rfl
  · rename_i h
    simp only [spentOf, timerGet_append, timerGet]
    by_cases hk : key = k
    · subst hk
      simp [Option.not_isSome_iff_eq_none.1 h]
    · simp [hk]

theorem enter_spent (k key : κ) (s : TimerState κ K) : spentOf k (timerEnter key s) = spentOf k s := by
  simp only [spentOf, timerEnter, timerGet_upd]
  split
  · cases timerGet k s.timers <;> rfl
  · rfl

theorem exit_spent {k key : κ} (h : k ≠ key) (s : TimerState κ K) : spentOf k (timerExit key s) = spentOf k s := by
  simp [spentOf, timerExit, timerGet_upd, h]

theorem getitem_some (key : κ) (s : TimerState κ K) : ∃ t, timerGet key (timersGetitem key s).timers = some t := by
  unfold timersGetitem
  split
  · rename_i h
    exact Option.isSome_iff_exists.1 h
  · rename_i h
    simp [timerGet_append, timerGet, Option.not_isSome_iff_eq_none.1 h]

theorem timerRun_spent (k : κ) (p : TimerProg κ K) :
    ∀ s, p.NotNested → spentOf k (timerRun p s).1 = spentOf k s + p.timeIn k false := by
  induction p with
  | done => intro s _; simp [timerRun, TimerProg.timeIn]
  | fail => intro s _; simp [timerRun, TimerProg.timeIn]
  | work dt next ih =>
    intro s h
    simp only [timerRun, TimerProg.timeIn, Bool.false_eq_true, if_false, zero_add]
    exact ih _ h
  | timed k' body next ihb ihn =>
    intro s h
    obtain ⟨hk, hb, hn⟩ := h
    have h1 : spentOf k (timerExit k' (timerRun body (timerEnter k' (timersGetitem k' s))).1) =
        spentOf k s + body.timeIn k (false || decide (k' = k)) := by
      by_cases hkk : k' = k
      · subst hkk
        obtain ⟨t, ht⟩ := getitem_some k' s
        have hs := getitem_spent k' k' s
        simp only [spentOf, ht, Option.map_some, Option.getD_some] at hs
        simp only [decide_true, Bool.or_true, timeIn_true]
        have : timerGet k' (timerRun body (timerEnter k' (timersGetitem k' s))).1.timers = some { t with t0 := s.now } := by
          rw [timerRun_other _ _ hk]
          simp [timerEnter, timerGet_upd, ht]
        simp only [spentOf, timerExit, timerGet_upd, this, if_true, Option.map_some, Option.getD_some, timerRun_now]
        rw [hs]
        simp [timerEnter]
      · rw [exit_spent (Ne.symm hkk), ihb _ hb, enter_spent, getitem_spent]
        simp [hkk]
    simp only [timerRun, timerRun_raises, TimerProg.timeIn]
    cases body.raises
    · simp only [Bool.false_eq_true, if_false]
      rw [ihn _ hn, h1]
      abel
    · simp only [if_true]
      rw [h1]
      abel

theorem eraseDups_concat (l : List κ) (k : κ) : (l ++ [k]).eraseDups = if k ∈ l then l.eraseDups else l.eraseDups ++ [k] := by
  rw [List.eraseDups_append]
  by_cases h : k ∈ l <;> simp [List.removeAll, h, List.eraseDups_cons]

theorem eraseDups_nodup (l : List κ) : l.eraseDups.Nodup := by
  induction l using List.reverseRecOn with
  | nil => simp
  | append_singleton l k ih =>
    rw [eraseDups_concat]
    split
    · exact ih
    · rename_i h
      rw [List.nodup_append]
      refine ⟨ih, by simp, fun a ha b hb => ?_⟩
      rw [List.mem_singleton.1 hb]
      rintro rfl
      exact h (List.mem_eraseDups.1 ha)

theorem timerRun_keys (p : TimerProg κ K) : ∀ (l : List κ) (s : TimerState κ K), s.timers.map Prod.fst = l.eraseDups →
    (timerRun p s).1.timers.map Prod.fst = (l ++ p.entered).eraseDups := by
  induction p with
  | done => intro l s h; simpa [timerRun, TimerProg.entered] using h
  | fail => intro l s h; simpa [timerRun, TimerProg.entered] using h
  | work dt next ih => intro l s h; simp only [timerRun, TimerProg.entered]; exact ih _ _ h
  | timed k body next ihb ihn =>
    intro l s h
    have h0 : (timerEnter k (timersGetitem k s)).timers.map Prod.fst = (l ++ [k]).eraseDups := by
      simp only [timerEnter, timerUpd_keys, eraseDups_concat]
      unfold timersGetitem
      simp only [timerGet_isSome, h, List.mem_eraseDups]
      split
      · exact h
      · simp [h]
    have h1 := ihb _ _ h0
    have h2 : (timerExit k (timerRun body (timerEnter k (timersGetitem k s))).1).timers.map Prod.fst = (l ++ [k] ++ body.entered).eraseDups := by
      simpa [timerExit, timerUpd_keys] using h1
    simp only [timerRun, timerRun_raises, TimerProg.entered]
    cases body.raises
    · simp only [Bool.false_eq_true, if_false]
      rw [ihn _ _ h2]
      simp
    · simp only [if_true]
      rw [h2]
      simp

/-- A list of timers without repeated keys is known from its keys and what is shown for them. -/
theorem report_eq (l : List (κ × Timer K)) (hnd : (l.map Prod.fst).Nodup) :
    l.map (fun e => (e.1, e.2.spent)) = (l.map Prod.fst).map fun k => (k, ((timerGet k l).map Timer.spent).getD 0) := by
  rw [List.map_map]
  refine List.map_congr_left fun e he => ?_
  have : timerGet e.1 l = some e.2 := by
    induction l with
    | nil => simp at he
    | cons a l ih =>
      obtain ⟨k, t⟩ := a
      simp only [List.map_cons, List.nodup_cons] at hnd
      rcases List.mem_cons.1 he with rfl | he'
      · simp [timerGet]
      · have : k ≠ e.1 := fun h => hnd.1 (h ▸ List.mem_map_of_mem he')
        simp [timerGet, this, ih hnd.2 he']
  simp [this]

end Pmesh
