import Mathlib.Data.List.Sort
import Mathlib.Tactic.Linarith
import Mathlib.Tactic.Ring
import Mathlib.Tactic.FieldSimp
import Mathlib.Tactic.Positivity
import Verif.Spec.Qpm

/-! # Lemmas about the leap-frog solver -/

namespace Pmesh

variable {K : Type*} [Field K] [LinearOrder K] [IsStrictOrderedRing K] [FloorRing K]

/-- A sorted list is the part that fulfils a downward closed condition, and then the rest. -/
theorem sorted_split {p : K → Bool} (hp : ∀ a b, a ≤ b → p b = true → p a = true) :
    ∀ {xs : List K}, xs.Pairwise (· ≤ ·) → xs = xs.filter p ++ xs.filter (fun x => !p x)
  | [], _ => rfl
  | x :: xs, h => by
    rw [List.pairwise_cons] at h
    have ih := sorted_split hp h.2
    by_cases hx : p x = true
    · simp only [List.filter_cons, hx, if_true, Bool.not_true, Bool.false_eq_true, if_false, List.cons_append]
      rw [← ih]
    · have hno : xs.filter p = [] := by
        rw [List.filter_eq_nil_iff]
        intro y hy hpy
        exact hx (hp x y (h.1 y hy) hpy)
      rw [hno] at ih
      have hx' : p x = false := by simpa using hx
      simp only [List.filter_cons, hx', Bool.false_eq_true, if_false, Bool.not_false, if_true, hno, List.nil_append]
      rw [List.nil_append] at ih
      rw [← ih]

/-- The drifts of a step that passes the given output times. -/
def driftsVia (a l2 : K) : List K → List (QOp K)
  | [] => [.drift a l2]
  | o :: os => .drift a o :: .write o :: driftsVia o l2 os

/-- The output times in a step. -/
def inStep (out : List K) (l1 l2 : K) : List K := out.filter fun o => decide (l1 ≤ o ∧ o ≤ l2)

theorem driftsVia_index (out : List K) (l2 : K) : ∀ (os : List K) (o : K) (j : ℕ),
    (∀ k ≤ os.length, out.getD (j + k) 0 = (o :: os).getD k 0) →
    ((List.range' (j + 1) os.length).flatMap fun i =>
        [QOp.drift (out.getD (i - 1) 0) (out.getD i 0), .write (out.getD i 0)]) ++
      [.drift (out.getD (j + os.length) 0) l2] = driftsVia o l2 os
  | [], o, j, h => by
    have := h 0 (le_refl 0)
    simp only [Nat.add_zero, List.getD_cons_zero] at this
    simp only [List.length_nil, List.range'_zero, List.flatMap_nil, List.nil_append, Nat.add_zero, driftsVia, this]
  | b :: os, o, j, h => by
    have h0 := h 0 (Nat.zero_le _)
    have h1 := h 1 (by simp)
    simp only [Nat.add_zero, List.getD_cons_zero] at h0
    have h1' : out.getD (j + 1) 0 = b := by simpa using h1
    have ih := driftsVia_index out l2 os b (j + 1) (fun k hk => by
      have := h (k + 1) (by simpa using hk)
      rw [List.getD_cons_succ] at this
      rw [← this]; congr 1; omega)
    simp only [List.length_cons, List.range'_succ, List.flatMap_cons, driftsVia, Nat.add_sub_cancel, h0, h1', List.cons_append, List.nil_append]
    rw [← ih]
    have e : j + (os.length + 1) = j + 1 + os.length := by omega
    rw [e]

theorem filter_two {out : List K} (hs : out.Pairwise (· ≤ ·)) {l1 l2 : K} (h : l1 ≤ l2) :
    out = out.filter (fun o => decide (o < l1)) ++ inStep out l1 l2 ++ out.filter (fun o => !decide (o ≤ l2)) := by
  have h2 := sorted_split (p := fun o => decide (o ≤ l2)) (fun a b hab hb => by
    simp only [decide_eq_true_eq] at hb ⊢; exact hab.trans hb) hs
  have hs2 : (out.filter fun o => decide (o ≤ l2)).Pairwise (· ≤ ·) := hs.filter _
  have h1 := sorted_split (p := fun o => decide (o < l1)) (fun a b hab hb => by
    simp only [decide_eq_true_eq] at hb ⊢; exact lt_of_le_of_lt hab hb) hs2
  rw [List.filter_filter, List.filter_filter] at h1
  have e1 : (out.filter fun a => decide (a < l1) && decide (a ≤ l2)) = out.filter fun o => decide (o < l1) := by
    apply List.filter_congr
    intro a _
    by_cases ha : a < l1
    · simp [ha, (ha.le.trans h)]
    · simp [ha]
  have e2 : (out.filter fun a => (!decide (a < l1)) && decide (a ≤ l2)) = inStep out l1 l2 := by
    apply List.filter_congr
    intro a _
    by_cases ha : a < l1
    · simp [ha, not_le.mpr ha]
    · simp [ha, not_lt.mp ha]
  rw [e1, e2] at h1
  rw [← h1]
  exact h2

theorem qDrifts_eq {out : List K} (hs : out.Pairwise (· ≤ ·)) {l1 l2 : K} (h : l1 ≤ l2) :
    qDrifts out l1 l2 = driftsVia l1 l2 (inStep out l1 l2) := by
  have hf := filter_two hs h
  have hl : searchLeft out l1 = (out.filter fun o => decide (o < l1)).length := List.countP_eq_length_filter
  have hr : searchRight out l2 = searchLeft out l1 + (inStep out l1 l2).length := by
    have : searchRight out l2 = (out.filter fun o => decide (o ≤ l2)).length := List.countP_eq_length_filter
    rw [this, hl, ← List.length_append]
    congr 1
    have h3 := congrArg (List.filter fun o => decide (o ≤ l2)) hf
    rw [h3, List.filter_append, List.filter_append]
    have a1 : List.filter (fun o => decide (o ≤ l2)) (List.filter (fun o => decide (o < l1)) out)
        = List.filter (fun o => decide (o < l1)) out := by
      apply List.filter_eq_self.mpr
      intro a ha
      have := (List.mem_filter.mp ha).2
      simp only [decide_eq_true_eq] at this ⊢
      exact this.le.trans h
    have a2 : List.filter (fun o => decide (o ≤ l2)) (inStep out l1 l2) = inStep out l1 l2 := by
      apply List.filter_eq_self.mpr
      intro a ha
      have := (List.mem_filter.mp ha).2
      simp only [decide_eq_true_eq] at this ⊢
      exact this.2
    have a3 : List.filter (fun o => decide (o ≤ l2)) (List.filter (fun o => !decide (o ≤ l2)) out) = [] := by
      rw [List.filter_eq_nil_iff]
      intro a ha
      have := (List.mem_filter.mp ha).2
      simpa using this
    rw [a1, a2, a3, List.append_nil]
  unfold qDrifts
  rw [hr]
  set left := searchLeft out l1 with hleft
  set A := out.filter fun o => decide (o < l1) with hA
  cases hsel : inStep out l1 l2 with
  | nil => simp [driftsVia]
  | cons o os =>
    have hget : ∀ k ≤ os.length, out.getD (left + k) 0 = (o :: os).getD k 0 := by
      intro k hk
      rw [hf, hsel, hl, List.append_assoc, List.getD_eq_getElem?_getD, List.getD_eq_getElem?_getD,
        List.getElem?_append_right (by omega), Nat.add_sub_cancel_left, List.getElem?_append_left (by simp; omega)]
    have h0 : out.getD left 0 = o := by simpa using hget 0 (Nat.zero_le _)
    have := driftsVia_index out l2 os o left hget
    simp only [List.length_cons]
    rw [if_pos (by omega)]
    rw [show left + (os.length + 1) - (left + 1) = os.length from by omega,
      show left + (os.length + 1) - 1 = left + os.length from by omega, h0]
    simp only [driftsVia, List.cons_append]
    rw [this]

theorem clock_driftsVia {d v s : K} {f : Option K} {l2 : K} {r : List (QOp K)} (hv : v = s + d / 2) (hl2 : l2 ≤ s + d)
    (hr : QClock d r l2 v s f) : ∀ (os : List K) (a : K), s ≤ a → a ≤ l2 → (∀ o ∈ os, a ≤ o ∧ o ≤ l2) → os.Pairwise (· ≤ ·) →
      QClock d (driftsVia a l2 os ++ r) a v s f
  | [], a, hsa, hal, _, _ => ⟨rfl, hal, hsa, hl2, hv, hr⟩
  | o :: os, a, hsa, hal, ho, hp => by
    have h1 := ho o (List.mem_cons_self)
    rw [List.pairwise_cons] at hp
    refine ⟨rfl, h1.1, hsa, h1.2.trans hl2, hv, rfl, ?_⟩
    exact clock_driftsVia hv hl2 hr os o (hsa.trans h1.1) h1.2
      (fun o' ho' => ⟨hp.1 o' ho', (ho o' (List.mem_cons_of_mem _ ho')).2⟩) hp.2

theorem clock_qDrifts {out : List K} (hs : out.Pairwise (· ≤ ·)) {d l1 l2 : K} (hd : 0 < d) (h : l2 = l1 + d) {f : Option K}
    {r : List (QOp K)} (hr : QClock d r l2 (qMid l1 l2) l1 f) : QClock d (qDrifts out l1 l2 ++ r) l1 (qMid l1 l2) l1 f := by
  have hle : l1 ≤ l2 := by rw [h]; linarith
  rw [qDrifts_eq hs hle]
  refine clock_driftsVia ?_ h.le hr _ _ le_rfl hle ?_ (hs.filter _)
  · rw [h, qMid]; ring
  · intro o ho
    have := (List.mem_filter.mp ho).2
    simpa using this

/-- The loop keeps the clocks. -/
theorem clock_qLoop {out : List K} (hs : out.Pairwise (· ≤ ·)) {d : K} (hd : 0 < d) : ∀ (ts : List K) (l1 : K) (prev : Option (K × K)) (v s : K)
    (f : Option K), (l1 :: ts).IsChain (fun a b => b = a + d) → ((prev = none ∧ v = l1) ∨ (prev = some (l1 - d, l1) ∧ v = l1 - d / 2)) →
    QClock d (qLoop out prev (l1 :: ts)).ops l1 v s f := by
  intro ts
  induction ts with
  | nil =>
    intro l1 prev v s f _ hp
    rcases hp with ⟨rfl, rfl⟩ | ⟨rfl, rfl⟩
    · exact ⟨rfl, rfl, rfl, rfl⟩
    · refine ⟨?_, ?_, Or.inr rfl, rfl, rfl, rfl, rfl⟩ <;> · rw [qMid]; ring
  | cons l2 ts ih =>
    intro l1 prev v s f hc hp
    rw [List.isChain_cons_cons] at hc
    obtain ⟨h12, hc⟩ := hc
    have key : ∀ r : List (QOp K), QClock d r l1 l1 s (some l1) →
        QClock d (qHead prev ++ r) l1 v s f := by
      intro r hr
      rcases hp with ⟨rfl, rfl⟩ | ⟨rfl, rfl⟩
      · exact hr
      · refine ⟨?_, ?_, Or.inr rfl, hr⟩ <;> · rw [qMid]; ring
    unfold qLoop
    cases hm : out.max? with
    | none =>
      have := key [] trivial
      simpa using this
    | some mx =>
      dsimp only
      split_ifs with hgt
      · exact key _ ⟨rfl, rfl, rfl, rfl⟩
      · rw [List.append_assoc, List.append_assoc]
        refine key _ ⟨rfl, rfl, rfl, rfl, ?_, Or.inl rfl, ?_⟩
        · rw [qMid, h12]; ring
        · refine clock_qDrifts hs hd h12 ?_
          refine ih l2 (some (l1, l2)) _ _ _ hc (Or.inr ⟨?_, ?_⟩)
          · rw [h12]; congr 2; ring
          · rw [qMid, h12]; ring

theorem qWrites_append (a b : List (QOp K)) : qWrites (a ++ b) = qWrites a ++ qWrites b := by
  induction a with
  | nil => rfl
  | cons x a ih => cases x <;> simp [qWrites, ih]

theorem qDones_append (a b : List (QOp K)) : qDones (a ++ b) = qDones a ++ qDones b := by
  induction a with
  | nil => rfl
  | cons x a ih => cases x <;> simp [qDones, ih]

theorem qWrites_driftsVia (l2 : K) : ∀ (os : List K) (a : K), qWrites (driftsVia a l2 os) = os
  | [], _ => rfl
  | o :: os, a => by simp [driftsVia, qWrites, qWrites_driftsVia l2 os o]

theorem qDones_driftsVia (l2 : K) : ∀ (os : List K) (a : K), qDones (driftsVia a l2 os) = []
  | [], _ => rfl
  | o :: os, a => by simp [driftsVia, qDones, qDones_driftsVia l2 os o]

theorem qTimesteps_eq {l d : K} (hl : l < 0) (hd : 0 < d) :
    qTimesteps l d = some ((List.range (⌈-l / d⌉.toNat + 1)).map fun i : ℕ => l + (i : K) * d) := by
  have hpos : 0 < ⌈-l / d⌉.toNat := by
    have : 0 < -l / d := div_pos (by linarith) hd
    have h := Int.ceil_pos.mpr this
    omega
  obtain ⟨n, hn⟩ : ∃ n, ⌈-l / d⌉.toNat = n + 1 := ⟨_, (Nat.succ_pred_eq_of_pos hpos).symm⟩
  have hlast : l + (n : K) * d < 0 := by
    have h1 : ((n : ℤ) : K) < -l / d := by
      rw [← Int.lt_ceil]; omega
    rw [lt_div_iff₀ hd] at h1
    push_cast at h1
    linarith
  unfold qTimesteps qArange
  rw [zero_sub, hn]
  simp only [List.range_succ, List.map_append, List.map_cons, List.map_nil, List.getLast?_append, List.getLast?_singleton,
    Option.some_or]
  rw [if_pos hlast]
  simp only [List.append_assoc, List.cons_append, List.nil_append]
  congr 4
  push_cast; ring

/-- The times from step `i` on. -/
theorem times_cons (l d : K) (i k : ℕ) : (List.range' i (k + 1)).map (fun i : ℕ => l + (i : K) * d) =
    (l + (i : K) * d) :: (List.range' (i + 1) k).map (fun i : ℕ => l + (i : K) * d) := by
  rw [List.range'_succ, List.map_cons]

theorem times_chain (l d : K) : ∀ k i : ℕ, ((List.range' i k).map (fun i : ℕ => l + (i : K) * d)).IsChain (fun a b => b = a + d)
  | 0, _ => by simp
  | 1, _ => by simp
  | k + 2, i => by
    rw [times_cons, times_cons, List.isChain_cons_cons]
    refine ⟨by push_cast; ring, ?_⟩
    have := times_chain l d (k + 1) (i + 1)
    rwa [times_cons] at this

theorem max?_le {out : List K} {mx : K} (h : out.max? = some mx) : ∀ o ∈ out, o ≤ mx := by
  have := (List.max?_eq_some_iff (xs := out) (a := mx)).mp h
  exact this.2

/-- The snapshots that the loop asks for, step by step. -/
theorem writes_qLoop {out : List K} (hs : out.Pairwise (· ≤ ·)) (hne : out ≠ []) {l d : K} (hd : 0 < d) : ∀ (k i : ℕ) (prev : Option (K × K)),
    qWrites (qLoop out prev ((List.range' i (k + 1)).map fun i : ℕ => l + (i : K) * d)).ops =
      (List.range' i k).flatMap fun i : ℕ => inStep out (l + (i : K) * d) (l + ((i : K) + 1) * d) := by
  intro k
  induction k with
  | zero =>
    intro i prev
    rcases prev with _ | ⟨a, b⟩ <;> rfl
  | succ k ih =>
    intro i prev
    rw [times_cons, times_cons]
    have hq : ∀ prev' : Option (K × K), qWrites (qHead prev') = [] := by
      rintro (_ | ⟨a, b⟩) <;> rfl
    unfold qLoop
    obtain ⟨mx, hm⟩ : ∃ mx, out.max? = some mx := by
      cases h : out.max? with
      | none => exact absurd (List.max?_eq_none_iff.mp h) hne
      | some mx => exact ⟨mx, rfl⟩
    rw [hm]
    dsimp only
    split_ifs with hgt
    · rw [qWrites_append, hq]
      symm
      simp only [qWrites, List.append_nil, List.flatMap_eq_nil_iff]
      intro j hj
      rw [inStep, List.filter_eq_nil_iff]
      intro o ho
      have h1 := max?_le hm o ho
      rw [List.mem_range'_1] at hj
      have h2 : l + (i : K) * d ≤ l + (j : K) * d := by
        have : (i : K) ≤ j := by exact_mod_cast hj.1
        nlinarith
      simp only [decide_eq_true_eq, not_and_or, not_le]
      left
      linarith
    · have e : l + ((i + 1 : ℕ) : K) * d = l + ((i : K) + 1) * d := by push_cast; rfl
      have := ih (i + 1) (some (l + (i : K) * d, l + ((i + 1 : ℕ) : K) * d))
      rw [times_cons] at this
      rw [qWrites_append, qWrites_append, qWrites_append, hq, this, qDrifts_eq hs (by rw [e]; nlinarith), qWrites_driftsVia, List.range'_succ, List.flatMap_cons, e]
      rfl

/-- The loop ends with the last message and without an exception. -/
theorem ends_qLoop {out : List K} (hne : out ≠ []) {l d : K} : ∀ (k i : ℕ) (prev : Option (K × K)),
    (qLoop out prev ((List.range' i (k + 1)).map fun i : ℕ => l + (i : K) * d)).err = none ∧
      ∃ (j : ℕ) (ops : List (QOp K)), i ≤ j ∧ j ≤ i + k ∧
      (qLoop out prev ((List.range' i (k + 1)).map fun i : ℕ => l + (i : K) * d)).ops = ops ++ [.finished (l + (j : K) * d)] ∧
      qDones ops = (List.range' i (j - i)).map (fun i : ℕ => l + (i : K) * d) ∧
      (j = i + k ∨ ∀ o ∈ out, o < l + (j : K) * d) ∧ ∀ j', i ≤ j' → j' < j → ∃ o ∈ out, l + (j' : K) * d ≤ o := by
  intro k
  induction k with
  | zero =>
    intro i prev
    rcases prev with _ | ⟨a, b⟩
    · exact ⟨rfl, i, [.accel], le_rfl, le_rfl, rfl, by simp [qDones], Or.inl rfl, fun j' h1 h2 => by omega⟩
    · exact ⟨rfl, i, [.accel, .kick (qMid a b) b], le_rfl, le_rfl, rfl, by simp [qDones], Or.inl rfl, fun j' h1 h2 => by omega⟩
  | succ k ih =>
    intro i prev
    rw [times_cons, times_cons]
    have hq : ∀ prev' : Option (K × K), qDones (qHead prev') = [] := by
      rintro (_ | ⟨a, b⟩) <;> rfl
    unfold qLoop
    obtain ⟨mx, hm⟩ : ∃ mx, out.max? = some mx := by
      cases h : out.max? with
      | none => exact absurd (List.max?_eq_none_iff.mp h) hne
      | some mx => exact ⟨mx, rfl⟩
    rw [hm]
    dsimp only
    split_ifs with hgt
    · refine ⟨rfl, i, _, le_rfl, by omega, rfl, by rw [hq]; simp, Or.inr fun o ho => lt_of_le_of_lt (max?_le hm o ho) hgt, fun j' h1 h2 => by omega⟩
    · have := ih (i + 1) (some (l + (i : K) * d, l + ((i + 1 : ℕ) : K) * d))
      rw [times_cons] at this
      obtain ⟨he, j, ops, h1, h2, h3, h4, h5, h6⟩ := this
      refine ⟨he, j, _, by omega, by omega, by rw [h3, ← List.append_assoc], ?_, ?_, ?_⟩
      · rw [qDones_append, qDones_append, qDones_append, hq, h4]
        have hdr : qDones (qDrifts out (l + (i : K) * d) (l + ((i + 1 : ℕ) : K) * d)) = [] := by
          unfold qDrifts
          dsimp only
          split_ifs
          · rw [qDones_append]
            simp only [qDones, List.append_nil]
            generalize List.range' _ _ = idx
            induction idx with
            | nil => rfl
            | cons x idx ih' => rw [List.flatMap_cons, qDones_append, ih']; rfl
          · rfl
        rw [hdr, show j - i = (j - (i + 1)) + 1 from by omega, List.range'_succ]
        rfl
      · rcases h5 with h5 | h5
        · left; omega
        · exact Or.inr h5
      · intro j' hj1 hj2
        rcases Nat.eq_or_lt_of_le hj1 with rfl | hlt
        · exact ⟨mx, ((List.max?_eq_some_iff (xs := out) (a := mx)).mp hm).1, not_lt.mp hgt⟩
        · exact h6 j' hlt hj2

end Pmesh
