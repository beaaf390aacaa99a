import Verif.Model.Rotator
import Mathlib.Data.List.Basic
import Mathlib.Tactic.Common
import Mathlib.Tactic.Ring

namespace Pmesh

/-- `n` barriers. -/
def rotBarriers (n : ℕ) : List RotOp := (List.replicate n rotBarrier).flatten

theorem rotBarriers_succ (n : ℕ) : rotBarriers (n + 1) = RotOp.arrive :: RotOp.leave :: rotBarriers n := by
  rw [rotBarriers, List.replicate_succ, List.flatten_cons]
  rfl

theorem rotBarriers_append (m n : ℕ) : rotBarriers m ++ rotBarriers n = rotBarriers (m + n) := by
  rw [rotBarriers, rotBarriers, rotBarriers, List.replicate_add, List.flatten_append]

theorem flatMap_barrier (l : List ℕ) : (l.flatMap fun _ => rotBarrier) = rotBarriers l.length := by
  induction l with
  | nil => rfl
  | cons a l ih => rw [List.flatMap_cons, ih, List.length_cons, rotBarriers_succ]; rfl

theorem rotEnter_eq (r : ℕ) : rotEnter r = rotBarriers (1 + r) := by
  rw [rotEnter, flatMap_barrier, List.length_range, ← rotBarriers_append]
  rfl

theorem rotExit_eq (size r : ℕ) : rotExit size r = rotBarriers (size - r + 1) := by
  rw [rotExit, flatMap_barrier, List.length_range', ← rotBarriers_append]
  rfl

theorem rotBarriers_length (n : ℕ) : (rotBarriers n).length = 2 * n := by
  induction n with
  | zero => rfl
  | succ n ih => rw [rotBarriers_succ]; simp [ih]; ring

theorem count_arrive (n i : ℕ) : ((rotBarriers n).take i).count RotOp.arrive = min ((i + 1) / 2) n := by
  induction n generalizing i with
  | zero => simp [rotBarriers]
  | succ n ih =>
    rw [rotBarriers_succ]
    rcases i with _ | _ | i
    · simp
    · simp
    · simp only [List.take_succ_cons, List.count_cons, ih, beq_self_eq_true, if_true]
      simp only [beq_iff_eq, reduceCtorEq, if_false]
      omega

theorem count_leave (n i : ℕ) : ((rotBarriers n).take i).count RotOp.leave = min (i / 2) n := by
  induction n generalizing i with
  | zero => simp [rotBarriers]
  | succ n ih =>
    rw [rotBarriers_succ]
    rcases i with _ | _ | i
    · simp
    · simp
    · simp only [List.take_succ_cons, List.count_cons, ih, beq_self_eq_true, if_true]
      simp only [beq_iff_eq, reduceCtorEq, if_false]
      omega

theorem count_work_barriers (n i : ℕ) : ((rotBarriers n).take i).count RotOp.work = 0 := by
  induction n generalizing i with
  | zero => simp [rotBarriers]
  | succ n ih =>
    rw [rotBarriers_succ]
    rcases i with _ | _ | i
    · simp
    · simp
    · simp [List.take_succ_cons, List.count_cons, ih]

theorem getElem_barriers (n i : ℕ) : (rotBarriers n)[i]? = if i < 2 * n then some (if i % 2 = 0 then RotOp.arrive else RotOp.leave) else none := by
  induction n generalizing i with
  | zero => simp [rotBarriers]
  | succ n ih =>
    rw [rotBarriers_succ]
    rcases i with _ | _ | i
    · simp
    · simp; omega
    · simp only [List.getElem?_cons_succ, ih]
      have h1 : (i + 1 + 1) % 2 = i % 2 := by omega
      have h2 : i < 2 * n ↔ i + 1 + 1 < 2 * (n + 1) := by omega
      simp only [h1, h2]

theorem rotProg_eq (size : ℕ) (w : ℕ → ℕ) (r : ℕ) :
    rotProg size w r = rotBarriers (1 + r) ++ List.replicate (w r) RotOp.work ++ rotBarriers (size - r + 1) := by
  rw [rotProg, rotEnter_eq, rotExit_eq]

theorem rotProg_length (size : ℕ) (w : ℕ → ℕ) (r : ℕ) : (rotProg size w r).length = 2 * (1 + r) + w r + 2 * (size - r + 1) := by
  simp [rotProg_eq, rotBarriers_length, Nat.add_assoc]

theorem rotDone_arrive (size : ℕ) (w : ℕ → ℕ) (s : ℕ → ℕ) (r : ℕ) :
    (rotDone size w s r).count RotOp.arrive = min ((s r + 1) / 2) (1 + r) + min ((s r - (2 * (1 + r) + w r) + 1) / 2) (size - r + 1) := by
  simp only [rotDone, rotProg_eq, List.take_append, List.count_append, count_arrive, rotBarriers_length, List.length_append, List.length_replicate,
    List.take_replicate, List.count_replicate]
  simp

theorem rotDone_leave (size : ℕ) (w : ℕ → ℕ) (s : ℕ → ℕ) (r : ℕ) :
    (rotDone size w s r).count RotOp.leave = min (s r / 2) (1 + r) + min ((s r - (2 * (1 + r) + w r)) / 2) (size - r + 1) := by
  simp only [rotDone, rotProg_eq, List.take_append, List.count_append, count_leave, rotBarriers_length, List.length_append, List.length_replicate,
    List.take_replicate, List.count_replicate]
  simp

theorem rotDone_work (size : ℕ) (w : ℕ → ℕ) (s : ℕ → ℕ) (r : ℕ) :
    (rotDone size w s r).count RotOp.work = min (s r - 2 * (1 + r)) (w r) := by
  simp only [rotDone, rotProg_eq, List.take_append, List.count_append, count_work_barriers, rotBarriers_length, List.length_append, List.length_replicate,
    List.take_replicate, List.count_replicate]
  simp

theorem rotProg_get (size : ℕ) (w : ℕ → ℕ) (r i : ℕ) :
    (rotProg size w r)[i]? =
      if i < 2 * (1 + r) then some (if i % 2 = 0 then RotOp.arrive else RotOp.leave)
      else if i < 2 * (1 + r) + w r then some RotOp.work
      else if i < 2 * (1 + r) + w r + 2 * (size - r + 1) then some (if (i - (2 * (1 + r) + w r)) % 2 = 0 then RotOp.arrive else RotOp.leave)
      else none := by
  rw [rotProg_eq]
  by_cases h1 : i < 2 * (1 + r)
  · rw [if_pos h1, List.append_assoc, List.getElem?_append_left (by rw [rotBarriers_length]; exact h1), getElem_barriers, if_pos h1]
  · rw [if_neg h1]
    by_cases h2 : i < 2 * (1 + r) + w r
    · rw [if_pos h2, List.getElem?_append_left (by simp [rotBarriers_length]; omega), List.getElem?_append_right (by rw [rotBarriers_length]; omega)]
      rw [List.getElem?_replicate, if_pos (by rw [rotBarriers_length]; omega)]
    · rw [if_neg h2, List.getElem?_append_right (by simp [rotBarriers_length]; omega), getElem_barriers]
      simp only [List.length_append, rotBarriers_length, List.length_replicate]
      by_cases h3 : i < 2 * (1 + r) + w r + 2 * (size - r + 1)
      · rw [if_pos h3, if_pos (by omega)]
      · rw [if_neg h3, if_neg (by omega)]

/-- No rank has left a barrier that another has not arrived at. -/
theorem rot_inv {size : ℕ} {w : ℕ → ℕ} {s : ℕ → ℕ} (h : RotReach size w s) :
    (∀ r, s r ≤ (rotProg size w r).length) ∧
    ∀ r < size, ∀ r' < size, (rotDone size w s r).count RotOp.leave ≤ (rotDone size w s r').count RotOp.arrive := by
  induction h with
  | start => simp [rotDone]
  | @step s h r hr he ih =>
    obtain ⟨op, hop, hen⟩ := he
    obtain ⟨ih1, ih2⟩ := ih
    have hlt : s r < (rotProg size w r).length := (List.getElem?_eq_some_iff.1 hop).1
    have done_self : rotDone size w (Function.update s r (s r + 1)) r = rotDone size w s r ++ [op] := by
      simp only [rotDone, Function.update_self]
      rw [List.take_add_one, hop]
      rfl
    have done_other : ∀ r', r' ≠ r → rotDone size w (Function.update s r (s r + 1)) r' = rotDone size w s r' := by
      intro r' hne
      simp only [rotDone, Function.update_of_ne hne]
    refine ⟨fun r' => ?_, fun r₁ h₁ r₂ h₂ => ?_⟩
    · by_cases e : r' = r
      · subst e
        rw [Function.update_self]
        exact hlt
      · rw [Function.update_of_ne e]
        exact ih1 r'
    · have mono : (rotDone size w s r₂).count RotOp.arrive ≤ (rotDone size w (Function.update s r (s r + 1)) r₂).count RotOp.arrive := by
        by_cases e : r₂ = r
        · subst e
          rw [done_self, List.count_append]
          omega
        · rw [done_other _ e]
      refine le_trans ?_ mono
      by_cases e : r₁ = r
      · subst e
        rw [done_self, List.count_append]
        by_cases hop' : op = RotOp.leave
        · have hA := hen hop' r₂ h₂
          subst hop'
          -- one more barrier was arrived at than left
          rw [rotProg_get] at hop
          rw [rotDone_arrive] at hA
          rw [rotDone_leave]
          simp only [List.count_singleton_self]
          split_ifs at hop with c1 c2 c3 c4 c5
          all_goals simp at hop
          all_goals omega
        · have : List.count RotOp.leave [op] = 0 := by
            rw [List.count_eq_zero]
            simpa using fun h => hop' h.symm
          rw [this]
          exact ih2 r₁ h₁ r₂ h₂
      · rw [done_other _ e]
        exact ih2 r₁ h₁ r₂ h₂

end Pmesh
