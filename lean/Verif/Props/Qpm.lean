import Mathlib.Data.Rat.Floor
import Mathlib.Tactic.NormNum
import Verif.Lemmas.Qpm

/-!
# C112: the leap-frog solver keeps positions, velocities and forces in step, and asks for the snapshots

`qRun l d aout` is what `QPM.run` does for the start `a0 = exp l`, the output times `exp aout` and the step `d` (0.1 in the code).
-/

namespace Pmesh

variable {K : Type*} [Field K] [LinearOrder K] [IsStrictOrderedRing K] [FloorRing K]

theorem sorted_mergeSort (xs : List K) : (xs.mergeSort (· ≤ ·)).Pairwise (· ≤ ·) := by
  have := List.pairwise_mergeSort (le := fun a b : K => decide (a ≤ b)) (fun a b c h1 h2 => by
    simp only [decide_eq_true_eq] at *; exact h1.trans h2) (fun a b => by
    simp only [Bool.or_eq_true, decide_eq_true_eq]; exact le_total a b) xs
  exact this.imp (fun h => by simpa using h)

theorem qRun_eq {l d : K} (hl : l < 0) (hd : 0 < d) (aout : List K) :
    qRun l d aout = qLoop (aout.mergeSort (· ≤ ·)) none ((List.range' 0 (⌈-l / d⌉.toNat + 1)).map fun i : ℕ => l + (i : K) * d) := by
  unfold qRun
  rw [qTimesteps_eq hl hd, List.range_eq_range']

/-- **C112, the scheme.** Whatever the output times, a run that starts with positions and velocities at the same time is a leap-frog:
every kick begins where the last one ended, is half a step long, and the force it uses is that of one of its ends; every drift begins where the
last one ended, and uses the velocities of the middle of the step.  Whenever the caller is told that a step is done, and at the end, positions,
velocities and forces are those of the time told; whenever a snapshot is asked for, the positions are those of the time told. -/
theorem C112_leapfrog {l d : K} (hl : l < 0) (hd : 0 < d) (aout : List K) : QClock d (qRun l d aout).ops l l l none := by
  have hc := times_chain l d (⌈-l / d⌉.toNat + 1) 0
  have e0 : l + ((0 : ℕ) : K) * d = l := by simp
  rw [times_cons, e0] at hc
  rw [qRun_eq hl hd, times_cons, e0]
  exact clock_qLoop (sorted_mergeSort aout) hd _ _ none _ _ _ hc (Or.inl ⟨rfl, rfl⟩)

/-- **C112, the end.** With at least one output time, the run raises nothing; it tells the caller the steps `l, l + d, l + 2d, …` one after the other,
and ends at the first one that is later than all output times, or at the first one that is not before today (`a ≥ 1`). -/
theorem C112_ends {l d : K} (hl : l < 0) (hd : 0 < d) {aout : List K} (hne : aout ≠ []) :
    (qRun l d aout).err = none ∧ ∃ (j : ℕ) (ops : List (QOp K)), (qRun l d aout).ops = ops ++ [.finished (l + (j : K) * d)] ∧
      qDones (qRun l d aout).ops = (List.range j).map (fun i : ℕ => l + (i : K) * d) ∧
      (∀ i < j, l + (i : K) * d < 0 ∧ ∃ o ∈ aout, l + (i : K) * d ≤ o) ∧
      (0 ≤ l + (j : K) * d ∨ ∀ o ∈ aout, o < l + (j : K) * d) := by
  have hp := List.mergeSort_perm aout (fun a b : K => decide (a ≤ b))
  have hne' : aout.mergeSort (· ≤ ·) ≠ [] := fun h => hne (by rw [h] at hp; exact hp.symm.eq_nil)
  rw [qRun_eq hl hd]
  obtain ⟨he, j, ops, _, h2, h3, h4, h5, h6⟩ := ends_qLoop (l := l) (d := d) hne' ⌈-l / d⌉.toNat 0 none
  refine ⟨he, j, ops, h3, ?_, ?_, ?_⟩
  · rw [h3, qDones_append, h4]
    simp [qDones, List.range_eq_range']
  · intro i hi
    constructor
    · have h1 : ((i : ℤ) : K) < -l / d := by rw [← Int.lt_ceil]; omega
      rw [lt_div_iff₀ hd] at h1
      push_cast at h1
      linarith
    · obtain ⟨o, ho, h⟩ := h6 i (Nat.zero_le i) hi
      exact ⟨o, hp.mem_iff.mp ho, h⟩
  · rcases h5 with h5 | h5
    · left
      have h1 : -l / d ≤ ((j : ℤ) : K) := by rw [← Int.ceil_le]; omega
      rw [div_le_iff₀ hd] at h1
      push_cast at h1
      linarith
    · right
      intro o ho
      exact h5 o (hp.mem_iff.mpr ho)

theorem qWrites_run {l d : K} (hl : l < 0) (hd : 0 < d) {aout : List K} (hne : aout ≠ []) :
    qWrites (qRun l d aout).ops = (List.range ⌈-l / d⌉.toNat).flatMap fun i : ℕ =>
      inStep (aout.mergeSort (· ≤ ·)) (l + (i : K) * d) (l + ((i : K) + 1) * d) := by
  have hp := List.mergeSort_perm aout (fun a b : K => decide (a ≤ b))
  have hne' : aout.mergeSort (· ≤ ·) ≠ [] := fun h => hne (by rw [h] at hp; exact hp.symm.eq_nil)
  rw [qRun_eq hl hd, writes_qLoop (sorted_mergeSort aout) hne' hd, List.range_eq_range']

/-- **C112, the snapshots.** Snapshots are asked for in the order of time, and each output time as often as it is given, times the number of steps
between the start and the end that contain it, ends included. -/
theorem C112_snapshots {l d : K} (hl : l < 0) (hd : 0 < d) {aout : List K} (hne : aout ≠ []) :
    (qWrites (qRun l d aout).ops).Pairwise (· ≤ ·) ∧
      ∀ o, (qWrites (qRun l d aout).ops).count o = aout.count o * stepsWith l d ⌈-l / d⌉.toNat o := by
  rw [qWrites_run hl hd hne]
  constructor
  · rw [List.pairwise_flatMap]
    refine ⟨fun i _ => (sorted_mergeSort aout).filter _, ?_⟩
    refine (List.pairwise_lt_range).imp ?_
    intro i j hij a ha b hb
    have h1 := (List.mem_filter.mp ha).2
    have h2 := (List.mem_filter.mp hb).2
    simp only [decide_eq_true_eq] at h1 h2
    have h3 : (i : K) + 1 ≤ j := by exact_mod_cast hij
    nlinarith [h1.2, h2.1]
  · intro o
    rw [stepsWith]
    generalize List.range ⌈-l / d⌉.toNat = idx
    induction idx with
    | nil => simp
    | cons i idx ih =>
      rw [List.flatMap_cons, List.count_append, ih, List.countP_cons, inStep]
      have hp := (List.mergeSort_perm aout (fun a b : K => decide (a ≤ b))).count_eq o
      by_cases h : l + (i : K) * d ≤ o ∧ o ≤ l + ((i : K) + 1) * d
      · rw [List.count_filter (by simpa using h), hp]
        simp only [h, and_self, decide_true, if_true]
        ring
      · have h0 : (List.filter (fun o => decide (l + (i : K) * d ≤ o ∧ o ≤ l + ((i : K) + 1) * d))
            (aout.mergeSort (· ≤ ·))).count o = 0 := by
          rw [List.count_eq_zero]
          intro hm
          exact h (by simpa using (List.mem_filter.mp hm).2)
        rw [h0]
        simp only [h, decide_false, Bool.false_eq_true, if_false, Nat.zero_add, Nat.add_zero]

theorem stepsWith_one {l d : K} (hd : 0 < d) {o : K} (h0 : l ≤ o) : ∀ n : ℕ, o ≤ l + (n : K) * d → 0 < n →
    (∀ i : ℕ, 0 < i → i < n → o ≠ l + (i : K) * d) → stepsWith l d n o = 1
  | 0, _, h, _ => absurd h (lt_irrefl 0)
  | n + 1, h, _, hb => by
    rw [stepsWith, List.range_succ, List.countP_append, List.countP_singleton]
    change stepsWith l d n o + _ = 1
    have hbig : ∀ m : ℕ, m ≤ n → l + (m : K) * d < o → stepsWith l d m o = 0 := by
      intro m _ hlt
      rw [stepsWith, List.countP_eq_zero]
      intro i hi
      rw [List.mem_range] at hi
      have h3 : (i : K) + 1 ≤ m := by exact_mod_cast hi
      simp only [decide_eq_true_eq, not_and_or, not_le]
      right
      nlinarith
    rcases lt_or_ge (l + (n : K) * d) o with hlt | hge
    · rw [hbig n le_rfl hlt, if_pos]
      simp only [decide_eq_true_eq]
      exact ⟨hlt.le, by push_cast at h; exact h⟩
    · rcases Nat.eq_zero_or_pos n with rfl | hn
      · have : stepsWith l d 0 o = 0 := rfl
        rw [this, if_pos]
        simp only [decide_eq_true_eq]
        refine ⟨by simpa using h0, by simpa using h⟩
      · have hne := hb n hn (Nat.lt_succ_self n)
        rw [stepsWith_one hd h0 n hge hn (fun i hi hin => hb i hi (by omega)), if_neg]
        simp only [decide_eq_true_eq, not_and_or, not_le]
        left
        exact lt_of_le_of_ne hge hne

/-- **C112, each snapshot once.** If the output times are between the start and today, and none of them is the time of a step other than the first
and the last, the snapshots asked for are exactly the output times in the order of time.
Partial: output times at a step are asked for twice (`C112_violated_twice`). -/
theorem C112_each_once_partial {l d : K} (hl : l < 0) (hd : 0 < d) {aout : List K} (hne : aout ≠ [])
    (hin : ∀ o ∈ aout, l ≤ o ∧ o ≤ 0) (hoff : ∀ o ∈ aout, ∀ i : ℕ, 0 < i → l + (i : K) * d < 0 → o ≠ l + (i : K) * d) :
    (qWrites (qRun l d aout).ops).Perm aout ∧ (qWrites (qRun l d aout).ops).Pairwise (· ≤ ·) := by
  obtain ⟨hs, hc⟩ := C112_snapshots hl hd hne
  refine ⟨?_, hs⟩
  rw [List.perm_iff_count]
  intro o
  rw [hc]
  by_cases ho : o ∈ aout
  · have hlast : 0 ≤ l + ((⌈-l / d⌉.toNat : ℕ) : K) * d := by
      have h1 : -l / d ≤ ((⌈-l / d⌉.toNat : ℤ) : K) := by rw [← Int.ceil_le]; omega
      rw [div_le_iff₀ hd] at h1
      push_cast at h1
      linarith
    have hpos : 0 < ⌈-l / d⌉.toNat := by
      have : 0 < -l / d := div_pos (by linarith) hd
      have h := Int.ceil_pos.mpr this
      omega
    rw [stepsWith_one hd (hin o ho).1 _ ((hin o ho).2.trans hlast) hpos, Nat.mul_one]
    intro i hi hin'
    refine hoff o ho i hi ?_
    have h1 : ((i : ℤ) : K) < -l / d := by rw [← Int.lt_ceil]; omega
    rw [lt_div_iff₀ hd] at h1
    push_cast at h1
    linarith
  · rw [List.count_eq_zero.mpr ho, Nat.zero_mul]

/-- **C112 fails at the steps.** The caller is asked twice to write a snapshot at the time of a step between the start and the end, once before and
once after the notice that this step is done; with the velocities of two different times. -/
theorem C112_violated_twice {l d : K} (hd : 0 < d) (i : ℕ) (hi : 0 < i) (h : l + (i : K) * d < 0) :
    (qWrites (qRun l d [l + (i : K) * d]).ops) = [l + (i : K) * d, l + (i : K) * d] := by
  have hl : l < 0 := by
    have : (0 : K) < i := by exact_mod_cast hi
    nlinarith
  obtain ⟨hs, hc⟩ := C112_snapshots hl hd (aout := [l + (i : K) * d]) (by simp)
  have hi' : i < ⌈-l / d⌉.toNat := by
    have h1 : ((i : ℤ) : K) < -l / d := by
      rw [lt_div_iff₀ hd]; push_cast; linarith
    rw [← Int.lt_ceil] at h1
    omega
  have h2 : stepsWith l d ⌈-l / d⌉.toNat (l + (i : K) * d) = 2 := by
    have hcongr : stepsWith l d ⌈-l / d⌉.toNat (l + (i : K) * d) =
        (List.range ⌈-l / d⌉.toNat).countP (fun j => decide (j = i - 1 ∨ j = i)) := by
      apply List.countP_congr
      intro j _
      have e1 : (l + (j : K) * d ≤ l + (i : K) * d) ↔ j ≤ i := by
        rw [add_le_add_iff_left, mul_le_mul_iff_of_pos_right hd]; exact Nat.cast_le
      have e2 : (l + (i : K) * d ≤ l + ((j : K) + 1) * d) ↔ i ≤ j + 1 := by
        rw [add_le_add_iff_left, mul_le_mul_iff_of_pos_right hd]; exact_mod_cast Nat.cast_le (α := K)
      simp only [decide_eq_true_eq, e1, e2]
      omega
    rw [hcongr]
    have hsplit : ∀ n, n ≥ i + 1 → (List.range n).countP (fun j => decide (j = i - 1 ∨ j = i)) = 2 := by
      intro n hn
      induction n, hn using Nat.le_induction with
      | base =>
        obtain ⟨m, rfl⟩ : ∃ m, i = m + 1 := ⟨i - 1, by omega⟩
        rw [List.range_succ, List.range_succ, List.countP_append, List.countP_append, List.countP_eq_zero.mpr]
        · simp
        · intro j hj
          rw [List.mem_range] at hj
          simp only [decide_eq_true_eq]
          omega
      | succ n hn ih =>
        rw [List.range_succ, List.countP_append, ih, List.countP_singleton, if_neg]
        simp only [decide_eq_true_eq]
        omega
    exact hsplit _ hi'
  have hrep : (qWrites (qRun l d [l + (i : K) * d]).ops).Perm (List.replicate 2 (l + (i : K) * d)) := by
    rw [List.perm_iff_count]
    intro o
    rw [hc, List.count_replicate]
    by_cases ho : o = l + (i : K) * d
    · subst ho; simp [h2]
    · simp [ho, Ne.symm ho]
  exact List.perm_replicate.mp hrep

/-- **C112 fails for early output times.** A snapshot before the start is never asked for, and nothing is raised. -/
theorem C112_violated_early {l d : K} (hl : l < 0) (hd : 0 < d) {aout : List K} (o : K) (ho : o ∈ aout) (h : o < l) :
    o ∉ qWrites (qRun l d aout).ops ∧ (qRun l d aout).err = none := by
  have hne : aout ≠ [] := List.ne_nil_of_mem ho
  refine ⟨?_, (C112_ends hl hd hne).1⟩
  rw [← List.count_eq_zero, (C112_snapshots hl hd hne).2 o]
  have : stepsWith l d ⌈-l / d⌉.toNat o = 0 := by
    rw [stepsWith, List.countP_eq_zero]
    intro i _
    have : (0 : K) ≤ (i : K) * d := by positivity
    simp only [decide_eq_true_eq, not_and_or, not_le]
    left
    linarith
  rw [this, Nat.mul_zero]

/-- **C112 fails for the default argument.** Without output times (`aout=[]`) the run computes the first force and raises a `ValueError`. -/
theorem C112_violated_no_output {l d : K} (hl : l < 0) (hd : 0 < d) : (qRun l d []).ops = [.accel] ∧ (qRun l d []).err = some .valueError := by
  have hpos : 0 < ⌈-l / d⌉.toNat := by
    have : 0 < -l / d := div_pos (by linarith) hd
    have h := Int.ceil_pos.mpr this
    omega
  obtain ⟨n, hn⟩ : ∃ n, ⌈-l / d⌉.toNat = n + 1 := ⟨_, (Nat.succ_pred_eq_of_pos hpos).symm⟩
  rw [qRun_eq hl hd, hn, times_cons, times_cons, List.mergeSort_nil]
  constructor <;> rfl

/-- **C112 fails for a start today or later.** The run raises an `IndexError` before anything is done. -/
theorem C112_violated_late {l d : K} (hl : 0 ≤ l) (hd : 0 < d) (aout : List K) : qRun l d aout = ⟨[], some .indexError⟩ := by
  have : ⌈(0 - l) / d⌉.toNat = 0 := by
    have : (0 - l) / d ≤ 0 := div_nonpos_of_nonpos_of_nonneg (by linarith) hd.le
    have := Int.ceil_nonpos.mpr this
    omega
  unfold qRun qTimesteps qArange
  rw [this]
  rfl

theorem qWrapUp_spec {L : K} (hL : 0 < L) : ∀ (n : ℕ) (x : K), -x ≤ (n : K) * L →
    0 ≤ qWrapUp L (n + 1) x ∧ ∃ k : ℕ, qWrapUp L (n + 1) x = x + (k : K) * L ∧ (k ≠ 0 → qWrapUp L (n + 1) x < L)
  | 0, x, h => by
    have hx : 0 ≤ x := by push_cast at h; linarith
    rw [qWrapUp, if_neg (not_lt.mpr hx)]
    exact ⟨hx, 0, by simp, fun h => absurd rfl h⟩
  | n + 1, x, h => by
    rw [qWrapUp]
    split_ifs with hx
    · obtain ⟨h1, k, h2, h3⟩ := qWrapUp_spec hL n (x + L) (by push_cast at h; linarith)
      refine ⟨h1, k + 1, by rw [h2]; push_cast; ring, fun _ => ?_⟩
      by_cases hk : k = 0
      · rw [h2, hk]; push_cast; linarith
      · exact h3 hk
    · exact ⟨not_lt.mp hx, 0, by simp, fun h => absurd rfl h⟩

theorem qWrapDown_spec {L : K} (hL : 0 < L) : ∀ (n : ℕ) (x : K), 0 ≤ x → x < ((n : K) + 1) * L →
    0 ≤ qWrapDown L (n + 1) x ∧ qWrapDown L (n + 1) x < L ∧ ∃ k : ℕ, qWrapDown L (n + 1) x = x - (k : K) * L
  | 0, x, h0, h => by
    have hx : x < L := by push_cast at h; linarith
    rw [qWrapDown, if_neg (not_le.mpr hx)]
    exact ⟨h0, hx, 0, by simp⟩
  | n + 1, x, h0, h => by
    rw [qWrapDown]
    split_ifs with hx
    · obtain ⟨h1, h2, k, h3⟩ := qWrapDown_spec hL n (x - L) (by linarith) (by push_cast at h; linarith)
      exact ⟨h1, h2, k + 1, by rw [h3]; push_cast; ring⟩
    · exact ⟨h0, not_le.mp hx, 0, by simp⟩

/-- **C112, the box.** A drift leaves every coordinate in the box, at the place where the straight line ends, up to a multiple of the box;
for any coordinates, also far outside of the box, and any factor. -/
theorem C112_drift_wraps {L : K} (hL : 0 < L) (dt x v : K) :
    0 ≤ qDriftCoord L dt x v ∧ qDriftCoord L dt x v < L ∧ ∃ k : ℤ, qDriftCoord L dt x v = x + v * dt + (k : K) * L := by
  unfold qDriftCoord
  dsimp only
  generalize x + v * dt = y
  have h1 : -y ≤ ((⌈-y / L⌉.toNat : ℕ) : K) * L := by
    have : -y / L ≤ ((⌈-y / L⌉.toNat : ℤ) : K) := by rw [← Int.ceil_le]; omega
    rw [div_le_iff₀ hL] at this
    exact_mod_cast this
  obtain ⟨hz, k, hk, _⟩ := qWrapUp_spec hL _ y h1
  generalize qWrapUp L (⌈-y / L⌉.toNat + 1) y = z at hz hk
  have h2 : z < (((⌈z / L⌉.toNat : ℕ) : K) + 1) * L := by
    have : z / L ≤ ((⌈z / L⌉.toNat : ℤ) : K) := by rw [← Int.ceil_le]; omega
    rw [div_le_iff₀ hL] at this
    push_cast at this
    linarith
  obtain ⟨h3, h4, j, hj⟩ := qWrapDown_spec hL _ z hz h2
  refine ⟨h3, h4, (k : ℤ) - j, ?_⟩
  rw [hj, hk]
  push_cast
  ring

/-! The hypotheses can be met: a start at `loga = -3/10` with steps of 1/10, and two output times, one of them in the middle of a step. -/

example : (qRun (-3/10 : ℚ) (1/10) [0, -1/4]).err = none ∧ qWrites (qRun (-3/10 : ℚ) (1/10) [0, -1/4]).ops = [-1/4, 0] := by
  have hin : ∀ o ∈ ([0, -1/4] : List ℚ), (-3/10 : ℚ) ≤ o ∧ o ≤ 0 := by
    intro o ho
    simp only [List.mem_cons, List.not_mem_nil, or_false] at ho
    rcases ho with rfl | rfl <;> norm_num
  obtain ⟨h1, h2⟩ := C112_each_once_partial (l := (-3/10 : ℚ)) (d := 1/10) (by norm_num) (by norm_num) (aout := [0, -1/4]) (by simp) hin
    (by
      intro o ho i _ hi he
      simp only [List.mem_cons, List.not_mem_nil, or_false] at ho
      rcases ho with rfl | rfl
      · rw [← he] at hi; exact lt_irrefl _ hi
      · have h3 : (i : ℚ) * 2 = 1 := by linarith
        have h4 : i * 2 = 1 := by exact_mod_cast h3
        omega)
  refine ⟨(C112_ends (by norm_num) (by norm_num) (by simp)).1, ?_⟩
  refine (h1.trans (List.Perm.swap _ _ _)).eq_of_pairwise (le := (· ≤ ·)) (fun a b _ _ => le_antisymm) h2 (by norm_num)

/-- A snapshot at the time of the second step. -/
example : qWrites (qRun (-3/10 : ℚ) (1/10) [-3/10 + ((1 : ℕ) : ℚ) * (1/10)]).ops = [-3/10 + ((1 : ℕ) : ℚ) * (1/10), -3/10 + ((1 : ℕ) : ℚ) * (1/10)] :=
  C112_violated_twice (by norm_num) 1 (by norm_num) (by norm_num)

example : qDriftCoord (10 : ℚ) 1 3 (-28) = 5 := by
  obtain ⟨h1, h2, k, h3⟩ := C112_drift_wraps (L := (10 : ℚ)) (by norm_num) 1 3 (-28)
  rw [h3] at h1 h2 ⊢
  have a : (2 : ℚ) < k := by linarith
  have b : (k : ℚ) < 4 := by linarith
  have a' : 2 < k := by exact_mod_cast a
  have b' : k < 4 := by exact_mod_cast b
  have : k = 3 := by omega
  subst this
  norm_num

#print axioms C112_leapfrog
#print axioms C112_ends
#print axioms C112_snapshots
#print axioms C112_each_once_partial
#print axioms C112_violated_twice
#print axioms C112_violated_early
#print axioms C112_violated_no_output
#print axioms C112_violated_late
#print axioms C112_drift_wraps

end Pmesh
