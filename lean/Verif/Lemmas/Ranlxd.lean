import Verif.Model.Ranlxd
import Verif.Spec.Ranlxd
import Verif.Lemmas.Index
import Mathlib.Tactic.Ring
import Mathlib.Tactic.Linarith
import Mathlib.Tactic.FieldSimp
import Mathlib.Tactic.NormNum
import Mathlib.Data.List.GetD

set_option linter.unusedSectionVars false

namespace Pmesh

/-- The sequence: words so far and borrow after `n` steps. -/
def swbRun (w : ℕ → ℤ) : ℕ → (ℕ → ℤ) × ℤ
  | 0 => (w, 0)
  | n + 1 =>
    let s := swbRun w n
    let y := s.1 (n + 7) - s.1 n - s.2
    (fun m => if m = n + 12 then (if y < 0 then y + 2 ^ 48 else y) else s.1 m, if y < 0 then 1 else 0)

def swbX (w : ℕ → ℤ) (n : ℕ) : ℤ := (swbRun w n).1 n
def swbC (w : ℕ → ℤ) (n : ℕ) : ℤ := (swbRun w n).2

theorem swbRun_stable (w : ℕ → ℤ) (n k m : ℕ) (h : m < n + 12) : (swbRun w (n + k)).1 m = (swbRun w n).1 m := by
  induction k with
  | zero => rfl
  | succ k ih =>
    rw [← ih]
    show (if m = n + k + 12 then _ else (swbRun w (n + k)).1 m) = _
    rw [if_neg (by omega)]

theorem swbRun_eq (w : ℕ → ℤ) (n m : ℕ) (h : m < n + 12) : (swbRun w n).1 m = swbX w m := by
  unfold swbX
  rcases Nat.le_total n m with h1 | h1
  · obtain ⟨k, rfl⟩ := Nat.exists_eq_add_of_le h1
    exact (swbRun_stable w n k _ h).symm
  · obtain ⟨k, rfl⟩ := Nat.exists_eq_add_of_le h1
    exact swbRun_stable w m k _ (by omega)

theorem swbX_first (w : ℕ → ℤ) (n : ℕ) (h : n < 12) : swbX w n = w n := (swbRun_eq w 0 n (by omega)).symm

theorem swb_borrow (w : ℕ → ℤ) (n : ℕ) : swbC w (n + 1) = if swbX w (n + 7) - swbX w n - swbC w n < 0 then 1 else 0 := by
  show (if (swbRun w n).1 (n + 7) - (swbRun w n).1 n - (swbRun w n).2 < 0 then (1 : ℤ) else 0) = _
  rw [swbRun_eq w n (n + 7) (by omega)]
  rfl

theorem swb_word (w : ℕ → ℤ) (n : ℕ) :
    swbX w (n + 12) = swbX w (n + 7) - swbX w n - swbC w n + 2 ^ 48 * swbC w (n + 1) := by
  rw [swb_borrow, ← swbRun_eq w (n + 1) (n + 12) (by omega)]
  show (if n + 12 = n + 12 then (if (swbRun w n).1 (n + 7) - (swbRun w n).1 n - (swbRun w n).2 < 0 then
    (swbRun w n).1 (n + 7) - (swbRun w n).1 n - (swbRun w n).2 + 2 ^ 48 else
    (swbRun w n).1 (n + 7) - (swbRun w n).1 n - (swbRun w n).2) else _) = _
  rw [if_pos rfl, swbRun_eq w n (n + 7) (by omega)]
  show (if swbX w (n + 7) - swbX w n - swbC w n < 0 then _ else _) = _
  split <;> simp [swbX, swbC]

theorem swb_spec (w : ℕ → ℤ) : SubtractWithBorrow (swbX w) (swbC w) := ⟨rfl, swb_word w, swb_borrow w⟩

theorem SubtractWithBorrow.bit {x c : ℕ → ℤ} (h : SubtractWithBorrow x c) (n : ℕ) : c n = 0 ∨ c n = 1 := by
  cases n with
  | zero => exact .inl h.first
  | succ n => rw [h.borrow]; split <;> simp

theorem SubtractWithBorrow.range {x c : ℕ → ℤ} (h : SubtractWithBorrow x c) (h0 : ∀ n < 12, 0 ≤ x n ∧ x n < 2 ^ 48) (n : ℕ) :
    0 ≤ x n ∧ x n < 2 ^ 48 := by
  induction n using Nat.strong_induction_on with
  | _ n ih =>
    by_cases hn : n < 12
    · exact h0 n hn
    · obtain ⟨m, rfl⟩ : ∃ m, n = m + 12 := ⟨n - 12, by omega⟩
      have h1 := ih m (by omega)
      have h2 := ih (m + 7) (by omega)
      have h3 := h.word m
      have h4 := h.borrow m
      have h5 := h.bit m
      norm_num at *
      split at h4 <;> omega

section
variable {rnd : ℚ → ℚ} (hr : ExactRounding rnd)

/-- A number of units of the last bit. -/
def unit (z : ℤ) : ℚ := (z : ℚ) / 2 ^ 48

theorem unit_sub (a b : ℤ) : unit a - unit b = unit (a - b) := by unfold unit; push_cast; ring
theorem unit_one (a : ℤ) : unit a + 1 = unit (a + 2 ^ 48) := by unfold unit; push_cast; ring
theorem unit_neg_iff (a : ℤ) : unit a < 0 ↔ a < 0 := by
  unfold unit
  rw [div_neg_iff]
  constructor
  · rintro (⟨_, h⟩ | ⟨h, _⟩)
    · norm_num at h
    · exact_mod_cast h
  · intro h
    exact .inr ⟨by exact_mod_cast h, by norm_num⟩
theorem oneBit_unit : oneBit = unit 1 := by unfold oneBit unit; norm_num
theorem unit_zero : unit 0 = 0 := by simp [unit]

include hr in
theorem rnd_unit (a : ℤ) (h : |a| ≤ 2 ^ 53) : rnd (unit a) = unit a := hr a 48 h le_rfl

/-- The twelve words with numbers from `n` on are in `xs`, each at its number modulo twelve. -/
structure Holds12 (x : ℕ → ℤ) (n : ℕ) (xs : List ℚ) : Prop where
  len : xs.length = 12
  words : ∀ m, n ≤ m → m < n + 12 → xs.getD (m % 12) 0 = unit (x m)

theorem Holds12.set {x : ℕ → ℤ} {n : ℕ} {xs : List ℚ} (h : Holds12 x n xs) (y : ℚ) (hy : y = unit (x (n + 12))) :
    Holds12 x (n + 1) (xs.set (n % 12) y) := by
  refine ⟨by rw [List.length_set, h.len], fun m h1 h2 => ?_⟩
  by_cases hm : m = n + 12
  · subst hm
    rw [show (n + 12) % 12 = n % 12 by omega, List.getD_eq_getElem _ _ (by rw [List.length_set, h.len]; omega),
      List.getElem_set_self, hy]
  · have := h.words m (by omega) (by omega)
    rw [← this, List.getD_eq_getElem _ _ (by rw [List.length_set, h.len]; omega),
      List.getD_eq_getElem _ _ (by rw [h.len]; omega), List.getElem_set_ne (by omega)]

/-- The variables after `n` steps. -/
structure RlInv (x c : ℕ → ℤ) (n : ℕ) (v : RlVars) : Prop where
  holds : Holds12 x n v.xdbl
  carry : v.carry = unit (c n)
  ir : v.ir = n % 12
  jr : v.jr = (n + 7) % 12

theorem rlNext_eq (i : ℕ) : rlNext (i % 12) = (i + 1) % 12 := by
  have h : ∀ j < 12, rlNext j = (j + 1) % 12 := by decide
  rw [h _ (by omega)]
  omega

variable {x c : ℕ → ℤ} (hx : SubtractWithBorrow x c) (hrange : ∀ n, 0 ≤ x n ∧ x n < 2 ^ 48)
include hx hrange hr

theorem rlStep_inv {n : ℕ} {v : RlVars} (h : RlInv x c n v) : RlInv x c (n + 1) (rlStep rnd v) := by
  have h1 := hrange n
  have h2 := hrange (n + 7)
  have h3 := hx.word n
  have h4 := hx.borrow n
  have h5 := hx.bit n
  have e1 : rnd (v.xdbl.getD v.jr 0 - v.xdbl.getD v.ir 0) = unit (x (n + 7) - x n) := by
    rw [h.ir, h.jr, h.holds.words n le_rfl (by omega), h.holds.words (n + 7) (by omega) (by omega), unit_sub, rnd_unit hr]
    rw [abs_le]; norm_num at *; omega
  have e2 : rnd (unit (x (n + 7) - x n) - v.carry) = unit (x (n + 7) - x n - c n) := by
    rw [h.carry, unit_sub, rnd_unit hr]
    rw [abs_le]; norm_num at *; omega
  unfold rlStep
  simp only [e1, e2]
  by_cases hneg : x (n + 7) - x n - c n < 0
  · rw [if_pos ((unit_neg_iff _).2 hneg)]
    rw [if_pos hneg] at h4
    refine ⟨?_, ?_, ?_, ?_⟩
    · simp only [h.ir]
      apply h.holds.set
      rw [unit_one, rnd_unit hr]
      · rw [h3, h4]; congr 1
      · rw [abs_le]; norm_num at *; omega
    · simp only [h4, oneBit_unit]
    · simp only [h.ir, rlNext_eq]
    · simp only [h.jr, rlNext_eq]
  · rw [if_neg (fun hh => hneg ((unit_neg_iff _).1 hh))]
    rw [if_neg hneg] at h4
    refine ⟨?_, ?_, ?_, ?_⟩
    · simp only [h.ir]
      apply h.holds.set
      rw [h3, h4]; congr 1; ring
    · simp only [h4, unit_zero]
    · simp only [h.ir, rlNext_eq]
    · simp only [h.jr, rlNext_eq]

/-- Within the unrolled loop: `y` is the next word before the borrow. -/
def Pending (x c : ℕ → ℤ) (n : ℕ) (p : List ℚ × ℚ) : Prop :=
  Holds12 x n p.1 ∧ p.2 = unit (x (n + 7) - x n - c n)

theorem ranluxStep_pending {n : ℕ} {p : List ℚ × ℚ} (h : Pending x c n p) {i1 i2 i3 : ℕ} (h1 : i1 = (n + 8) % 12)
    (h2 : i2 = (n + 1) % 12) (h3 : i3 = n % 12) : Pending x c (n + 1) (ranluxStep rnd p.2 i1 i2 i3 p.1) := by
  have r0 := hrange n
  have r1 := hrange (n + 1)
  have r7 := hrange (n + 7)
  have r8 := hrange (n + 8)
  have hw := hx.word n
  have hb := hx.borrow n
  have h5 := hx.bit n
  obtain ⟨hh, hy⟩ := h
  have e1 : rnd (p.1.getD i1 0 - p.1.getD i2 0) = unit (x (n + 8) - x (n + 1)) := by
    rw [h1, h2, hh.words (n + 8) (by omega) (by omega), hh.words (n + 1) (by omega) (by omega), unit_sub, rnd_unit hr]
    rw [abs_le]; norm_num at *; omega
  unfold ranluxStep
  simp only [e1, hy, h3]
  by_cases hneg : x (n + 7) - x n - c n < 0
  · rw [if_pos ((unit_neg_iff _).2 hneg)]
    rw [if_pos hneg] at hb
    constructor
    · apply hh.set
      rw [unit_one, rnd_unit hr]
      · rw [hw, hb]; congr 1
      · rw [abs_le]; norm_num at *; omega
    · simp only
      rw [oneBit_unit, unit_sub, rnd_unit hr, hb]
      rw [abs_le]; norm_num at *; omega
  · rw [if_neg (fun hh => hneg ((unit_neg_iff _).1 hh))]
    rw [if_neg hneg] at hb
    constructor
    · apply hh.set
      rw [hw, hb]; congr 1; ring
    · simp only
      rw [hb]; congr 1; ring

theorem rlBlock_inv {n : ℕ} {v : RlVars} (h : RlInv x c n v) (hn : n % 12 = 0) : RlInv x c (n + 12) (rlBlock rnd v) := by
  have r0 := hrange n
  have r7 := hrange (n + 7)
  have h5 := hx.bit n
  have e1 : rnd (v.xdbl.getD 7 0 - v.xdbl.getD 0 0) = unit (x (n + 7) - x n) := by
    have a1 := h.holds.words n le_rfl (by omega)
    have a2 := h.holds.words (n + 7) (by omega) (by omega)
    rw [hn] at a1
    rw [show (n + 7) % 12 = 7 by omega] at a2
    rw [a1, a2, unit_sub, rnd_unit hr]
    rw [abs_le]; norm_num at *; omega
  have p0 : Pending x c n (v.xdbl, rnd (rnd (v.xdbl.getD 7 0 - v.xdbl.getD 0 0) - v.carry)) := by
    refine ⟨h.holds, ?_⟩
    simp only
    rw [e1, h.carry, unit_sub, rnd_unit hr]
    rw [abs_le]; norm_num at *; omega
  have p1 := ranluxStep_pending hr hx hrange p0 (i1 := 8) (i2 := 1) (i3 := 0) (by omega) (by omega) (by omega)
  have p2 := ranluxStep_pending hr hx hrange p1 (i1 := 9) (i2 := 2) (i3 := 1) (by omega) (by omega) (by omega)
  have p3 := ranluxStep_pending hr hx hrange p2 (i1 := 10) (i2 := 3) (i3 := 2) (by omega) (by omega) (by omega)
  have p4 := ranluxStep_pending hr hx hrange p3 (i1 := 11) (i2 := 4) (i3 := 3) (by omega) (by omega) (by omega)
  have p5 := ranluxStep_pending hr hx hrange p4 (i1 := 0) (i2 := 5) (i3 := 4) (by omega) (by omega) (by omega)
  have p6 := ranluxStep_pending hr hx hrange p5 (i1 := 1) (i2 := 6) (i3 := 5) (by omega) (by omega) (by omega)
  have p7 := ranluxStep_pending hr hx hrange p6 (i1 := 2) (i2 := 7) (i3 := 6) (by omega) (by omega) (by omega)
  have p8 := ranluxStep_pending hr hx hrange p7 (i1 := 3) (i2 := 8) (i3 := 7) (by omega) (by omega) (by omega)
  have p9 := ranluxStep_pending hr hx hrange p8 (i1 := 4) (i2 := 9) (i3 := 8) (by omega) (by omega) (by omega)
  have p10 := ranluxStep_pending hr hx hrange p9 (i1 := 5) (i2 := 10) (i3 := 9) (by omega) (by omega) (by omega)
  have p11 := ranluxStep_pending hr hx hrange p10 (i1 := 6) (i2 := 11) (i3 := 10) (by omega) (by omega) (by omega)
  unfold rlBlock
  simp only
  generalize ranluxStep rnd (ranluxStep rnd (ranluxStep rnd (ranluxStep rnd (ranluxStep rnd (ranluxStep rnd (ranluxStep rnd (ranluxStep rnd (ranluxStep rnd (ranluxStep rnd (ranluxStep rnd _ _ _ _ _).2 _ _ _ _).2 _ _ _ _).2 _ _ _ _).2 _ _ _ _).2 _ _ _ _).2 _ _ _ _).2 _ _ _ _).2 _ _ _ _).2 _ _ _ _).2 _ _ _ _ = q at p11 ⊢
  obtain ⟨hh, hy⟩ := p11
  have hw := hx.word (n + 11)
  have hb := hx.borrow (n + 11)
  have r0 := hrange (n + 11)
  have r7 := hrange (n + 11 + 7)
  have h5 := hx.bit (n + 11)
  rw [show n + 1 + 1 + 1 + 1 + 1 + 1 + 1 + 1 + 1 + 1 + 1 = n + 11 by omega] at hh hy
  rw [hy]
  by_cases hneg : x (n + 11 + 7) - x (n + 11) - c (n + 11) < 0
  · rw [if_pos ((unit_neg_iff _).2 hneg)]
    rw [if_pos hneg] at hb
    refine ⟨?_, ?_, ?_, ?_⟩
    · have := hh.set (rnd (unit (x (n + 11 + 7) - x (n + 11) - c (n + 11)) + 1)) (by
        rw [unit_one, rnd_unit hr]
        · rw [hw, hb]; congr 1
        · rw [abs_le]; norm_num at *; omega)
      rw [show (n + 11) % 12 = 11 by omega] at this
      exact this
    · simp only; rw [show n + 12 = n + 11 + 1 by omega, hb, oneBit_unit]
    · simp only [h.ir]; omega
    · simp only [h.jr]; omega
  · rw [if_neg (fun hh => hneg ((unit_neg_iff _).1 hh))]
    rw [if_neg hneg] at hb
    refine ⟨?_, ?_, ?_, ?_⟩
    · have := hh.set (unit (x (n + 11 + 7) - x (n + 11) - c (n + 11))) (by
        rw [hw, hb]; congr 1; ring)
      rw [show (n + 11) % 12 = 11 by omega] at this
      exact this
    · simp only; rw [show n + 12 = n + 11 + 1 by omega, hb, unit_zero]
    · simp only [h.ir]; omega
    · simp only [h.jr]; omega

theorem rlLoop1_inv (fuel : ℕ) {n k : ℕ} {v : RlVars} (h : RlInv x c n v) (hf : (12 - n % 12) % 12 < fuel) :
    ∃ n', n' = n + (12 - n % 12) % 12 ∧ RlInv x c n' (rlLoop1 rnd fuel k v).1 ∧ (rlLoop1 rnd fuel k v).2 = k + (12 - n % 12) % 12 := by
  induction fuel generalizing n k v with
  | zero => omega
  | succ fuel ih =>
    unfold rlLoop1
    by_cases hir : 0 < v.ir
    · rw [if_pos hir]
      rw [h.ir] at hir
      obtain ⟨n', h1, h2, h3⟩ := ih (k := k + 1) (rlStep_inv hr hx hrange h) (by omega)
      exact ⟨n', by omega, h2, by rw [h3]; omega⟩
    · rw [if_neg hir]
      rw [h.ir] at hir
      exact ⟨n, by omega, h, by simp only; omega⟩

theorem rlLoop2_inv (pr fuel : ℕ) {n k : ℕ} {v : RlVars} (h : RlInv x c n v) (hn : n % 12 = 0) (hk : k ≤ pr) (hf : pr - k < fuel) :
    ∃ j, k + j ≤ pr ∧ RlInv x c (n + j) (rlLoop2 rnd pr fuel k v).1 ∧ (rlLoop2 rnd pr fuel k v).2 = k + j := by
  induction fuel generalizing n k v with
  | zero => omega
  | succ fuel ih =>
    unfold rlLoop2
    by_cases hle : (k : ℤ) ≤ (pr : ℤ) - 12
    · rw [if_pos hle]
      obtain ⟨j, h1, h2, h3⟩ := ih (k := k + 12) (rlBlock_inv hr hx hrange h hn) (by omega) (by omega) (by omega)
      exact ⟨12 + j, by omega, by rw [← add_assoc]; exact h2, by omega⟩
    · rw [if_neg hle]
      exact ⟨0, by omega, h, rfl⟩

theorem rlLoop3_inv (pr fuel : ℕ) {n k : ℕ} {v : RlVars} (h : RlInv x c n v) (hk : k ≤ pr) (hf : pr - k < fuel) :
    RlInv x c (n + (pr - k)) (rlLoop3 rnd pr fuel k v).1 := by
  induction fuel generalizing n k v with
  | zero => omega
  | succ fuel ih =>
    unfold rlLoop3
    by_cases hlt : k < pr
    · rw [if_pos hlt]
      have := ih (k := k + 1) (rlStep_inv hr hx hrange h) (by omega) (by omega)
      rw [show n + (pr - k) = n + 1 + (pr - (k + 1)) by omega]
      exact this
    · rw [if_neg hlt]
      rw [show n + (pr - k) = n by omega]
      exact h

/-- `increment_state` makes `pr` steps. -/
theorem incrementState_inv {n : ℕ} {s : RlState} (h : RlInv x c n s.toRlVars) (hpr : 11 ≤ s.pr) :
    RlInv x c (n + s.pr) (incrementState rnd s).toRlVars ∧ (incrementState rnd s).irOld = (n + s.pr) % 12 ∧
      (incrementState rnd s).pr = s.pr := by
  obtain ⟨n1, e1, i1, k1⟩ := rlLoop1_inv hr hx hrange 12 (k := 0) h (by omega)
  obtain ⟨j, e2, i2, k2⟩ := rlLoop2_inv hr hx hrange s.pr (s.pr + 1) (k := (rlLoop1 rnd 12 0 s.toRlVars).2) i1 (by omega) (by omega)
    (by omega)
  have i3 := rlLoop3_inv hr hx hrange s.pr (s.pr + 1)
    (k := (rlLoop2 rnd s.pr (s.pr + 1) (rlLoop1 rnd 12 0 s.toRlVars).2 (rlLoop1 rnd 12 0 s.toRlVars).1).2) i2 (by omega) (by omega)
  rw [k2, k1] at i3
  have hn : n1 + j + (s.pr - (0 + (12 - n % 12) % 12 + j)) = n + s.pr := by omega
  rw [hn] at i3
  unfold incrementState
  simp only [k1]
  simp only [k1] at k2
  rw [k2]
  exact ⟨i3, i3.ir, trivial⟩

/-- The state between two calls: `t` of the twelve words from number `P` on have been returned. -/
structure RlAt (x c : ℕ → ℤ) (pr P t : ℕ) (s : RlState) : Prop where
  holds : Holds12 x P s.xdbl
  carry : s.carry = unit (c P)
  jr : s.jr = (P + 7) % 12
  irOld : s.irOld = P % 12
  ir : s.ir = (P + t + 11) % 12
  pr_eq : s.pr = pr

theorem rlGetDouble_inv {pr P t : ℕ} {s : RlState} (h : RlAt x c pr P t s) (hpr : 11 ≤ pr) (ht : 1 ≤ t ∧ t ≤ 12) :
    if t = 12 then (rlGetDouble rnd s).1 = unit (x (P + pr)) ∧ RlAt x c pr (P + pr) 1 (rlGetDouble rnd s).2
    else (rlGetDouble rnd s).1 = unit (x (P + t)) ∧ RlAt x c pr P (t + 1) (rlGetDouble rnd s).2 := by
  have hne : rlNext s.ir = (P + t) % 12 := by rw [h.ir, rlNext_eq]; omega
  unfold rlGetDouble
  simp only [hne, h.irOld]
  by_cases h12 : t = 12
  · subst h12
    rw [if_pos rfl, if_pos (by omega)]
    have hi : RlInv x c P (⟨⟨s.xdbl, s.carry, (P + 12) % 12, s.jr⟩, P % 12, s.pr⟩ : RlState).toRlVars :=
      ⟨h.holds, h.carry, by simp, h.jr⟩
    obtain ⟨i1, i2, i3⟩ := incrementState_inv hr hx hrange hi (by simp only [h.pr_eq]; exact hpr)
    simp only [h.pr_eq] at i1 i2 i3
    simp only [h.pr_eq]
    constructor
    · rw [i1.ir, i1.holds.words _ le_rfl (by omega)]
    · exact ⟨i1.holds, i1.carry, i1.jr, i2, by rw [i1.ir]; omega, i3⟩
  · rw [if_neg h12, if_neg (by omega)]
    constructor
    · simp only
      rw [h.holds.words (P + t) (by omega) (by omega)]
    · exact ⟨h.holds, h.carry, h.jr, rfl, by simp only; omega, h.pr_eq⟩

/-- The state before call number `n`. -/
theorem rlCalls_inv {pr : ℕ} {s : RlState} (h : RlAt x c pr 0 12 s) (hpr : 11 ≤ pr) (n : ℕ) :
    RlAt x c pr ((n + 11) / 12 * pr) ((n + 11) % 12 + 1) ((fun s => (rlGetDouble rnd s).2)^[n] s) := by
  induction n with
  | zero => simpa using h
  | succ n ih =>
    rw [Function.iterate_succ_apply']
    have := rlGetDouble_inv hr hx hrange ih hpr (by omega)
    split at this
    · rename_i h12
      have e1 : (n + 1 + 11) / 12 = (n + 11) / 12 + 1 := by omega
      have e2 : (n + 1 + 11) % 12 = 0 := by omega
      rw [e1, e2, Nat.add_mul, one_mul]
      exact this.2
    · rename_i h12
      have e1 : (n + 1 + 11) / 12 = (n + 11) / 12 := by omega
      have e2 : (n + 1 + 11) % 12 = (n + 11) % 12 + 1 := by omega
      rw [e1, e2]
      exact this.2

theorem rlValue {pr : ℕ} {s : RlState} (h : RlAt x c pr 0 12 s) (hpr : 11 ≤ pr) (n : ℕ) :
    (rlGetDouble rnd ((fun s => (rlGetDouble rnd s).2)^[n] s)).1 = unit (x ((n / 12 + 1) * pr + n % 12)) := by
  have := rlGetDouble_inv hr hx hrange (rlCalls_inv hr hx hrange h hpr n) hpr (by omega)
  split at this
  · rename_i h12
    rw [this.1]
    have e1 : n % 12 = 0 := by omega
    have e2 : (n + 11) / 12 = n / 12 := by omega
    rw [e1, e2, Nat.add_mul, one_mul, add_zero]
  · rename_i h12
    rw [this.1]
    have e1 : (n + 11) / 12 = n / 12 + 1 := by omega
    have e2 : (n + 11) % 12 + 1 = n % 12 := by omega
    rw [e1, e2]

end
end Pmesh
