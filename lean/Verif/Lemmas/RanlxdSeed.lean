import Verif.Lemmas.Ranlxd
import Mathlib.Algebra.BigOperators.Group.List.Lemmas

set_option linter.unusedSectionVars false

namespace Pmesh

def bitRun (w : ℕ → ℕ) : ℕ → ℕ → ℕ
  | 0 => w
  | n + 1 => fun m => if m = n + 31 then (bitRun w n n + bitRun w n (n + 18)) % 2 else bitRun w n m

def bitSeq (w : ℕ → ℕ) (n : ℕ) : ℕ := bitRun w n n

theorem bitRun_stable (w : ℕ → ℕ) (n k m : ℕ) (h : m < n + 31) : bitRun w (n + k) m = bitRun w n m := by
  induction k with
  | zero => rfl
  | succ k ih =>
    rw [← ih]
    show (if m = n + k + 31 then _ else bitRun w (n + k) m) = _
    rw [if_neg (by omega)]

theorem bitRun_eq (w : ℕ → ℕ) (n m : ℕ) (h : m < n + 31) : bitRun w n m = bitSeq w m := by
  unfold bitSeq
  rcases Nat.le_total n m with h1 | h1
  · obtain ⟨k, rfl⟩ := Nat.exists_eq_add_of_le h1
    exact (bitRun_stable w n k _ h).symm
  · obtain ⟨k, rfl⟩ := Nat.exists_eq_add_of_le h1
    exact bitRun_stable w m k _ (by omega)

theorem bitSeq_more (w : ℕ → ℕ) (n : ℕ) : bitSeq w (n + 31) = (bitSeq w n + bitSeq w (n + 18)) % 2 := by
  rw [← bitRun_eq w (n + 1) (n + 31) (by omega)]
  show (if n + 31 = n + 31 then (bitRun w n n + bitRun w n (n + 18)) % 2 else _) = _
  rw [if_pos rfl, bitRun_eq w n (n + 18) (by omega)]
  rfl

theorem bitSeq_lt (w : ℕ → ℕ) (hw : ∀ n < 31, w n < 2) (n : ℕ) : bitSeq w n < 2 := by
  by_cases hn : n < 31
  · have := bitRun_eq w 0 n (by omega)
    rw [← this]
    exact hw n hn
  · obtain ⟨m, rfl⟩ : ∃ m, n = m + 31 := ⟨n - 31, by omega⟩
    rw [bitSeq_more]
    omega

theorem rlBits_getD (n : ℕ) (i : ℤ) (k : ℕ) (hk : k < n) : ((rlBits n i).getD k 0).natAbs = i.natAbs / 2 ^ k % 2 := by
  induction n generalizing i k with
  | zero => omega
  | succ n ih =>
    unfold rlBits
    cases k with
    | zero => simp [Int.natAbs_tmod]
    | succ k =>
      rw [List.getD_cons_succ, ih _ _ (by omega), Int.natAbs_tdiv]
      show i.natAbs / 2 / 2 ^ k % 2 = _
      rw [Nat.div_div_eq_div_mul, pow_succ, mul_comm (2 ^ k) 2]

theorem rlBits_length (n : ℕ) (i : ℤ) : (rlBits n i).length = n := by
  induction n generalizing i with
  | zero => rfl
  | succ n ih => simp [rlBits, ih]

/-- The bits before step `n`. -/
structure BitInv (b : ℕ → ℕ) (n : ℕ) (xbit : List ℤ) (ibit jbit : ℕ) : Prop where
  len : xbit.length = 31
  bits : ∀ m, n ≤ m → m < n + 31 → (xbit.getD (m % 31) 0).natAbs = b m
  ibit : ibit = n % 31
  jbit : jbit = (n + 18) % 31

section
variable {rnd : ℚ → ℚ} (hr : ExactRounding rnd) {b : ℕ → ℕ} (hb : ∀ n, b n < 2) (hmore : ∀ n, b (n + 31) = (b n + b (n + 18)) % 2)
include hr hb hmore

theorem rlBitStep_inv {n : ℕ} {xbit : List ℤ} {ibit jbit : ℕ} (h : BitInv b n xbit ibit jbit) (X : ℤ) (hX : 0 ≤ X)
    (hX' : X < 2 ^ 48) :
    let r := rlBitStep rnd (xbit, ibit, jbit, (X : ℚ))
    BitInv b (n + 1) r.1 r.2.1 r.2.2.1 ∧ r.2.2.2 = ((2 * X + (1 - (b n : ℤ)) : ℤ) : ℚ) := by
  have h0 := h.bits n le_rfl (by omega)
  have h18 := h.bits (n + 18) (by omega) (by omega)
  have b0 := hb n
  have b18 := hb (n + 18)
  intro r
  have hr0 : r = (xbit.set ibit ((xbit.getD ibit 0 + xbit.getD jbit 0).tmod 2), (ibit + 1) % 31, (jbit + 1) % 31,
    rnd ((X : ℚ) + rnd ((X : ℚ) + (((xbit.getD ibit 0 + 1).tmod 2 : ℤ) : ℚ)))) := rfl
  rw [hr0]
  simp only [h.ibit, h.jbit]
  constructor
  · refine ⟨by rw [List.length_set, h.len], fun m h1 h2 => ?_, by omega, by omega⟩
    by_cases hm : m = n + 31
    · subst hm
      rw [show (n + 31) % 31 = n % 31 by omega, List.getD_eq_getElem _ _ (by rw [List.length_set, h.len]; omega),
        List.getElem_set_self, hmore, ← h0, ← h18]
      rw [← h0] at b0
      rw [← h18] at b18
      generalize xbit.getD (n % 31) 0 = u at *
      generalize xbit.getD ((n + 18) % 31) 0 = v at *
      have hu : u = -1 ∨ u = 0 ∨ u = 1 := by omega
      have hv : v = -1 ∨ v = 0 ∨ v = 1 := by omega
      rcases hu with rfl | rfl | rfl <;> rcases hv with rfl | rfl | rfl <;> decide
    · have := h.bits m (by omega) (by omega)
      rw [← this, List.getD_eq_getElem _ _ (by rw [List.length_set, h.len]; omega),
        List.getElem_set_ne (by omega)]
      exact congrArg Int.natAbs (List.getD_eq_getElem _ _ (by rw [h.len]; omega)).symm
  · have hy : (xbit.getD (n % 31) 0 + 1).tmod 2 = 1 - (b n : ℤ) := by
      rw [← h0]
      rw [← h0] at b0
      generalize xbit.getD (n % 31) 0 = u at *
      have hu : u = -1 ∨ u = 0 ∨ u = 1 := by omega
      rcases hu with rfl | rfl | rfl <;> decide
    rw [hy]
    have ex : ∀ z : ℤ, |z| ≤ 2 ^ 53 → rnd (z : ℚ) = z := by
      intro z hz
      have := hr z 0 hz (by omega)
      simpa using this
    have e1 : rnd ((X : ℚ) + ((1 - (b n : ℤ) : ℤ) : ℚ)) = ((X + (1 - (b n : ℤ)) : ℤ) : ℚ) := by
      rw [← Int.cast_add]
      apply ex
      rw [abs_le]; norm_num at *; omega
    rw [e1, ← Int.cast_add, ex]
    · congr 1; ring
    · rw [abs_le]; norm_num at *; omega

/-- The first `l` of the bits that make word `k`. -/
def wordPart (b : ℕ → ℕ) (n l : ℕ) : ℤ := ((List.range l).map fun i => (1 - (b (n + i) : ℤ)) * 2 ^ (l - 1 - i)).sum

omit hr hb hmore in
theorem wordPart_succ (b : ℕ → ℕ) (n l : ℕ) : wordPart b n (l + 1) = 2 * wordPart b n l + (1 - (b (n + l) : ℤ)) := by
  unfold wordPart
  rw [List.range_succ, List.map_append, List.sum_append]
  simp only [List.map_cons, List.map_nil, List.sum_cons, List.sum_nil, add_zero, Nat.add_sub_cancel, Nat.sub_self, pow_zero, mul_one]
  congr 1
  rw [← List.sum_map_mul_left]
  congr 1
  apply List.map_congr_left
  intro i hi
  have := List.mem_range.1 hi
  rw [show l - i = l - 1 - i + 1 by omega, pow_succ]
  ring

omit hr hmore in
theorem wordPart_range (n l : ℕ) : 0 ≤ wordPart b n l ∧ wordPart b n l < 2 ^ l := by
  induction l with
  | zero => simp [wordPart]
  | succ l ih =>
    rw [wordPart_succ]
    have := hb (n + l)
    have h2 : (2 : ℤ) ^ (l + 1) = 2 * 2 ^ l := by rw [pow_succ]; ring
    omega

theorem rlBitSteps_inv {n : ℕ} {xbit : List ℤ} {ibit jbit : ℕ} (h : BitInv b n xbit ibit jbit) (l : ℕ) (hl : l ≤ 48) :
    let r := (rlBitStep rnd)^[l] (xbit, ibit, jbit, 0)
    BitInv b (n + l) r.1 r.2.1 r.2.2.1 ∧ r.2.2.2 = ((wordPart b n l : ℤ) : ℚ) := by
  induction l with
  | zero => exact ⟨h, by simp [wordPart]⟩
  | succ l ih =>
    obtain ⟨h1, h2⟩ := ih (by omega)
    intro r
    have hrr : r = rlBitStep rnd ((rlBitStep rnd)^[l] (xbit, ibit, jbit, 0)) := Function.iterate_succ_apply' _ _ _
    rw [hrr]
    generalize (rlBitStep rnd)^[l] (xbit, ibit, jbit, 0) = q at h1 h2 ⊢
    obtain ⟨q1, q2, q3, q4⟩ := q
    simp only at h1 h2
    subst h2
    have hw := wordPart_range hb n l
    have h48 : (2 : ℤ) ^ l ≤ 2 ^ 48 := pow_le_pow_right₀ (by norm_num) (by omega)
    have := rlBitStep_inv hr hb hmore h1 (wordPart b n l) hw.1 (by omega)
    rw [wordPart_succ]
    exact this

theorem rlWords_eq (w : ℕ) {n : ℕ} {xbit : List ℤ} {ibit jbit : ℕ} (h : BitInv b n xbit ibit jbit) :
    rlWords rnd w (xbit, ibit, jbit) = (List.range w).map fun k => unit (wordPart b (n + 48 * k) 48) := by
  induction w generalizing n xbit ibit jbit with
  | zero => rfl
  | succ w ih =>
    obtain ⟨h1, h2⟩ := rlBitSteps_inv hr hb hmore h 48 le_rfl
    unfold rlWords
    generalize (rlBitStep rnd)^[48] (xbit, ibit, jbit, 0) = q at h1 h2 ⊢
    obtain ⟨q1, q2, q3, q4⟩ := q
    simp only at h1 h2 ⊢
    subst h2
    have hw := wordPart_range hb n 48
    rw [ih h1, List.range_succ_eq_map, List.map_cons, List.map_map]
    congr 1
    · rw [show oneBit * ((wordPart b n 48 : ℤ) : ℚ) = unit (wordPart b n 48) by unfold oneBit unit; norm_num; ring, rnd_unit hr]
      · rfl
      · rw [abs_le]; norm_num at *; omega
    · apply List.map_congr_left
      intro k _
      simp only [Function.comp]
      congr 2
      omega

end

theorem seedWord_eq (b : ℕ → ℕ) (k : ℕ) : seedWord b k = wordPart b (48 * k) 48 := rfl

theorem toInt32_magnitude (s : ℕ) : (toInt32 (if s = 0 then 1 else s)).natAbs = seedMagnitude s := by
  unfold toInt32 seedMagnitude
  by_cases hs : s = 0
  · subst hs; rfl
  · simp only [if_neg hs]
    norm_num
    split_ifs <;> omega

/-- The generator after seeding, in terms of the recurrences. -/
theorem ranlxd_spec {rnd : ℚ → ℚ} (hr : ExactRounding rnd) (s luxury : ℕ) (hl : 11 ≤ luxury) :
    ∃ b x c, SeedBits (toInt32 (if s = 0 then 1 else s)).natAbs b ∧ SubtractWithBorrow x c ∧ (∀ k < 12, x k = seedWord b k) ∧
      (∀ n, 0 ≤ x n ∧ x n < 2 ^ 48) ∧
      ∀ n, (rlGetDouble rnd ((fun s => (rlGetDouble rnd s).2)^[n] (rlSetLux rnd s luxury))).1 =
        (x ((n / 12 + 1) * luxury + n % 12) : ℚ) / 2 ^ 48 := by
  set i := toInt32 (if s = 0 then 1 else s) with hi
  set b := bitSeq fun n => i.natAbs / 2 ^ n % 2 with hbdef
  have hb : ∀ n, b n < 2 := bitSeq_lt _ fun n _ => Nat.mod_lt _ (by omega)
  have hmore : ∀ n, b (n + 31) = (b n + b (n + 18)) % 2 := bitSeq_more _
  have hfirst : ∀ n < 31, b n = i.natAbs / 2 ^ n % 2 := fun n hn => (bitRun_eq _ 0 n (by omega)).symm
  have hw0 : ∀ n < 12, 0 ≤ swbX (seedWord b) n ∧ swbX (seedWord b) n < 2 ^ 48 := by
    intro n hn
    rw [swbX_first _ _ hn, seedWord_eq]
    exact wordPart_range hb _ _
  have hx := swb_spec (seedWord b)
  have hrange := hx.range hw0
  refine ⟨b, swbX (seedWord b), swbC (seedWord b), ⟨hfirst, hmore⟩, hx, fun k hk => swbX_first _ _ hk, hrange, fun n => ?_⟩
  have hwords : rlWords rnd 12 (rlBits 31 i, 0, 18) = (List.range 12).map fun k => unit (seedWord b k) := by
    have := rlWords_eq hr hb hmore 12 (n := 0) (xbit := rlBits 31 i) (ibit := 0) (jbit := 18)
      ⟨rlBits_length 31 i, fun m _ hm => by rw [show m % 31 = m by omega, rlBits_getD 31 i m (by omega), hfirst m (by omega)],
        by simp, by simp⟩
    rw [this]
    apply List.map_congr_left
    intro k _
    rw [seedWord_eq, zero_add]
  have hset : rlSetLux rnd s luxury = ⟨⟨rlWords rnd 12 (rlBits 31 i, 0, 18), 0, 11, 7⟩, 0, luxury⟩ := rfl
  rw [hset, hwords]
  refine rlValue hr hx hrange (pr := luxury) ⟨⟨by simp, fun m _ hm => ?_⟩, ?_, rfl, rfl, rfl, rfl⟩ hl n
  · dsimp only
    rw [show m % 12 = m by omega, List.getD_eq_getElem _ _ (by simpa using by omega), List.getElem_map, List.getElem_range, swbX_first _ _ (by omega)]
  · dsimp only
    rw [hx.first, unit_zero]

/-- Not all of twelve words in a row are zero. -/
theorem swb_not_zero {x c : ℕ → ℤ} (h : SubtractWithBorrow x c) (hr : ∀ n, 0 ≤ x n ∧ x n < 2 ^ 48)
    (h0 : ∃ k < 12, x k ≠ 0) (P : ℕ) (hP : 8 ≤ P) : ∃ k < 12, x (P + k) ≠ 0 := by
  by_contra hcon
  push Not at hcon
  rcases h.bit P with hc | hc
  · -- no borrow: all words before are zero
    have key : ∀ j ≤ P, c (P - j) = 0 ∧ ∀ k < 12, x (P - j + k) = 0 := by
      intro j
      induction j with
      | zero => intro _; exact ⟨hc, hcon⟩
      | succ j ih =>
        intro hj
        obtain ⟨i1, i2⟩ := ih (by omega)
        have hw := h.word (P - (j + 1))
        have e1 : P - (j + 1) + 12 = P - j + 11 := by omega
        have e2 : P - (j + 1) + 7 = P - j + 6 := by omega
        have e3 : P - (j + 1) + 1 = P - j := by omega
        rw [e1, e2, e3, i1, i2 11 (by omega), i2 6 (by omega)] at hw
        have hb := h.bit (P - (j + 1))
        have hx := hr (P - (j + 1))
        refine ⟨by omega, fun k hk => ?_⟩
        cases k with
        | zero => rw [add_zero]; omega
        | succ k =>
          rw [show P - (j + 1) + (k + 1) = P - j + k by omega]
          exact i2 k (by omega)
    obtain ⟨k, hk, hne⟩ := h0
    have := (key P le_rfl).2 k hk
    rw [show P - P + k = k by omega] at this
    exact hne this
  · -- borrow: the seven words before are `2^48 - 1`, each with a borrow, which is impossible one word further
    have key : ∀ j ≤ 7, c (P - j) = 1 ∧ ∀ i, 1 ≤ i → i ≤ j → x (P - i) = 2 ^ 48 - 1 := by
      intro j
      induction j with
      | zero => intro _; exact ⟨hc, fun i h1 h2 => by omega⟩
      | succ j ih =>
        intro hj
        obtain ⟨i1, i2⟩ := ih (by omega)
        have hw := h.word (P - (j + 1))
        have e1 : P - (j + 1) + 12 = P + (11 - j) := by omega
        have e2 : P - (j + 1) + 7 = P + (6 - j) := by omega
        have e3 : P - (j + 1) + 1 = P - j := by omega
        rw [e1, e2, e3, i1, hcon _ (by omega), hcon _ (by omega)] at hw
        have hb := h.bit (P - (j + 1))
        have hx := hr (P - (j + 1))
        norm_num at hw hx ⊢
        refine ⟨by omega, fun i h1 h2 => ?_⟩
        by_cases hij : i = j + 1
        · subst hij; omega
        · have := i2 i h1 (by omega)
          norm_num at this
          exact this
    obtain ⟨i1, i2⟩ := key 7 le_rfl
    have hw := h.word (P - 8)
    have e1 : P - 8 + 12 = P + 4 := by omega
    have e2 : P - 8 + 7 = P - 1 := by omega
    have e3 : P - 8 + 1 = P - 7 := by omega
    rw [e1, e2, e3, i1, hcon _ (by omega), i2 1 (by omega) (by omega)] at hw
    have hb := h.bit (P - 8)
    have hx := hr (P - 8)
    norm_num at hw hx
    omega

theorem wordPart_zero (b : ℕ → ℕ) (hb : ∀ n, b n < 2) (n l : ℕ) (h : wordPart b n l = 0) : ∀ i < l, b (n + i) = 1 := by
  induction l with
  | zero => intro i hi; omega
  | succ l ih =>
    rw [wordPart_succ] at h
    have h1 := wordPart_range hb n l
    have h2 := hb (n + l)
    intro i hi
    by_cases hil : i = l
    · subst hil; omega
    · exact ih (by omega) i (by omega)

/-- The words made from a seed are not all zero. -/
theorem seed_not_zero {s : ℕ} {b : ℕ → ℕ} (h : SeedBits s b) : ∃ k < 12, seedWord b k ≠ 0 := by
  have hb : ∀ n, b n < 2 := by
    intro n
    by_cases hn : n < 31
    · rw [h.first n hn]; omega
    · obtain ⟨m, rfl⟩ : ∃ m, n = m + 31 := ⟨n - 31, by omega⟩
      rw [h.more]; omega
  refine ⟨0, by omega, fun h0 => ?_⟩
  rw [seedWord_eq] at h0
  have h1 := wordPart_zero b hb _ _ h0
  have a0 := h1 0 (by omega)
  have a18 := h1 18 (by omega)
  have a31 := h1 31 (by omega)
  have := h.more 0
  simp only [mul_zero, zero_add] at a0 a18 a31 this
  omega

end Pmesh
