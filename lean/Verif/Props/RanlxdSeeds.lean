import Verif.Lemmas.RanlxdSeed
import Verif.Model.NoiseField
import Mathlib.Data.Int.ModEq
import Mathlib.Tactic.LinearCombination
import Mathlib.Tactic.Linarith
import Mathlib.Tactic.NormNum

/-!
# C58: different seeds give different random numbers

The state of the generator (twelve words and a borrow) is a number modulo `m = b^12 - b^5 + 1` with `b = 2^48`, and a step divides it by `b`
modulo `m`.  The numbers returned show the twelve words, but not the borrow.
-/

namespace Pmesh

section
variable {x c x' c' : ℕ → ℤ}

/-- The base of the words. -/
private def B : ℤ := 2 ^ 48

/-- The state before step `n` as a number. -/
private def stateNumber (x c : ℕ → ℤ) (n : ℕ) : ℤ :=
  x n + x (n + 1) * B + x (n + 2) * B ^ 2 + x (n + 3) * B ^ 3 + x (n + 4) * B ^ 4 + x (n + 5) * B ^ 5 + x (n + 6) * B ^ 6 +
    (x (n + 7) + x (n + 8) * B + x (n + 9) * B ^ 2 + x (n + 10) * B ^ 3 + x (n + 11) * B ^ 4) * (B ^ 7 - 1) + c n

private theorem stateNumber_step (h : SubtractWithBorrow x c) (n : ℕ) :
    stateNumber x c n = B * stateNumber x c (n + 1) - (B ^ 12 - B ^ 5 + 1) * x (n + 12) := by
  have hw : x (n + 12) = x (n + 7) - x n - c n + B * c (n + 1) := h.word n
  unfold stateNumber
  simp only [show n + 1 + 1 = n + 2 from rfl, show n + 1 + 2 = n + 3 from rfl, show n + 1 + 3 = n + 4 from rfl,
    show n + 1 + 4 = n + 5 from rfl, show n + 1 + 5 = n + 6 from rfl, show n + 1 + 6 = n + 7 from rfl,
    show n + 1 + 7 = n + 8 from rfl, show n + 1 + 8 = n + 9 from rfl, show n + 1 + 9 = n + 10 from rfl,
    show n + 1 + 10 = n + 11 from rfl, show n + 1 + 11 = n + 12 from rfl]
  linear_combination hw

private theorem stateNumber_mod (h : SubtractWithBorrow x c) (n k : ℕ) :
    stateNumber x c n ≡ B ^ k * stateNumber x c (n + k) [ZMOD B ^ 12 - B ^ 5 + 1] := by
  induction k with
  | zero => simpa using Int.ModEq.refl _
  | succ k ih =>
    refine ih.trans ?_
    rw [stateNumber_step h (n + k), pow_succ B k, mul_assoc, ← add_assoc]
    refine Int.ModEq.mul_left _ ?_
    exact (Int.modEq_iff_dvd.2 ⟨x (n + k + 12), by ring⟩)

/-- With the same words the state differs by the borrow. -/
private theorem stateNumber_diff (n : ℕ) (he : ∀ k < 12, x (n + k) = x' (n + k)) :
    stateNumber x c n - stateNumber x' c' n = c n - c' n := by
  unfold stateNumber
  have e0 := he 0 (by omega)
  rw [add_zero] at e0
  rw [e0, he 1 (by omega), he 2 (by omega), he 3 (by omega), he 4 (by omega), he 5 (by omega), he 6 (by omega), he 7 (by omega), he 8 (by omega),
    he 9 (by omega), he 10 (by omega), he 11 (by omega)]
  ring

private theorem modulus_facts : ¬ (B ^ 12 - B ^ 5 + 1 ∣ B ^ 202) ∧ ¬ (B ^ 12 - B ^ 5 + 1 ∣ B ^ 202 - 1) ∧ ¬ (B ^ 12 - B ^ 5 + 1 ∣ B ^ 202 + 1) := by
  unfold B
  refine ⟨?_, ?_, ?_⟩ <;> · rw [Int.dvd_iff_emod_eq_zero]; decide +kernel

/-- Two blocks of twelve equal words that are 202 steps apart: also the borrow is the same. -/
private theorem borrow_eq (h : SubtractWithBorrow x c) (h' : SubtractWithBorrow x' c') (n : ℕ)
    (e1 : ∀ k < 12, x (n + k) = x' (n + k)) (e2 : ∀ k < 12, x (n + 202 + k) = x' (n + 202 + k)) :
    stateNumber x c n = stateNumber x' c' n := by
  have d1 := stateNumber_diff (c := c) (c' := c') n e1
  have d2 := stateNumber_diff (c := c) (c' := c') (n + 202) e2
  have m : c n - c' n ≡ B ^ 202 * (c (n + 202) - c' (n + 202)) [ZMOD B ^ 12 - B ^ 5 + 1] := by
    rw [← d1, ← d2, mul_sub]
    exact (stateNumber_mod h n 202).sub (stateNumber_mod h' n 202)
  have hd := Int.modEq_iff_dvd.1 m
  obtain ⟨m0, m1, m2⟩ := modulus_facts
  have hbig : ¬ (B ^ 12 - B ^ 5 + 1 ∣ 1) := fun hdv => m0 (hdv.trans (one_dvd _))
  rcases h.bit n with a | a <;> rcases h'.bit n with b | b <;> rcases h.bit (n + 202) with a2 | a2 <;>
    rcases h'.bit (n + 202) with b2 | b2 <;> rw [a, b, a2, b2] at hd <;> rw [a, b] at d1 <;> norm_num at hd d1 <;>
    first
      | linarith
      | (exfalso; revert hd; intro hd; first | exact hbig hd | exact hbig (by simpa using hd) | exact m0 hd | exact m0 (by simpa using hd.neg_right) | exact m1 hd | exact m2 hd | exact m1 (by have := hd.neg_right; ring_nf at this ⊢; exact this) | exact m2 (by have := hd.neg_right; ring_nf at this ⊢; exact this))

/-- The range of the state with no borrow. -/
private theorem stateNumber_range (hr : ∀ n, 0 ≤ x n ∧ x n < 2 ^ 48) (hc : c 0 = 0) :
    ∃ L H, stateNumber x c 0 = (x 0 + L * B) + H * (B ^ 7 - 1) ∧ 0 ≤ L ∧ L ≤ B ^ 6 - 1 ∧ 0 ≤ H ∧ H ≤ B ^ 5 - 1 := by
  have r := fun n => (hr n)
  have hB : (0 : ℤ) < B := by unfold B; norm_num
  have r1 : ∀ n, x n ≤ B - 1 := fun n => by have := (hr n).2; unfold B; omega
  have up : ∀ n (y p : ℤ), 0 ≤ p → y ≤ p - 1 → x n + y * B ≤ p * B - 1 := by
    intro n y p _ hy
    have := mul_le_mul_of_nonneg_right hy hB.le
    have := r1 n
    nlinarith
  refine ⟨x 1 + (x 2 + (x 3 + (x 4 + (x 5 + x 6 * B) * B) * B) * B) * B, x 7 + (x 8 + (x 9 + (x 10 + x 11 * B) * B) * B) * B, ?_, ?_, ?_, ?_, ?_⟩
  · unfold stateNumber
    rw [hc]
    ring
  · have := (hr 1).1; have := (hr 2).1; have := (hr 3).1; have := (hr 4).1; have := (hr 5).1; have := (hr 6).1
    positivity
  · have a5 := up 5 _ B hB.le (r1 6)
    have a4 := up 4 _ _ (by positivity) a5
    have a3 := up 3 _ _ (by positivity) a4
    have a2 := up 2 _ _ (by positivity) a3
    have a1 := up 1 _ _ (by positivity) a2
    calc _ ≤ _ := a1
      _ = _ := by ring
  · have := (hr 7).1; have := (hr 8).1; have := (hr 9).1; have := (hr 10).1; have := (hr 11).1
    positivity
  · have a5 := up 10 _ B hB.le (r1 11)
    have a4 := up 9 _ _ (by positivity) a5
    have a3 := up 8 _ _ (by positivity) a4
    have a2 := up 7 _ _ (by positivity) a3
    calc _ ≤ _ := a2
      _ = _ := by ring

/-- The first word is determined by the state, unless it is zero. -/
private theorem first_word (hr : ∀ n, 0 ≤ x n ∧ x n < 2 ^ 48) (hr' : ∀ n, 0 ≤ x' n ∧ x' n < 2 ^ 48) (hc : c 0 = 0) (hc' : c' 0 = 0)
    (h0 : x 0 ≠ 0) (h0' : x' 0 ≠ 0) (hm : stateNumber x c 0 ≡ stateNumber x' c' 0 [ZMOD B ^ 12 - B ^ 5 + 1]) : x 0 = x' 0 := by
  obtain ⟨L, H, e, a1, a2, a3, a4⟩ := stateNumber_range hr hc
  obtain ⟨L', H', e', b1, b2, b3, b4⟩ := stateNumber_range hr' hc'
  have hx := hr 0
  have hx' := hr' 0
  have hB : (1 : ℤ) < B := by unfold B; norm_num
  have hxB : x 0 < B := hx.2
  have hxB' : x' 0 < B := hx'.2
  have hQ : (0 : ℤ) < B ^ 7 - 1 := by
    have : (1 : ℤ) < B ^ 7 := one_lt_pow₀ hB (by norm_num)
    omega
  have p1 : ∀ (y l : ℤ), y < B → l ≤ B ^ 6 - 1 → y + l * B ≤ B ^ 7 - 1 := by
    intro y l h1 h2
    have := mul_le_mul_of_nonneg_right h2 (by omega : (0 : ℤ) ≤ B)
    have e : (B ^ 6 - 1) * B = B ^ 7 - B := by ring
    rw [e] at this
    omega
  have P1 := p1 _ _ hxB a2
  have P1' := p1 _ _ hxB' b2
  have P0 : 0 ≤ x 0 + L * B := by have := hx.1; positivity
  have P0' : 0 ≤ x' 0 + L' * B := by have := hx'.1; positivity
  have one : ∀ p h : ℤ, 0 ≤ p → p ≤ B ^ 7 - 1 → 0 ≤ h → h ≤ B ^ 5 - 1 →
      0 ≤ p + h * (B ^ 7 - 1) ∧ p + h * (B ^ 7 - 1) < B ^ 12 - B ^ 5 + 1 := by
    intro p h h1 h2 h3 h4
    refine ⟨by positivity, ?_⟩
    have := mul_le_mul_of_nonneg_right h4 hQ.le
    have e : (B ^ 5 - 1) * (B ^ 7 - 1) = B ^ 12 - B ^ 5 - B ^ 7 + 1 := by ring
    rw [e] at this
    omega
  have r1 := one _ _ P0 P1 a3 a4
  have r2 := one _ _ P0' P1' b3 b4
  rw [e, e'] at hm
  have hV : x 0 + L * B + H * (B ^ 7 - 1) = x' 0 + L' * B + H' * (B ^ 7 - 1) := by
    have := hm
    unfold Int.ModEq at this
    rwa [Int.emod_eq_of_lt r1.1 r1.2, Int.emod_eq_of_lt r2.1 r2.2] at this
  have no : ∀ p h y l h' : ℤ, p ≤ B ^ 7 - 1 → h < h' → 0 ≤ l → 0 ≤ y → y ≠ 0 → p + h * (B ^ 7 - 1) ≠ y + l * B + h' * (B ^ 7 - 1) := by
    intro p h y l h' h1 h2 h3 h4 h5 h6
    have := mul_le_mul_of_nonneg_right (show (1 : ℤ) ≤ h' - h by omega) hQ.le
    have hl : 0 ≤ l * B := by positivity
    have : y + l * B ≤ 0 := by linarith
    omega
  have hH : H = H' := by
    rcases lt_trichotomy H H' with h | h | h
    · exact absurd hV (no _ _ _ _ _ P1 h b1 hx'.1 h0')
    · exact h
    · exact absurd hV.symm (no _ _ _ _ _ P1' h a1 hx.1 h0)
  rw [hH] at hV
  have hP : x 0 + L * B = x' 0 + L' * B := by linarith
  have := congrArg (· % B) hP
  simp only [Int.add_mul_emod_self_right] at this
  rwa [Int.emod_eq_of_lt hx.1 hxB, Int.emod_eq_of_lt hx'.1 hxB'] at this

end

private theorem wordPart_inj {b b' : ℕ → ℕ} (hb : ∀ n, b n < 2) (hb' : ∀ n, b' n < 2) (n l : ℕ) (h : wordPart b n l = wordPart b' n l) :
    ∀ i < l, b (n + i) = b' (n + i) := by
  induction l with
  | zero => intro i hi; omega
  | succ l ih =>
    rw [wordPart_succ, wordPart_succ] at h
    have h1 := wordPart_range hb n l
    have h1' := wordPart_range hb' n l
    have h2 := hb (n + l)
    have h2' := hb' (n + l)
    intro i hi
    by_cases hil : i = l
    · subst hil; omega
    · exact ih (by omega) i (by omega)

private theorem bits_lt {s : ℕ} {b : ℕ → ℕ} (h : SeedBits s b) (n : ℕ) : b n < 2 := by
  by_cases hn : n < 31
  · rw [h.first n hn]; omega
  · obtain ⟨m, rfl⟩ : ∃ m, n = m + 31 := ⟨n - 31, by omega⟩
    rw [h.more]; omega

private theorem first_word_ne {s : ℕ} {b : ℕ → ℕ} (h : SeedBits s b) : seedWord b 0 ≠ 0 := by
  intro h0
  rw [seedWord_eq] at h0
  have h1 := wordPart_zero b (bits_lt h) _ _ h0
  have a0 := h1 0 (by omega)
  have a18 := h1 18 (by omega)
  have a31 := h1 31 (by omega)
  have := h.more 0
  simp only [mul_zero, zero_add] at a0 a18 a31 this
  omega

/-- **C58**: seeds from 1 to `2^31` give different random numbers, already among the first 24.  Partial: not for seeds beyond, `C58_violated`. -/
theorem C58_distinct_partial (rnd : ℚ → ℚ) (hr : ExactRounding rnd) (s s' : ℕ) (hs : 0 < s) (hs' : 0 < s') (hb : s ≤ 2 ^ 31) (hb' : s' ≤ 2 ^ 31)
    (hne : s ≠ s') : ∃ n < 24, ranlxd1 rnd s n ≠ ranlxd1 rnd s' n := by
  by_contra hcon
  push Not at hcon
  obtain ⟨b, x, c, h1, h2, h3, h4, h5⟩ := ranlxd_spec hr s 202 (by omega)
  obtain ⟨b', x', c', h1', h2', h3', h4', h5'⟩ := ranlxd_spec hr s' 202 (by omega)
  have hx : ∀ n < 24, x ((n / 12 + 1) * 202 + n % 12) = x' ((n / 12 + 1) * 202 + n % 12) := by
    intro n hn
    have e := hcon n hn
    have e1 : ranlxd1 rnd s n = _ := h5 n
    have e2 : ranlxd1 rnd s' n = _ := h5' n
    rw [e1, e2] at e
    have := (div_left_inj' (show (2 : ℚ) ^ 48 ≠ 0 by norm_num)).1 e
    exact_mod_cast this
  have hstate : stateNumber x c 202 = stateNumber x' c' 202 := by
    refine borrow_eq h2 h2' 202 (fun k hk => ?_) (fun k hk => ?_)
    · have := hx k (by omega)
      rwa [show (k / 12 + 1) * 202 + k % 12 = 202 + k by omega] at this
    · have := hx (12 + k) (by omega)
      rwa [show ((12 + k) / 12 + 1) * 202 + (12 + k) % 12 = 202 + 202 + k by omega] at this
  have hm : stateNumber x c 0 ≡ stateNumber x' c' 0 [ZMOD B ^ 12 - B ^ 5 + 1] := by
    refine (stateNumber_mod h2 0 202).trans ?_
    rw [zero_add, hstate]
    have := (stateNumber_mod h2' 0 202).symm
    rwa [zero_add] at this
  have h0 := first_word_ne h1
  have h0' := first_word_ne h1'
  rw [← h3 0 (by omega)] at h0
  rw [← h3' 0 (by omega)] at h0'
  have hw := first_word h4 h4' h2.first h2'.first h0 h0' hm
  rw [h3 0 (by omega), h3' 0 (by omega), seedWord_eq, seedWord_eq] at hw
  have hbits := wordPart_inj (bits_lt h1) (bits_lt h1') _ _ hw
  rw [toInt32_magnitude] at h1 h1'
  have hM : seedMagnitude s % 2 ^ 31 = seedMagnitude s' % 2 ^ 31 := by
    apply Nat.eq_of_testBit_eq
    intro i
    rw [Nat.testBit_mod_two_pow, Nat.testBit_mod_two_pow]
    by_cases hi : i < 31
    · have := hbits i (by omega)
      rw [mul_zero, zero_add, h1.first i hi, h1'.first i hi] at this
      rw [Nat.testBit_eq_decide_div_mod_eq, Nat.testBit_eq_decide_div_mod_eq, this]
    · simp [hi]
  have mag : ∀ s : ℕ, 0 < s → s ≤ 2 ^ 31 → seedMagnitude s = s := by
    intro s h0 h1
    unfold seedMagnitude
    norm_num at h1 ⊢
    split_ifs <;> omega
  rw [mag s hs hb, mag s' hs' hb'] at hM
  norm_num at hM hb hb'
  omega

/-- **C58 is violated**: the seeds `s` and `2^32 - s` give the same generator, and so do 0 and 1. -/
theorem C58_violated (rnd : ℚ → ℚ) (hr : ExactRounding rnd) :
    ranlxd1Set rnd 0 = ranlxd1Set rnd 1 ∧ ∀ s, 0 < s → s < 2 ^ 32 → ranlxd1Set rnd (2 ^ 32 - s) = ranlxd1Set rnd s := by
  refine ⟨rfl, fun s h0 h1 => ?_⟩
  have key : ∀ s, ranlxd1Set rnd s = ⟨⟨(List.range 12).map fun k => unit (wordPart (bitSeq fun n => seedMagnitude s / 2 ^ n % 2) (48 * k) 48), 0, 11, 7⟩, 0, 202⟩ := by
    intro s
    set i := toInt32 (if s = 0 then 1 else s) with hi
    have hset : ranlxd1Set rnd s = ⟨⟨rlWords rnd 12 (rlBits 31 i, 0, 18), 0, 11, 7⟩, 0, 202⟩ := rfl
    rw [hset, ← toInt32_magnitude, ← hi]
    have := rlWords_eq hr (b := bitSeq fun n => i.natAbs / 2 ^ n % 2) (bitSeq_lt _ fun n _ => Nat.mod_lt _ (by omega)) (bitSeq_more _) 12 (n := 0)
      (xbit := rlBits 31 i) (ibit := 0) (jbit := 18)
      ⟨rlBits_length 31 i, fun m _ hm => by
        rw [show m % 31 = m by omega, rlBits_getD 31 i m (by omega)]
        exact bitRun_eq (fun n => i.natAbs / 2 ^ n % 2) 0 m (by omega), by simp, by simp⟩
    rw [this]
    simp only [zero_add]
  rw [key, key]
  have : seedMagnitude (2 ^ 32 - s) = seedMagnitude s := by
    unfold seedMagnitude
    norm_num at h1 ⊢
    split_ifs <;> omega
  rw [this]

/-- **C58 is violated**: `generate_whitenoise` makes the same field from the seeds `s` and `2^32 - s`. -/
theorem C58_violated_noise {K : Type} [Field K] [DecidableEq K] (rnd : ℚ → ℚ) (hr : ExactRounding rnd) (polar : Bool → ℚ → ℚ → K × K) (pi : K)
    (nmesh start shape : List ℕ) (strides : List ℤ) (order : List ℕ) (box : List K) (unitary : Bool) (mean : K) (mem : ℤ → K × K) (s : ℕ)
    (h0 : 0 < s) (h1 : s < 2 ^ 32) :
    generateWhitenoise (ranlxdRng rnd) polar rnd pi nmesh start shape strides order box (2 ^ 32 - s) unitary mean mem =
      generateWhitenoise (ranlxdRng rnd) polar rnd pi nmesh start shape strides order box s unitary mean mem := by
  have h : (ranlxdRng rnd).set (2 ^ 32 - s) = (ranlxdRng rnd).set s := (C58_violated rnd hr).2 s h0 h1
  unfold generateWhitenoise genericFill seedTables
  rw [h]

example : ∃ n < 24, ranlxd1 id 2000000000 n ≠ ranlxd1 id 1 n :=
  C58_distinct_partial id (fun _ _ _ _ => rfl) _ _ (by norm_num) (by norm_num) (by norm_num) (by norm_num) (by norm_num)

example : ranlxd1Set id 4294967295 = ranlxd1Set id 1 := (C58_violated id (fun _ _ _ _ => rfl)).2 1 (by norm_num) (by norm_num)

end Pmesh

#print axioms Pmesh.C58_distinct_partial
#print axioms Pmesh.C58_violated
#print axioms Pmesh.C58_violated_noise
