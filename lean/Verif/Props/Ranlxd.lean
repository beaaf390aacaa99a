import Verif.Lemmas.RanlxdSeed

/-! # C43, C44: the random generator `ranlxd1` -/

namespace Pmesh

/-- **C44**: after `gsl_rng_set(rng, seed)` the numbers returned are words of the subtract-with-borrow sequence with base `2^48`
and lags 5 and 12 started from the words of the seed.  Per twelve numbers the sequence advances by 202 words: number `n` is word
`202 (n / 12 + 1) + n % 12`, divided by `2^48`.  This holds for every seed and every number of calls, and no operation on doubles rounds. -/
theorem C44_recurrence (rnd : ℚ → ℚ) (hr : ExactRounding rnd) (seed : ℕ) :
    ∃ b x c, SeedBits (seedMagnitude seed) b ∧ SubtractWithBorrow x c ∧
      (∀ k < 12, x k = seedWord b k) ∧
      ∀ n, ranlxd1 rnd seed n = (x (202 * (n / 12 + 1) + n % 12) : ℚ) / 2 ^ 48 := by
  obtain ⟨b, x, c, h1, h2, h3, _, h5⟩ := ranlxd_spec hr seed 202 (by omega)
  rw [toInt32_magnitude] at h1
  exact ⟨b, x, c, h1, h2, h3, fun n => by rw [mul_comm 202]; exact h5 n⟩

/-- The same for the other luxury level, `gsl_rng_ranlxd2`, and in general: `increment_state` makes exactly `pr` steps. -/
theorem C44_luxury (rnd : ℚ → ℚ) (hr : ExactRounding rnd) (seed luxury : ℕ) (hl : 11 ≤ luxury) :
    ∃ b x c, SeedBits (seedMagnitude seed) b ∧ SubtractWithBorrow x c ∧
      (∀ k < 12, x k = seedWord b k) ∧
      ∀ n, (rlGetDouble rnd ((fun s => (rlGetDouble rnd s).2)^[n] (rlSetLux rnd seed luxury))).1 =
        (x (luxury * (n / 12 + 1) + n % 12) : ℚ) / 2 ^ 48 := by
  obtain ⟨b, x, c, h1, h2, h3, _, h5⟩ := ranlxd_spec hr seed luxury hl
  rw [toInt32_magnitude] at h1
  exact ⟨b, x, c, h1, h2, h3, fun n => by rw [mul_comm luxury]; exact h5 n⟩

/-- **C43**: every number returned is in `[0, 1)` and a multiple of `2^-48`. -/
theorem C43_range (rnd : ℚ → ℚ) (hr : ExactRounding rnd) (seed n : ℕ) :
    0 ≤ ranlxd1 rnd seed n ∧ ranlxd1 rnd seed n < 1 ∧ ∃ z : ℤ, ranlxd1 rnd seed n = z / 2 ^ 48 := by
  obtain ⟨b, x, c, _, _, _, h4, h5⟩ := ranlxd_spec hr seed 202 (by omega)
  have h := h4 ((n / 12 + 1) * 202 + n % 12)
  have e : ranlxd1 rnd seed n = (x ((n / 12 + 1) * 202 + n % 12) : ℚ) / 2 ^ 48 := h5 n
  refine ⟨?_, ?_, _, e⟩
  · rw [e]
    exact div_nonneg (by exact_mod_cast h.1) (by norm_num)
  · rw [e, div_lt_one (by norm_num)]
    exact_mod_cast h.2

/-- The numbers do not depend on the rounding. -/
theorem C43_exact (rnd : ℚ → ℚ) (hr : ExactRounding rnd) (seed n : ℕ) : ranlxd1 rnd seed n = ranlxd1 id seed n := by
  have hid : ExactRounding id := fun _ _ _ _ => rfl
  obtain ⟨b, x, c, h1, h2, h3, h4, h5⟩ := ranlxd_spec hr seed 202 (by omega)
  obtain ⟨b', x', c', h1', h2', h3', h4', h5'⟩ := ranlxd_spec hid seed 202 (by omega)
  have hbb : b = b' := by
    funext n
    induction n using Nat.strong_induction_on with
    | _ n ih =>
      by_cases hn : n < 31
      · rw [h1.first n hn, h1'.first n hn]
      · obtain ⟨m, rfl⟩ : ∃ m, n = m + 31 := ⟨n - 31, by omega⟩
        rw [h1.more, h1'.more, ih m (by omega), ih (m + 18) (by omega)]
  subst hbb
  have hcx : ∀ n, c n = c' n ∧ ∀ k < 12, x (n + k) = x' (n + k) := by
    intro n
    induction n with
    | zero => exact ⟨by rw [h2.first, h2'.first], fun k hk => by rw [zero_add, h3 k hk, h3' k hk]⟩
    | succ n ih =>
      obtain ⟨i1, i2⟩ := ih
      have a := i2 0 (by omega)
      have b7 := i2 7 (by omega)
      rw [add_zero] at a
      have hc : c (n + 1) = c' (n + 1) := by rw [h2.borrow, h2'.borrow, i1, a, b7]
      refine ⟨hc, fun k hk => ?_⟩
      by_cases hk11 : k = 11
      · subst hk11
        rw [show n + 1 + 11 = n + 12 by omega, h2.word, h2'.word, i1, a, b7, hc]
      · rw [show n + 1 + k = n + (k + 1) by omega]
        exact i2 (k + 1) (by omega)
  have e := (hcx ((n / 12 + 1) * 202 + n % 12)).2 0 (by omega)
  rw [add_zero] at e
  have e1 : ranlxd1 rnd seed n = (x ((n / 12 + 1) * 202 + n % 12) : ℚ) / 2 ^ 48 := h5 n
  have e2 : ranlxd1 id seed n = (x' ((n / 12 + 1) * 202 + n % 12) : ℚ) / 2 ^ 48 := h5' n
  rw [e1, e2, e]

/-- Of 23 numbers in a row one is not zero, so waiting for such a number ends (`SAMPLE` in `_whitenoise_imp.c`). -/
theorem C43_nonzero (rnd : ℚ → ℚ) (hr : ExactRounding rnd) (seed n : ℕ) : ∃ m, n ≤ m ∧ m < n + 23 ∧ ranlxd1 rnd seed m ≠ 0 := by
  obtain ⟨b, x, c, h1, h2, h3, h4, h5⟩ := ranlxd_spec hr seed 202 (by omega)
  obtain ⟨k0, hk0, hne⟩ := seed_not_zero h1
  -- the first block of twelve that starts at or after `n`
  set q := (n + 11) / 12 with hq
  obtain ⟨k, hk, hkne⟩ := swb_not_zero h2 h4 ⟨k0, hk0, by rw [h3 k0 hk0]; exact hne⟩ ((q + 1) * 202) (by omega)
  refine ⟨12 * q + k, by omega, by omega, ?_⟩
  have e : ranlxd1 rnd seed (12 * q + k) = (x (((12 * q + k) / 12 + 1) * 202 + (12 * q + k) % 12) : ℚ) / 2 ^ 48 := h5 _
  rw [e, show (12 * q + k) / 12 = q by omega, show (12 * q + k) % 12 = k by omega]
  intro h
  rw [div_eq_zero_iff] at h
  rcases h with h | h
  · exact hkne (by exact_mod_cast h)
  · norm_num at h

/-- Non-vacuity: rounding to a multiple of `2^-48`. -/
example : ExactRounding fun q => (⌊q * 2 ^ 48 + 1 / 2⌋ : ℚ) / 2 ^ 48 := by
  intro z e _ he
  have h : (z : ℚ) / 2 ^ e * 2 ^ 48 = ((z * 2 ^ (48 - e) : ℤ) : ℚ) := by
    push_cast
    rw [div_mul_eq_mul_div, div_eq_iff (by positivity), mul_assoc, ← pow_add]
    congr 2
    omega
  simp only
  rw [h, show ⌊((z * 2 ^ (48 - e) : ℤ) : ℚ) + 1 / 2⌋ = z * 2 ^ (48 - e) by rw [Int.floor_eq_iff]; constructor <;> linarith, ← h]
  field_simp

/-- The first number for seed one. -/
example : ranlxd1 id 1 0 = 234896157671761 / 281474976710656 := by decide +kernel

#print axioms C44_recurrence
#print axioms C44_luxury
#print axioms C43_range
#print axioms C43_exact
#print axioms C43_nonzero

end Pmesh
