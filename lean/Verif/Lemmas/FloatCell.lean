import Verif.Model.FPaint
import Verif.Lemmas.FloatRound
import Mathlib.Tactic.Linarith
import Mathlib.Tactic.NormNum
import Mathlib.Tactic.Positivity

/-!
# The nearest cell in binary floating point
-/

set_option linter.unusedSectionVars false

namespace Pmesh

section
variable {K : Type*} [Field K] [LinearOrder K] [IsStrictOrderedRing K] [FloorRing K]

theorem ulpExp_le_of_lt {p : ℕ} {x : K} (hx : x ≠ 0) {k : ℤ} (h : |x| < 2 ^ k) : ulpExp p x ≤ k - p := by
  obtain ⟨a, -⟩ := log_bounds hx
  have := lt_of_le_of_lt a h
  rw [zpow_lt_zpow_iff_right₀ (by norm_num)] at this
  unfold ulpExp
  omega

/-- Multiples of `2 ^ k` below `2 ^ (k + p)` are in the format. -/
theorem flRound_mul {p : ℕ} {x : K} {k m : ℤ} (h : x = m * 2 ^ k) (hx : |x| < 2 ^ (k + p)) : flRound p x = x := by
  by_cases h0 : x = 0
  · rw [h0, flRound_zero]
  · refine flRound_of_mul p h ?_
    have := ulpExp_le_of_lt (p := p) h0 hx
    omega

theorem flRound_int {p : ℕ} {n : ℤ} (h : |(n : K)| < 2 ^ (p : ℤ)) : flRound p (n : K) = n :=
  flRound_mul (k := 0) (m := n) (by simp) (by simpa using h)

/-- Multiples of a quarter. -/
theorem flRound_quarter {p : ℕ} {x : K} {n : ℤ} (hx : x = n / 4) (h : |x| < 2 ^ ((p : ℤ) - 2)) : flRound p x = x := by
  refine flRound_mul (k := -2) (m := n) ?_ (by rwa [neg_add_eq_sub])
  rw [hx, zpow_neg, show ((2 : K) ^ (2 : ℤ)) = 4 by norm_num, div_eq_mul_inv]

/-- Numbers of the format below a power of two are multiples of its last digit. -/
theorem exists_mul_of_ge {p : ℕ} {u : K} (hu : flRound p u = u) {e : ℤ} (h : (2 : K) ^ e ≤ |u|) :
    ∃ m : ℤ, u = m * 2 ^ (e + 1 - p) := by
  have h0 : u ≠ 0 := by
    rintro rfl
    rw [abs_zero] at h
    exact absurd h (not_le.2 (two_zpow_pos e))
  obtain ⟨m, hm⟩ := exists_mul_of_flRound p hu
  have hle : e + 1 - p ≤ ulpExp p u := by
    unfold ulpExp
    have b := (log_bounds h0).2
    have := lt_of_le_of_lt h b
    rw [zpow_lt_zpow_iff_right₀ (by norm_num)] at this
    omega
  obtain ⟨j, hj⟩ := Int.eq_ofNat_of_zero_le (show 0 ≤ ulpExp p u - (e + 1 - p) by omega)
  refine ⟨m * 2 ^ j, ?_⟩
  have : ulpExp p u = (e + 1 - p) + j := by omega
  conv_lhs => rw [hm, this, zpow_add₀ (by norm_num), zpow_natCast]
  push_cast
  ring

/-- A nonnegative number of the format plus a multiple of a half, if it becomes smaller, is in the format. -/
theorem flRound_sub_half {p : ℕ} {u y : K} (hu : flRound p u = u) (hu0 : 0 < u) (hup : u < 2 ^ ((p : ℤ) - 1)) {n : ℤ}
    (hy : y = u + n / 2) (h : |y| ≤ u) : flRound p y = y := by
  obtain ⟨l0, l1⟩ := log_bounds hu0.ne'
  obtain ⟨m, hm⟩ := exists_mul_of_ge hu l0
  have hk : Int.log 2 |u| + 1 - p ≤ -1 := by
    rw [abs_of_pos hu0] at l0 ⊢
    have := lt_of_le_of_lt l0 hup
    rw [zpow_lt_zpow_iff_right₀ (by norm_num)] at this
    omega
  obtain ⟨j, hj⟩ := Int.eq_ofNat_of_zero_le (show 0 ≤ -1 - (Int.log 2 |u| + 1 - p) by omega)
  refine flRound_mul (k := Int.log 2 |u| + 1 - p) (m := m + n * 2 ^ j) ?_ ?_
  · have hj' : (j : ℤ) = -1 - (Int.log 2 |u| + 1 - p) := hj.symm
    have e : (2 : K) ^ j * 2 ^ (Int.log 2 |u| + 1 - p) = 1 / 2 := by
      rw [← zpow_natCast, ← zpow_add₀ (by norm_num), hj', show -1 - (Int.log 2 |u| + 1 - (p : ℤ)) + (Int.log 2 |u| + 1 - p) = -1 by ring]
      norm_num
    push_cast
    rw [add_mul, mul_assoc, e, ← hm, hy]
    ring
  · refine lt_of_le_of_lt h ?_
    rw [show Int.log 2 |u| + 1 - (p : ℤ) + p = Int.log 2 |u| + 1 by ring]
    rwa [abs_of_pos hu0] at l1 ⊢

/-- Adding a half does not reach the next integer by rounding, except below one. -/
theorem floor_add_half {p : ℕ} (hp : 1 ≤ p) {u : K} (hu : flRound p u = u) (h : 1 / 2 ≤ u) (hup : u < 2 ^ ((p : ℤ) - 3)) :
    ⌊flRound p (u + 1 / 2)⌋ = ⌊u + 1 / 2⌋ := by
  have hu0 : 0 < u := by linarith
  obtain ⟨l0, l1⟩ := log_bounds hu0.ne'
  rw [abs_of_pos hu0] at l0 l1
  set e := Int.log 2 u with he
  have he0 : -1 ≤ e := by
    have h2 : (2 : K) ^ (-1 : ℤ) ≤ u := by rw [zpow_neg]; norm_num; linarith
    have := lt_of_le_of_lt h2 l1
    rw [zpow_lt_zpow_iff_right₀ (by norm_num)] at this
    omega
  have hep : e < p - 3 := by
    have := lt_of_le_of_lt l0 hup
    rwa [zpow_lt_zpow_iff_right₀ (by norm_num)] at this
  rcases lt_or_ge (u + 1 / 2) (2 ^ (e + 1)) with hlt | hge
  · have : flRound p (u + 1 / 2) = u + 1 / 2 := by
      obtain ⟨m, hm⟩ := exists_mul_of_ge hu (e := e) (by rwa [abs_of_pos hu0])
      obtain ⟨j, hj⟩ := Int.eq_ofNat_of_zero_le (show 0 ≤ -1 - (e + 1 - p) by omega)
      refine flRound_mul (k := e + 1 - p) (m := m + 2 ^ j) ?_ ?_
      · have e2 : (2 : K) ^ j * 2 ^ (e + 1 - p) = 1 / 2 := by
          have hj' : (j : ℤ) = -1 - (e + 1 - p) := hj.symm
          rw [← zpow_natCast, ← zpow_add₀ (by norm_num), hj', show -1 - (e + 1 - (p : ℤ)) + (e + 1 - p) = -1 by ring]
          norm_num
        push_cast
        rw [add_mul, e2, ← hm]
      · rw [show e + 1 - (p : ℤ) + p = e + 1 by ring, abs_of_pos (by linarith)]
        exact hlt
    rw [this]
  · obtain ⟨i, hi⟩ := Int.eq_ofNat_of_zero_le (show 0 ≤ e + 1 by omega)
    have hM : (2 : K) ^ (e + 1) = ((2 ^ i : ℤ) : K) := by
      rw [hi]
      push_cast
      exact zpow_natCast _ _
    rw [hM] at hge l1
    have hb : ((2 ^ i : ℤ) : K) + 1 / 2 < 2 ^ ((p : ℤ) - 2) := by
      rw [← hM]
      have h1 : (2 : K) ^ (e + 1) ≤ 2 ^ ((p : ℤ) - 3) := zpow_le_zpow_right₀ (by norm_num) (by omega)
      have h2 : (2 : K) ^ ((p : ℤ) - 2) = 2 * 2 ^ ((p : ℤ) - 3) := by
        rw [show (p : ℤ) - 2 = (p - 3) + 1 by ring, zpow_add₀ (by norm_num)]
        ring
      have h3 : (1 : K) / 2 < 2 ^ ((p : ℤ) - 3) := by linarith
      rw [h2]
      linarith
    have hpos : (0 : K) ≤ ((2 ^ i : ℤ) : K) := by positivity
    have r1 : flRound p (((2 ^ i : ℤ) : K)) = ((2 ^ i : ℤ) : K) :=
      flRound_quarter (n := 4 * 2 ^ i) (by push_cast; ring) (by rw [abs_of_nonneg hpos]; linarith)
    have r2 : flRound p (((2 ^ i : ℤ) : K) + 1 / 2) = ((2 ^ i : ℤ) : K) + 1 / 2 :=
      flRound_quarter (n := 4 * 2 ^ i + 2) (by push_cast; ring) (by rw [abs_of_nonneg (by linarith)]; exact hb)
    have m1 := flRound_mono hp hge
    have m2 := flRound_mono hp (show u + 1 / 2 ≤ ((2 ^ i : ℤ) : K) + 1 / 2 by linarith)
    rw [r1] at m1
    rw [r2] at m2
    have f1 : ⌊flRound p (u + 1 / 2)⌋ = 2 ^ i := by
      rw [Int.floor_eq_iff]
      exact ⟨m1, by linarith⟩
    have f2 : ⌊u + 1 / 2⌋ = 2 ^ i := by
      rw [Int.floor_eq_iff]
      exact ⟨hge, by linarith⟩
    rw [f1, f2]

/-- Rounding in the binade of `[1/2, 1)`. -/
theorem flRound_half_one {p : ℕ} {x : K} (h0 : 1 / 2 ≤ x) (h1 : x < 1) :
    flRound p x = 2 ^ (-(p : ℤ)) * (rint (x * 2 ^ (p : ℤ)) : K) := by
  have hx : 0 < x := by linarith
  have hl : Int.log 2 |x| = -1 := by
    obtain ⟨a, b⟩ := log_bounds hx.ne'
    rw [abs_of_pos hx] at a b ⊢
    have c1 : (2 : K) ^ (-1 : ℤ) < 2 ^ (Int.log 2 x + 1) := lt_of_le_of_lt (by rw [zpow_neg]; norm_num; linarith) b
    have c2 : (2 : K) ^ (Int.log 2 x) < 2 ^ (0 : ℤ) := lt_of_le_of_lt a (by simpa using h1)
    rw [zpow_lt_zpow_iff_right₀ (by norm_num)] at c1 c2
    omega
  unfold flRound
  rw [if_neg hx.ne']
  have : ulpExp p x = -p := by unfold ulpExp; rw [hl]; ring
  rw [this, zpow_neg, div_inv_eq_mul]

theorem rint_le_half {n : ℤ} (hn : n % 2 = 0) {x : K} (h0 : (n : K) ≤ x) (h1 : x < n + 1) : rint x = n ↔ x ≤ n + 1 / 2 := by
  have hf : ⌊x⌋ = n := by rw [Int.floor_eq_iff]; exact ⟨h0, h1⟩
  unfold rint
  rw [hf]
  constructor
  · intro h
    by_contra hc
    rw [if_neg (by linarith), if_pos (by linarith)] at h
    omega
  · intro h
    split_ifs with a b
    · rfl
    · linarith
    · rfl

theorem rint_ge_half {n : ℤ} (hn : n % 2 = 0) {x : K} (h0 : (n : K) - 1 ≤ x) (h1 : x < n) : rint x = n ↔ (n : K) - 1 / 2 ≤ x := by
  have hf : ⌊x⌋ = n - 1 := by rw [Int.floor_eq_iff]; push_cast; exact ⟨h0, by linarith⟩
  unfold rint
  rw [hf]
  push_cast
  constructor
  · intro h
    by_contra hc
    rw [if_pos (by linarith)] at h
    omega
  · intro h
    split_ifs with a b
    · linarith
    · omega
    · omega
    · omega

/-- The first cell and the second agree on where a particle just below one half goes. -/
theorem round_half_iff {p : ℕ} (hp : 2 ≤ p) {u : K} (h0 : 0 ≤ u) (h1 : u < 1 / 2) :
    flRound p (1 - u) = 1 / 2 ↔ flRound p (u + 1 / 2) = 1 := by
  have hq := two_zpow_pos (K := K) (p : ℤ)
  by_cases hu0 : u = 0
  · have hp1 : 1 ≤ p := by omega
    have a : flRound p (1 : K) = 1 := by simpa using flRound_zpow (K := K) hp1 0
    have b : flRound p (1 / 2 : K) = 1 / 2 := by
      have := flRound_zpow (K := K) hp1 (-1)
      rw [show ((2 : K) ^ (-1 : ℤ)) = 1 / 2 by norm_num] at this
      exact this
    rw [hu0, sub_zero, zero_add, a, b]
    norm_num
  · have hu : 0 < u := lt_of_le_of_ne h0 (Ne.symm hu0)
    rw [flRound_half_one (by linarith) (by linarith), flRound_half_one (x := u + 1 / 2) (by linarith) (by linarith)]
    obtain ⟨q, rfl⟩ : ∃ q, p = q + 2 := ⟨p - 2, by omega⟩
    have hP : (2 : K) ^ ((q + 2 : ℕ) : ℤ) = 4 * 2 ^ q := by
      rw [zpow_natCast, pow_add]; ring
    have hQ : (0 : K) < 2 ^ q := by positivity
    have hPi : (2 : K) ^ (-((q + 2 : ℕ) : ℤ)) = 1 / (4 * 2 ^ q) := by rw [zpow_neg, hP, one_div]
    rw [hPi, hP]
    have e1 : (1 / (4 * 2 ^ q) * (rint ((1 - u) * (4 * 2 ^ q)) : K) = 1 / 2) ↔ rint ((1 - u) * (4 * 2 ^ q)) = 2 * 2 ^ q := by
      rw [div_mul_eq_mul_div, div_eq_iff (by positivity), one_mul]
      constructor
      · intro h
        have : (rint ((1 - u) * (4 * 2 ^ q)) : K) = ((2 * 2 ^ q : ℤ) : K) := by rw [h]; push_cast; ring
        exact_mod_cast this
      · intro h
        rw [h]; push_cast; ring
    have e2 : (1 / (4 * 2 ^ q) * (rint ((u + 1 / 2) * (4 * 2 ^ q)) : K) = 1) ↔ rint ((u + 1 / 2) * (4 * 2 ^ q)) = 4 * 2 ^ q := by
      rw [div_mul_eq_mul_div, div_eq_iff (by positivity), one_mul, one_mul]
      constructor
      · intro h
        have : (rint ((u + 1 / 2) * (4 * 2 ^ q)) : K) = ((4 * 2 ^ q : ℤ) : K) := by rw [h]; push_cast; ring
        exact_mod_cast this
      · intro h
        rw [h]; push_cast; ring
    rw [e1, e2]
    -- both hold exactly if `1/2 - u` is at most half a digit
    have f1 : rint ((1 - u) * (4 * 2 ^ q)) = 2 * 2 ^ q ↔ (1 / 2 - u) * (4 * 2 ^ q) ≤ 1 / 2 := by
      by_cases hd : (1 / 2 - u) * (4 * 2 ^ q) < 1
      · rw [rint_le_half (n := 2 * 2 ^ q) (by omega) (by push_cast; nlinarith) (by push_cast; linarith)]
        push_cast
        constructor <;> intro h <;> linarith
      · push Not at hd
        have := rint_mono (K := K) (x := ((2 * 2 ^ q + 1 : ℤ) : K)) (y := (1 - u) * (4 * 2 ^ q)) (by push_cast; linarith)
        rw [rint_intCast] at this
        constructor
        · intro h; omega
        · intro h; linarith
    have f2 : rint ((u + 1 / 2) * (4 * 2 ^ q)) = 4 * 2 ^ q ↔ (1 / 2 - u) * (4 * 2 ^ q) ≤ 1 / 2 := by
      by_cases hd : (1 / 2 - u) * (4 * 2 ^ q) ≤ 1
      · rw [rint_ge_half (n := 4 * 2 ^ q) (by omega) (by push_cast; linarith) (by push_cast; nlinarith)]
        push_cast
        constructor <;> intro h <;> linarith
      · push Not at hd
        have := rint_mono (K := K) (x := (u + 1 / 2) * (4 * 2 ^ q)) (y := ((4 * 2 ^ q - 1 : ℤ) : K)) (by push_cast; linarith)
        rw [rint_intCast] at this
        constructor
        · intro h; omega
        · intro h; linarith
    rw [f1, f2]

end
end Pmesh
