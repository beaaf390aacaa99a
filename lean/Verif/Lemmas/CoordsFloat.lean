import Verif.Model.CoordsFloat
import Verif.Lemmas.FloatCell
import Mathlib.Tactic.LinearCombination

/-! # Lemmas on coordinates in floating point -/

namespace Pmesh

theorem flRound_natCast {p n : ℕ} (h : n < 2 ^ p) : flRound p (n : ℚ) = n := by
  have := flRound_int (K := ℚ) (p := p) (n := n) (by
    rw [Int.cast_natCast, abs_of_nonneg (by positivity), zpow_natCast]
    exact_mod_cast h)
  simpa using this

theorem wrapIndexF_eq {p start N j : ℕ} (hj : start + j < N) (hN : N < 2 ^ p) : wrapIndexF p start N j = (wrapIndex N ((start + j : ℕ) : ℤ) : ℚ) := by
  unfold wrapIndexF wrapIndex
  rw [flRound_natCast (by omega), flRound_natCast (by omega), flRound_natCast hN]
  have e : ((j : ℚ) + (start : ℚ)) = ((start + j : ℕ) : ℚ) := by push_cast; ring
  rw [e, flRound_natCast (by omega)]
  dsimp only
  by_cases h : N / 2 ≤ start + j
  · rw [if_pos (by exact_mod_cast h), if_pos (by exact_mod_cast h)]
    have e2 : ((start + j : ℕ) : ℚ) - (N : ℚ) = (((start + j : ℕ) : ℤ) - (N : ℤ) : ℤ) := by push_cast; ring
    rw [e2]
    refine flRound_int ?_
    rw [zpow_natCast]
    have : |((start + j : ℕ) : ℤ) - (N : ℤ)| < 2 ^ p := by
      rw [abs_lt]
      constructor
      · have : ((N : ℕ) : ℤ) < 2 ^ p := by exact_mod_cast hN
        omega
      · have : (0 : ℤ) < 2 ^ p := by positivity
        omega
    rw [← Int.cast_abs]
    exact_mod_cast this
  · rw [if_neg (by exact_mod_cast h), if_neg (by exact_mod_cast h)]
    push_cast
    ring

/-- The rounded `x * box / N` for an integer `x`. -/
def relF (p N : ℕ) (box : ℚ) (z : ℤ) : ℚ := flRound p (flRound p ((z : ℚ) * flRound p box) / flRound p (N : ℚ))

/-- The rounded `2 π z / box`. -/
def wavF (p N : ℕ) (box : ℚ) (z : ℤ) : ℚ :=
  flRound p (flRound p (flRound p ((z : ℚ) * flRound p (flRound 53 (2 * pi64 / (N : ℚ)))) * flRound p (N : ℚ)) / flRound p box)

theorem relF_neg (p N : ℕ) (box : ℚ) (z : ℤ) : relF p N box (-z) = -relF p N box z := by
  unfold relF
  rw [Int.cast_neg, neg_mul, flRound_neg, neg_div, flRound_neg]

theorem wavF_neg (p N : ℕ) (box : ℚ) (z : ℤ) : wavF p N box (-z) = -wavF p N box z := by
  unfold wavF
  rw [Int.cast_neg, neg_mul, flRound_neg, neg_mul, flRound_neg, neg_div, flRound_neg]

theorem relAxisF_getElem {p start len N j : ℕ} (box : ℚ) (hj : j < len) (hle : start + j < N) (hN : N < 2 ^ p) :
    (relAxisF p start len N box)[j]? = some (relF p N box (wrapIndex N ((start + j : ℕ) : ℤ))) := by
  simp only [relAxisF, List.getElem?_map, List.getElem?_range hj, Option.map_some]
  rw [wrapIndexF_eq hle hN]
  rfl

theorem wavAxisF_getElem {p start len N j : ℕ} (box : ℚ) (hj : j < len) (hle : start + j < N) (hN : N < 2 ^ p) :
    (wavAxisF p start len N box)[j]? = some (wavF p N box (wrapIndex N ((start + j : ℕ) : ℤ))) := by
  simp only [wavAxisF, List.getElem?_map, List.getElem?_range hj, Option.map_some]
  rw [wrapIndexF_eq hle hN]
  rfl

theorem exists_rel (p : ℕ) (x : ℚ) : ∃ δ : ℚ, |δ| ≤ 1 / 2 ^ p ∧ flRound p x = x * (1 + δ) := by
  by_cases h : x = 0
  · refine ⟨0, by rw [abs_zero]; positivity, ?_⟩
    rw [h, flRound_zero]; ring
  · refine ⟨flRound p x / x - 1, ?_, by field_simp; ring⟩
    have := flRound_err p x
    have e : flRound p x / x - 1 = (flRound p x - x) / x := by field_simp
    rw [e, abs_div, div_le_iff₀ (abs_pos.2 h)]
    calc _ ≤ _ := this
      _ = _ := by ring

end Pmesh

namespace Pmesh

/-- `a` is `b` up to `n` rounding errors of size `u`. -/
def RelErr {F : Type} [Field F] [LinearOrder F] (u : F) (n : ℕ) (a b : F) : Prop := |a - b| ≤ ((1 + u) ^ n - 1) * |b|

section
variable {F : Type} [Field F] [LinearOrder F] [IsStrictOrderedRing F] {u : F}

theorem RelErr.trans (hu : 0 ≤ u) {n m k : ℕ} {a b c : F} (h : RelErr u n a b) (h' : RelErr u m b c) (hk : n + m = k) :
    RelErr u k a c := by
  subst hk
  unfold RelErr at *
  have hn : 0 ≤ (1 + u) ^ n - 1 := sub_nonneg.2 (one_le_pow₀ (by linarith))
  have hb : |b| ≤ (1 + u) ^ m * |c| := by
    have := abs_sub_abs_le_abs_sub b c
    nlinarith
  have := abs_sub_le a b c
  have h3 : ((1 + u) ^ n - 1) * |b| ≤ ((1 + u) ^ n - 1) * ((1 + u) ^ m * |c|) := mul_le_mul_of_nonneg_left hb hn
  calc |a - c| ≤ |a - b| + |b - c| := this
    _ ≤ ((1 + u) ^ n - 1) * ((1 + u) ^ m * |c|) + ((1 + u) ^ m - 1) * |c| := by linarith
    _ = _ := by rw [pow_add]; ring

theorem RelErr.mul_right {n : ℕ} {a b : F} (h : RelErr u n a b) (c : F) : RelErr u n (a * c) (b * c) := by
  unfold RelErr at *
  rw [← sub_mul, abs_mul, abs_mul, ← mul_assoc]
  exact mul_le_mul_of_nonneg_right h (abs_nonneg _)

theorem RelErr.mul_left {n : ℕ} {a b : F} (h : RelErr u n a b) (c : F) : RelErr u n (c * a) (c * b) := by
  rw [mul_comm c a, mul_comm c b]
  exact h.mul_right c

theorem RelErr.mono (hu : 0 ≤ u) {n m : ℕ} {a b : F} (h : RelErr u n a b) (hnm : n ≤ m) : RelErr u m a b := by
  unfold RelErr at *
  have : (1 + u) ^ n ≤ (1 + u) ^ m := pow_le_pow_right₀ (by linarith) hnm
  nlinarith [abs_nonneg b]

/-- Division by a rounded number counts as two rounding errors. -/
theorem RelErr.div (hu : 0 ≤ u) (hu2 : u ≤ 1 / 2) {a b : F} (h : RelErr u 1 a b) (c : F) : RelErr u 2 (c / a) (c / b) := by
  unfold RelErr at *
  by_cases hb : b = 0
  · subst hb
    have : a = 0 := by simpa using h
    simp [this]
  · have hb' : 0 < |b| := abs_pos.2 hb
    have h1 : |a - b| ≤ u * |b| := by linarith
    have h2 : |b| / 2 ≤ |a| := by
      have := abs_sub_abs_le_abs_sub b a
      rw [abs_sub_comm] at this
      nlinarith
    have h2' : (1 - u) * |b| ≤ |a| := by
      have := abs_sub_abs_le_abs_sub b a
      rw [abs_sub_comm] at this
      nlinarith
    have ha : 0 < |a| := by linarith
    have ha0 : a ≠ 0 := abs_pos.1 ha
    have e : c / a - c / b = c / b * ((b - a) / a) := by field_simp
    rw [e, abs_mul, mul_comm]
    refine mul_le_mul_of_nonneg_right ?_ (abs_nonneg _)
    rw [abs_div, abs_sub_comm, div_le_iff₀ ha]
    calc |a - b| ≤ u * |b| := h1
      _ ≤ ((1 + u) ^ 2 - 1) * ((1 - u) * |b|) := by nlinarith [mul_nonneg hu hb'.le, mul_nonneg (mul_nonneg hu hu) hb'.le]
      _ ≤ _ := mul_le_mul_of_nonneg_left h2' (by nlinarith)

end

theorem RelErr.round (p : ℕ) (x : ℚ) : RelErr (1 / 2 ^ p) 1 (flRound p x) x := by
  unfold RelErr
  have := flRound_err p x
  calc _ ≤ _ := this
    _ = _ := by ring

theorem relF_err {p N : ℕ} (hN : N < 2 ^ p) (box : ℚ) (z : ℤ) :
    RelErr (1 / 2 ^ p) 3 (relF p N box z) (z * box / N) := by
  have hu : (0 : ℚ) ≤ 1 / 2 ^ p := by positivity
  unfold relF
  rw [flRound_natCast hN]
  have h1 := RelErr.round p box
  obtain ⟨b, hb⟩ : ∃ b, b = flRound p box := ⟨_, rfl⟩
  rw [← hb] at h1 ⊢
  have h2 := RelErr.round p ((z : ℚ) * b)
  obtain ⟨c, hc⟩ : ∃ c, c = flRound p ((z : ℚ) * b) := ⟨_, rfl⟩
  rw [← hc] at h2 ⊢
  have h3 := RelErr.round p (c / N)
  obtain ⟨d, hd⟩ : ∃ d, d = flRound p (c / N) := ⟨_, rfl⟩
  rw [← hd] at h3 ⊢
  have h4 : RelErr (1 / 2 ^ p) 2 c ((z : ℚ) * box) := h2.trans hu (h1.mul_left _) rfl
  have h5 := h4.mul_right (N : ℚ)⁻¹
  rw [← div_eq_mul_inv, ← div_eq_mul_inv] at h5
  exact h3.trans hu h5 rfl

theorem wavF_err {p N : ℕ} (hp : 1 ≤ p) (hp53 : p ≤ 53) (hN0 : 0 < N) (hN : N < 2 ^ p) (box : ℚ) (z : ℤ) :
    RelErr (1 / 2 ^ p) 7 (wavF p N box z) (2 * pi64 * z / box) := by
  have hu : (0 : ℚ) ≤ 1 / 2 ^ p := by positivity
  have hu2 : (1 : ℚ) / 2 ^ p ≤ 1 / 2 := by
    have : (2 : ℚ) ^ 1 ≤ 2 ^ p := pow_le_pow_right₀ (by norm_num) hp
    exact one_div_le_one_div_of_le (by norm_num) (by linarith)
  have h53 : ∀ x : ℚ, RelErr (1 / 2 ^ p) 1 (flRound 53 x) x := by
    intro x
    have := RelErr.round 53 x
    unfold RelErr at this ⊢
    have hle : (1 : ℚ) / 2 ^ 53 ≤ 1 / 2 ^ p := one_div_le_one_div_of_le (by positivity) (pow_le_pow_right₀ (by norm_num) hp53)
    refine this.trans ?_
    refine mul_le_mul_of_nonneg_right ?_ (abs_nonneg _)
    linarith
  unfold wavF
  rw [flRound_natCast hN]
  obtain ⟨q, hq⟩ : ∃ q, q = 2 * pi64 := ⟨_, rfl⟩
  rw [← hq]
  have e : q * (z : ℚ) / box = (z : ℚ) * (q / N) * N / box := by
    have : (N : ℚ) ≠ 0 := by exact_mod_cast hN0.ne'
    field_simp
  rw [e]
  have h1 := h53 (q / N)
  obtain ⟨a, ha⟩ : ∃ a, a = flRound 53 (q / N) := ⟨_, rfl⟩
  rw [← ha] at h1 ⊢
  have h2 := RelErr.round p a
  obtain ⟨b, hb⟩ : ∃ b, b = flRound p a := ⟨_, rfl⟩
  rw [← hb] at h2 ⊢
  have h3 := RelErr.round p ((z : ℚ) * b)
  obtain ⟨c, hc⟩ : ∃ c, c = flRound p ((z : ℚ) * b) := ⟨_, rfl⟩
  rw [← hc] at h3 ⊢
  have h4 := RelErr.round p (c * N)
  obtain ⟨d, hd⟩ : ∃ d, d = flRound p (c * N) := ⟨_, rfl⟩
  rw [← hd] at h4 ⊢
  have h5 := RelErr.round p box
  obtain ⟨x, hx⟩ : ∃ x, x = flRound p box := ⟨_, rfl⟩
  rw [← hx] at h5 ⊢
  have h6 := RelErr.round p (d / x)
  obtain ⟨y, hy⟩ : ∃ y, y = flRound p (d / x) := ⟨_, rfl⟩
  rw [← hy] at h6 ⊢
  have k1 : RelErr (1 / 2 ^ p) 2 b (q / N) := h2.trans hu h1 rfl
  have k2 : RelErr (1 / 2 ^ p) 3 c ((z : ℚ) * (q / N)) := h3.trans hu (k1.mul_left _) rfl
  have k3 : RelErr (1 / 2 ^ p) 4 d ((z : ℚ) * (q / N) * N) := h4.trans hu (k2.mul_right _) rfl
  have k4 := k3.mul_right box⁻¹
  rw [← div_eq_mul_inv, ← div_eq_mul_inv] at k4
  have k5 : RelErr (1 / 2 ^ p) 6 (d / x) _ := (h5.div hu hu2 d).trans hu k4 rfl
  exact h6.trans hu k5 rfl

end Pmesh
