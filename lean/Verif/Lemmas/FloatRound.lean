import Verif.Model.Rounding
import Verif.Model.OldCic
import Mathlib.Data.Int.Log
import Mathlib.Tactic.Positivity
import Mathlib.Tactic.FieldSimp
import Mathlib.Tactic.Linarith
import Mathlib.Tactic.Ring

/-!
# Binary floating point with round to nearest even is a `Rounding`
-/

set_option linter.unusedSectionVars false

namespace Pmesh

section
variable {K : Type*} [Field K] [LinearOrder K] [IsStrictOrderedRing K] [FloorRing K]

theorem rint_intCast (m : ℤ) : rint (m : K) = m := by
  unfold rint
  rw [Int.floor_intCast, sub_self, if_pos (by norm_num)]

theorem rint_err (x : K) : |(rint x : K) - x| ≤ 1 / 2 := by
  have h0 := Int.floor_le x
  have h1 := Int.lt_floor_add_one x
  unfold rint
  split_ifs with a b c <;> push_cast <;> rw [abs_le] <;> constructor <;> linarith

theorem rint_mono {x y : K} (h : x ≤ y) : rint x ≤ rint y := by
  have hf := Int.floor_mono h
  have x0 := Int.floor_le x
  have x1 := Int.lt_floor_add_one x
  have y0 := Int.floor_le y
  have y1 := Int.lt_floor_add_one y
  have lx : rint x ≤ ⌊x⌋ + 1 := by unfold rint; split_ifs <;> omega
  have ly : ⌊y⌋ ≤ rint y := by unfold rint; split_ifs <;> omega
  rcases hf.lt_or_eq with hlt | heq
  · omega
  · unfold rint
    rw [← heq] at y0 y1 ⊢
    by_cases a : x - ⌊x⌋ < 1 / 2
    · rw [if_pos a]
      split_ifs <;> omega
    · rw [if_neg a]
      have a' : ¬ y - ⌊x⌋ < 1 / 2 := by intro hh; apply a; linarith
      rw [if_neg a']
      by_cases b : 1 / 2 < x - ⌊x⌋
      · have b' : 1 / 2 < y - ⌊x⌋ := by linarith
        rw [if_pos b, if_pos b']
      · rw [if_neg b]
        split_ifs <;> omega

theorem rint_neg (x : K) : rint (-x) = -rint x := by
  have x0 := Int.floor_le x
  have x1 := Int.lt_floor_add_one x
  by_cases hi : x = ⌊x⌋
  · rw [hi, ← Int.cast_neg, rint_intCast, rint_intCast]
  · have hlt : (⌊x⌋ : K) < x := lt_of_le_of_ne x0 fun h => hi h.symm
    have hf : ⌊-x⌋ = -⌊x⌋ - 1 := by
      rw [Int.floor_eq_iff]
      push_cast
      constructor <;> linarith
    unfold rint
    rw [hf]
    push_cast
    by_cases a : x - ⌊x⌋ < 1 / 2
    · rw [if_pos a, if_neg (by linarith), if_pos (by linarith)]
      ring
    · rw [if_neg a]
      by_cases b : 1 / 2 < x - ⌊x⌋
      · rw [if_pos b, if_pos (by linarith)]
        ring
      · rw [if_neg b, if_neg (by linarith), if_neg (by linarith)]
        split_ifs <;> omega

/-- Exponent of the last digit of a number in a binary format with `p` digits. -/
def ulpExp (p : ℕ) (x : K) : ℤ := Int.log 2 |x| + 1 - p

/-- Round to nearest, ties to even, binary with `p` digits and any exponent (53 digits are `float64`, 24 `float32`). -/
def flRound (p : ℕ) (x : K) : K := if x = 0 then 0 else 2 ^ ulpExp p x * (rint (x / 2 ^ ulpExp p x) : K)

theorem flRound_neg (p : ℕ) (x : K) : flRound p (-x) = -flRound p x := by
  unfold flRound
  by_cases h : x = 0
  · simp [h]
  · rw [if_neg h, if_neg (by simpa using h)]
    have : ulpExp p (-x) = ulpExp p x := by unfold ulpExp; rw [abs_neg]
    rw [this, neg_div, rint_neg]
    push_cast
    ring

theorem two_zpow_pos (k : ℤ) : (0 : K) < 2 ^ k := zpow_pos two_pos k

theorem log_bounds {x : K} (hx : x ≠ 0) : (2 : K) ^ Int.log 2 |x| ≤ |x| ∧ |x| < 2 ^ (Int.log 2 |x| + 1) := by
  have h := abs_pos.2 hx
  have a := Int.zpow_log_le_self (b := 2) (r := |x|) (by norm_num) h
  have b := Int.lt_zpow_succ_log_self (b := 2) (by norm_num) |x|
  push_cast at a b
  exact ⟨a, b⟩

/-- A multiple of `2 ^ k`, `k` at least the exponent of the last digit, is in the format. -/
theorem flRound_of_mul (p : ℕ) {x : K} {k m : ℤ} (h : x = m * 2 ^ k) (hk : ulpExp p x ≤ k) : flRound p x = x := by
  unfold flRound
  by_cases h0 : x = 0
  · rw [if_pos h0, h0]
  · rw [if_neg h0]
    obtain ⟨j, hj⟩ := Int.eq_ofNat_of_zero_le (show 0 ≤ k - ulpExp p x by omega)
    have hp := two_zpow_pos (K := K) (ulpExp p x)
    have e : x = 2 ^ ulpExp p x * ((m * 2 ^ j : ℤ) : K) := by
      have : k = ulpExp p x + j := by omega
      conv_lhs => rw [h, this, zpow_add₀ (by norm_num), zpow_natCast]
      push_cast
      ring
    have e2 : x / 2 ^ ulpExp p x = ((m * 2 ^ j : ℤ) : K) := by
      rw [div_eq_iff hp.ne']
      conv_lhs => rw [e]
      rw [mul_comm]
    rw [e2, rint_intCast]
    exact e.symm

theorem exists_mul_of_flRound (p : ℕ) {x : K} (h : flRound p x = x) : ∃ m : ℤ, x = m * 2 ^ ulpExp p x := by
  unfold flRound at h
  by_cases h0 : x = 0
  · exact ⟨0, by rw [h0]; simp⟩
  · rw [if_neg h0] at h
    exact ⟨_, by rw [mul_comm]; exact h.symm⟩

theorem flRound_zpow {p : ℕ} (hp : 1 ≤ p) (k : ℤ) : flRound p ((2 : K) ^ k) = 2 ^ k := by
  have h := two_zpow_pos (K := K) k
  apply flRound_of_mul p (k := k) (m := 1) (by push_cast; ring)
  unfold ulpExp
  rw [abs_of_pos h]
  have : Int.log 2 ((2 : K) ^ k) = k := by
    have := Int.log_zpow (R := K) (b := 2) (by norm_num) k
    simpa using this
  rw [this]
  omega

/-- Rounding a positive number stays in its binade or gives the next power of two. -/
theorem flRound_binade {p : ℕ} (hp : 1 ≤ p) {x : K} (hx : 0 < x) :
    (2 : K) ^ Int.log 2 |x| ≤ flRound p x ∧ flRound p x ≤ 2 ^ (Int.log 2 |x| + 1) := by
  obtain ⟨l0, l1⟩ := log_bounds hx.ne'
  set k := Int.log 2 |x| with hk
  have hu := two_zpow_pos (K := K) (ulpExp p x)
  have hue : ulpExp p x = k + 1 - p := rfl
  unfold flRound
  rw [if_neg hx.ne']
  rw [abs_of_pos hx] at l0 l1
  obtain ⟨q, rfl⟩ : ∃ q, p = q + 1 := ⟨p - 1, by omega⟩
  have e1 : (2 : K) ^ k = 2 ^ ulpExp (q + 1) x * ((2 ^ q : ℤ) : K) := by
    push_cast
    rw [← zpow_natCast, ← zpow_add₀ (by norm_num), hue]
    congr 1
    push_cast
    ring
  have e2 : (2 : K) ^ (k + 1) = 2 ^ ulpExp (q + 1) x * ((2 ^ (q + 1) : ℤ) : K) := by
    push_cast
    rw [← zpow_natCast, ← zpow_add₀ (by norm_num), hue]
    congr 1
    push_cast
    ring
  constructor
  · rw [e1]
    apply mul_le_mul_of_nonneg_left _ hu.le
    rw [Int.cast_le, ← rint_intCast (K := K) (2 ^ q)]
    apply rint_mono
    rw [le_div_iff₀ hu, mul_comm, ← e1]
    exact l0
  · rw [e2]
    apply mul_le_mul_of_nonneg_left _ hu.le
    rw [Int.cast_le, ← rint_intCast (K := K) (2 ^ (q + 1))]
    apply rint_mono
    rw [div_le_iff₀ hu, mul_comm, ← e2]
    exact l1.le

theorem flRound_pos {p : ℕ} (hp : 1 ≤ p) {x : K} (hx : 0 < x) : 0 < flRound p x :=
  lt_of_lt_of_le (two_zpow_pos _) (flRound_binade hp hx).1

theorem flRound_zero (p : ℕ) : flRound p (0 : K) = 0 := if_pos rfl

theorem flRound_mono_pos {p : ℕ} (hp : 1 ≤ p) {x y : K} (hx : 0 < x) (h : x ≤ y) : flRound p x ≤ flRound p y := by
  have hy : 0 < y := lt_of_lt_of_le hx h
  have hlog : Int.log 2 |x| ≤ Int.log 2 |y| := by
    rw [abs_of_pos hx, abs_of_pos hy]
    exact Int.log_mono_right hx h
  rcases hlog.lt_or_eq with hl | hl
  · have a := (flRound_binade hp hx).2
    have b := (flRound_binade hp hy).1
    have c : (2 : K) ^ (Int.log 2 |x| + 1) ≤ 2 ^ Int.log 2 |y| := zpow_le_zpow_right₀ (by norm_num) (by omega)
    linarith
  · have e : ulpExp p x = ulpExp p y := by unfold ulpExp; rw [hl]
    have hu := two_zpow_pos (K := K) (ulpExp p y)
    unfold flRound
    rw [if_neg hx.ne', if_neg hy.ne', e]
    apply mul_le_mul_of_nonneg_left _ hu.le
    rw [Int.cast_le]
    apply rint_mono
    exact div_le_div_of_nonneg_right h hu.le

theorem flRound_mono {p : ℕ} (hp : 1 ≤ p) : Monotone (flRound p : K → K) := by
  intro x y h
  rcases lt_trichotomy x 0 with hx | hx | hx
  · rcases lt_trichotomy y 0 with hy | hy | hy
    · have := flRound_mono_pos hp (neg_pos.2 hy) (neg_le_neg h)
      rw [flRound_neg, flRound_neg] at this
      linarith
    · have := flRound_pos hp (neg_pos.2 hx)
      rw [flRound_neg] at this
      rw [hy, flRound_zero]
      linarith
    · have a := flRound_pos hp (neg_pos.2 hx)
      have b := flRound_pos hp hy
      rw [flRound_neg] at a
      linarith
  · rcases h.lt_or_eq with hy | hy
    · rw [hx, flRound_zero]
      exact (flRound_pos hp (hx ▸ hy)).le
    · rw [hy]
  · exact flRound_mono_pos hp hx h

theorem flRound_idem_pos {p : ℕ} (hp : 1 ≤ p) {x : K} (hx : 0 < x) : flRound p (flRound p x) = flRound p x := by
  obtain ⟨a, b⟩ := flRound_binade hp hx
  rcases b.lt_or_eq with b | b
  · have h0 := flRound_pos hp hx
    refine flRound_of_mul p (k := ulpExp p x) (m := rint (x / 2 ^ ulpExp p x)) ?_ ?_
    · conv_lhs => rw [flRound, if_neg hx.ne']
      ring
    · unfold ulpExp
      have : Int.log 2 |flRound p x| < Int.log 2 |x| + 1 := by
        obtain ⟨c, -⟩ := log_bounds h0.ne'
        rw [abs_of_pos h0] at c ⊢
        have := lt_of_le_of_lt c b
        rwa [zpow_lt_zpow_iff_right₀ (by norm_num)] at this
      omega
  · rw [b]
    exact flRound_zpow hp _

theorem flRound_idem {p : ℕ} (hp : 1 ≤ p) (x : K) : flRound p (flRound p x) = flRound p x := by
  rcases lt_trichotomy x 0 with hx | hx | hx
  · have := flRound_idem_pos hp (neg_pos.2 hx)
    rw [flRound_neg, flRound_neg] at this
    exact neg_injective this
  · rw [hx, flRound_zero, flRound_zero]
  · exact flRound_idem_pos hp hx

theorem cFmod_abs {x b : K} (hb : b ≠ 0) : |cFmod x b| ≤ |x| ∧ |cFmod x b| < |b| := by
  have hb' := abs_pos.2 hb
  have key : cFmod x b = b * (x / b - ((if 0 ≤ x / b then ⌊x / b⌋ else ⌈x / b⌉ : ℤ) : K)) := by
    unfold cFmod
    rw [mul_sub, mul_div_cancel₀ _ hb]
  have hx : |x| = |b| * |x / b| := by rw [← abs_mul, mul_div_cancel₀ _ hb]
  have hq : |x / b - ((if 0 ≤ x / b then ⌊x / b⌋ else ⌈x / b⌉ : ℤ) : K)| ≤ |x / b| ∧
      |x / b - ((if 0 ≤ x / b then ⌊x / b⌋ else ⌈x / b⌉ : ℤ) : K)| < 1 := by
    generalize x / b = q
    by_cases h : 0 ≤ q
    · have h0 := Int.floor_le q
      have h1 := Int.lt_floor_add_one q
      have h2 : (0 : K) ≤ ⌊q⌋ := by exact_mod_cast Int.floor_nonneg.2 h
      rw [if_pos h, abs_of_nonneg h, abs_of_nonneg (by linarith)]
      constructor <;> linarith
    · have h0 := Int.le_ceil q
      have h1 := Int.ceil_lt_add_one q
      have h' := not_le.1 h
      have h2 : (⌈q⌉ : K) ≤ 0 := by exact_mod_cast Int.ceil_le.2 (by simpa using h'.le)
      rw [if_neg h, abs_of_neg h', abs_of_nonpos (by linarith)]
      constructor <;> linarith
  rw [key, abs_mul, hx]
  refine ⟨mul_le_mul_of_nonneg_left hq.1 hb'.le, ?_⟩
  calc |b| * _ < |b| * 1 := mul_lt_mul_of_pos_left hq.2 hb'
    _ = |b| := mul_one _

theorem flRound_fmod (p : ℕ) (x b : K) (hx : flRound p x = x) (hb : flRound p b = b) :
    flRound p (cFmod x b) = cFmod x b := by
  by_cases h0 : b = 0
  · have : cFmod x b = x := by unfold cFmod; rw [h0]; ring
    rw [this, hx]
  · obtain ⟨a1, a2⟩ := cFmod_abs (x := x) h0
    by_cases hr : cFmod x b = 0
    · rw [hr, flRound_zero]
    · have hr' := abs_pos.2 hr
      obtain ⟨m, hm⟩ := exists_mul_of_flRound p hx
      obtain ⟨n, hn⟩ := exists_mul_of_flRound p hb
      have l1 : ulpExp p (cFmod x b) ≤ ulpExp p x := by
        unfold ulpExp
        have := Int.log_mono_right (b := 2) hr' a1
        omega
      have l2 : ulpExp p (cFmod x b) ≤ ulpExp p b := by
        unfold ulpExp
        have := Int.log_mono_right (b := 2) hr' a2.le
        omega
      set t : ℤ := if 0 ≤ x / b then ⌊x / b⌋ else ⌈x / b⌉ with ht
      set k := ulpExp p (cFmod x b) with hk
      obtain ⟨i, hi⟩ := Int.eq_ofNat_of_zero_le (show 0 ≤ ulpExp p x - k by omega)
      obtain ⟨j, hj⟩ := Int.eq_ofNat_of_zero_le (show 0 ≤ ulpExp p b - k by omega)
      refine flRound_of_mul p (k := k) (m := m * 2 ^ i - n * 2 ^ j * t) ?_ le_rfl
      have ex : x = m * 2 ^ i * 2 ^ k := by
        conv_lhs => rw [hm, show ulpExp p x = i + k by omega, zpow_add₀ (by norm_num), zpow_natCast]
        ring
      have eb : b = n * 2 ^ j * 2 ^ k := by
        conv_lhs => rw [hn, show ulpExp p b = j + k by omega, zpow_add₀ (by norm_num), zpow_natCast]
        ring
      have : cFmod x b = x - b * (t : K) := rfl
      rw [this]
      push_cast
      conv_lhs => rw [ex, eb]
      ring

/-- The relative error is at most `2 ^ -p`. -/
theorem flRound_err (p : ℕ) (x : K) : |flRound p x - x| ≤ |x| / 2 ^ p := by
  by_cases h : x = 0
  · rw [h, flRound_zero]; simp
  · obtain ⟨l0, -⟩ := log_bounds h
    have hu := two_zpow_pos (K := K) (ulpExp p x)
    have e : flRound p x - x = 2 ^ ulpExp p x * ((rint (x / 2 ^ ulpExp p x) : K) - x / 2 ^ ulpExp p x) := by
      rw [flRound, if_neg h, mul_sub, mul_div_cancel₀ _ hu.ne']
    rw [e, abs_mul, abs_of_pos hu]
    have h1 := mul_le_mul_of_nonneg_left (rint_err (x / 2 ^ ulpExp p x)) hu.le
    have h2 : (2 : K) ^ ulpExp p x * (1 / 2) = 2 ^ Int.log 2 |x| / 2 ^ p := by
      unfold ulpExp
      rw [zpow_sub₀ (by norm_num), zpow_add₀ (by norm_num), zpow_natCast, zpow_one]
      field_simp
    rw [h2] at h1
    refine h1.trans ?_
    exact div_le_div_of_nonneg_right l0 (by positivity)

/-- Binary floating point with `p` digits. -/
def binary (p : ℕ) (hp : 1 ≤ p) : Rounding K where
  rnd := flRound p
  mono := flRound_mono hp
  idem := flRound_idem hp
  zero := flRound_zero p
  fmod := flRound_fmod p

/-- Exact arithmetic. -/
def exactArith : Rounding K where
  rnd := id
  mono := monotone_id
  idem := fun _ => rfl
  zero := rfl
  fmod := fun _ _ _ _ => rfl

end
end Pmesh
