import Verif.Model.Invariant
import Mathlib.Tactic.Ring

/-! The arithmetic that counts the bits of a 32 bit integer, byte by byte. -/

namespace Pmesh

/-- Number of bits that are set among the lowest `n`. -/
def nbitsAux : ℕ → ℕ → ℕ
  | 0, _ => 0
  | n + 1, m => m % 2 + nbitsAux n (m / 2)

/-- Number of bits of a 32 bit integer. -/
def nbits (m : ℕ) : ℕ := nbitsAux 32 m

theorem land_bytes {a m : ℕ} (ha : a < 256) (hm : m < 256) (b M : ℕ) : (a + 256 * b) &&& (m + 256 * M) = (a &&& m) + 256 * (b &&& M) := by
  apply Nat.eq_of_testBit_eq
  intro i
  have h1 : a &&& m < 2 ^ 8 := lt_of_le_of_lt Nat.and_le_left (by omega)
  rw [Nat.testBit_and, show a + 256 * b = 2 ^ 8 * b + a by omega, show m + 256 * M = 2 ^ 8 * M + m by omega,
    show (a &&& m) + 256 * (b &&& M) = 2 ^ 8 * (b &&& M) + (a &&& m) by omega,
    Nat.testBit_two_pow_mul_add _ (by omega), Nat.testBit_two_pow_mul_add _ (by omega), Nat.testBit_two_pow_mul_add _ h1]
  split_ifs <;> simp

theorem nbitsAux_bytes (j k a b : ℕ) (ha : a < 2 ^ j) : nbitsAux (j + k) (a + 2 ^ j * b) = nbitsAux j a + nbitsAux k b := by
  induction j generalizing a with
  | zero =>
    have : a = 0 := by simpa using ha
    subst this
    simp [nbitsAux]
  | succ j ih =>
    rw [show j + 1 + k = (j + k) + 1 by omega]
    simp only [nbitsAux]
    have e1 : (a + 2 ^ (j + 1) * b) / 2 = a / 2 + 2 ^ j * b := by
      rw [pow_succ', Nat.mul_assoc]; omega
    have e2 : (a + 2 ^ (j + 1) * b) % 2 = a % 2 := by
      rw [pow_succ', Nat.mul_assoc]; omega
    rw [e1, e2, ih (a / 2) (by rw [pow_succ] at ha; omega)]
    omega

/-- The first step on one byte. -/
def byte1 (a : ℕ) : ℕ := a - (a / 2 &&& 0x55)
/-- The second step on one byte. -/
def byte2 (a : ℕ) : ℕ := (a &&& 0x33) + (a / 4 &&& 0x33)
/-- The third step on one byte. -/
def byte3 (a : ℕ) : ℕ := a % 16 + a / 16

theorem byte1_ok : ∀ a < 256, (∀ r < 2, (a / 2 + 128 * r) &&& 0x55 = a / 2 &&& 0x55) ∧ (a / 2 &&& 0x55) ≤ a ∧ byte1 a < 256 := by decide +kernel

theorem byte2_ok : ∀ a < 256, (∀ r < 4, (a / 4 + 64 * r) &&& 0x33 = a / 4 &&& 0x33) ∧ byte2 a % 16 ≤ 8 ∧ byte2 a / 16 ≤ 8 ∧ byte2 a < 256 := by decide +kernel

theorem byte12_ok : ∀ a < 256, byte2 (byte1 a) % 16 ≤ 4 ∧ byte2 (byte1 a) / 16 ≤ 4 ∧ byte3 (byte2 (byte1 a)) = nbitsAux 8 a := by decide +kernel

theorem land15 : ∀ a < 256, a &&& 0x0f = a % 16 := by decide +kernel

theorem land_word {a b c d m : ℕ} (ha : a < 256) (hb : b < 256) (hc : c < 256) (hd : d < 256) (hm : m < 256) :
    (a + 256 * (b + 256 * (c + 256 * d))) &&& (m + 256 * (m + 256 * (m + 256 * m))) =
      (a &&& m) + 256 * ((b &&& m) + 256 * ((c &&& m) + 256 * (d &&& m))) := by
  rw [land_bytes ha hm, land_bytes hb hm, land_bytes hc hm]

theorem nbitsAux_byte (k a b : ℕ) (ha : a < 256) : nbitsAux (8 + k) (a + 256 * b) = nbitsAux 8 a + nbitsAux k b :=
  nbitsAux_bytes 8 k a b ha

theorem nbits_bytes {a b c d : ℕ} (ha : a < 256) (hb : b < 256) (hc : c < 256) :
    nbits (a + 256 * (b + 256 * (c + 256 * d))) = nbitsAux 8 a + (nbitsAux 8 b + (nbitsAux 8 c + nbitsAux 8 d)) := by
  rw [← nbitsAux_byte 8 c d hc, ← nbitsAux_byte _ b _ hb, ← nbitsAux_byte _ a _ ha]
  rfl

theorem swar1 {a b c d : ℕ} (ha : a < 256) (hb : b < 256) (hc : c < 256) (hd : d < 256) :
    (a + 256 * (b + 256 * (c + 256 * d)) + (2 ^ 32 - (((a + 256 * (b + 256 * (c + 256 * d))) >>> 1) &&& 0x55555555))) % 2 ^ 32
      = byte1 a + 256 * (byte1 b + 256 * (byte1 c + 256 * byte1 d)) := by
  have e : (a + 256 * (b + 256 * (c + 256 * d))) >>> 1
      = (a / 2 + 128 * (b % 2)) + 256 * ((b / 2 + 128 * (c % 2)) + 256 * ((c / 2 + 128 * (d % 2)) + 256 * (d / 2 + 128 * 0))) := by
    rw [Nat.shiftRight_eq_div_pow]; omega
  have m : 0x55555555 = 0x55 + 256 * (0x55 + 256 * (0x55 + 256 * 0x55)) := rfl
  rw [e, m, land_word (by omega) (by omega) (by omega) (by omega) (by omega), (byte1_ok a ha).1 _ (by omega), (byte1_ok b hb).1 _ (by omega),
    (byte1_ok c hc).1 _ (by omega), (byte1_ok d hd).1 _ (by omega)]
  have ha2 := (byte1_ok a ha).2.1
  have hb2 := (byte1_ok b hb).2.1
  have hc2 := (byte1_ok c hc).2.1
  have hd2 := (byte1_ok d hd).2.1
  unfold byte1
  omega

theorem swar2 {a b c d : ℕ} (ha : a < 256) (hb : b < 256) (hc : c < 256) (hd : d < 256) :
    (((a + 256 * (b + 256 * (c + 256 * d))) &&& 0x33333333) + (((a + 256 * (b + 256 * (c + 256 * d))) >>> 2) &&& 0x33333333)) % 2 ^ 32
      = byte2 a + 256 * (byte2 b + 256 * (byte2 c + 256 * byte2 d)) := by
  have e : (a + 256 * (b + 256 * (c + 256 * d))) >>> 2
      = (a / 4 + 64 * (b % 4)) + 256 * ((b / 4 + 64 * (c % 4)) + 256 * ((c / 4 + 64 * (d % 4)) + 256 * (d / 4 + 64 * 0))) := by
    rw [Nat.shiftRight_eq_div_pow]; omega
  have m : 0x33333333 = 0x33 + 256 * (0x33 + 256 * (0x33 + 256 * 0x33)) := rfl
  rw [e, m, land_word ha hb hc hd (by omega), land_word (by omega) (by omega) (by omega) (by omega) (by omega), (byte2_ok a ha).1 _ (by omega), (byte2_ok b hb).1 _ (by omega),
    (byte2_ok c hc).1 _ (by omega), (byte2_ok d hd).1 _ (by omega)]
  have ha2 := (byte2_ok a ha).2.2.2
  have hb2 := (byte2_ok b hb).2.2.2
  have hc2 := (byte2_ok c hc).2.2.2
  have hd2 := (byte2_ok d hd).2.2.2
  unfold byte2 at *
  omega

theorem nibble {a X : ℕ} (h1 : a % 16 ≤ 4) (h2 : a / 16 ≤ 4) (hX : X ≤ 8) :
    (a % 16 + a / 16 + 16 * X) &&& 0x0f = a % 16 + a / 16 ∧ a % 16 + a / 16 + 16 * X < 256 := by
  have h : a % 16 + a / 16 + 16 * X < 256 := by omega
  refine ⟨?_, h⟩
  rw [land15 _ h]
  omega

theorem swar3 {a b c d : ℕ} (h1 : a % 16 ≤ 4) (h2 : a / 16 ≤ 4) (h3 : b % 16 ≤ 4) (h4 : b / 16 ≤ 4) (h5 : c % 16 ≤ 4) (h6 : c / 16 ≤ 4)
    (h7 : d % 16 ≤ 4) (h8 : d / 16 ≤ 4) :
    ((a + 256 * (b + 256 * (c + 256 * d)) + ((a + 256 * (b + 256 * (c + 256 * d))) >>> 4)) % 2 ^ 32) &&& 0x0f0f0f0f
      = byte3 a + 256 * (byte3 b + 256 * (byte3 c + 256 * byte3 d)) := by
  have e : (a + 256 * (b + 256 * (c + 256 * d)) + ((a + 256 * (b + 256 * (c + 256 * d))) >>> 4)) % 2 ^ 32
      = (a % 16 + a / 16 + 16 * (a / 16 + b % 16)) + 256 * ((b % 16 + b / 16 + 16 * (b / 16 + c % 16)) + 256 * ((c % 16 + c / 16 + 16 * (c / 16 + d % 16))
        + 256 * (d % 16 + d / 16 + 16 * (d / 16)))) := by
    rw [Nat.shiftRight_eq_div_pow]; omega
  have m : 0x0f0f0f0f = 0x0f + 256 * (0x0f + 256 * (0x0f + 256 * 0x0f)) := rfl
  have n1 := nibble h1 h2 (show a / 16 + b % 16 ≤ 8 by omega)
  have n2 := nibble h3 h4 (show b / 16 + c % 16 ≤ 8 by omega)
  have n3 := nibble h5 h6 (show c / 16 + d % 16 ≤ 8 by omega)
  have n4 := nibble h7 h8 (show d / 16 ≤ 8 by omega)
  rw [e, m, land_word n1.2 n2.2 n3.2 n4.2 (by omega), n1.1, n2.1, n3.1, n4.1]
  rfl

theorem swar4 {a b c d : ℕ} (h1 : a ≤ 8) (h2 : b ≤ 8) (h3 : c ≤ 8) (h4 : d ≤ 8) :
    ((a + 256 * (b + 256 * (c + 256 * d))) * 0x01010101 % 2 ^ 32) >>> 24 = a + b + c + d := by
  rw [Nat.shiftRight_eq_div_pow]
  have e : (a + 256 * (b + 256 * (c + 256 * d))) * 0x01010101
      = ((a + b + c + d) * 2 ^ 24 + (a + 256 * (a + b) + 65536 * (a + b + c))) + 2 ^ 32 * ((b + c + d) + 256 * (c + d) + 65536 * d) := by ring
  rw [e, Nat.add_mul_mod_self_left, Nat.mod_eq_of_lt (by omega)]
  omega

theorem swarBits_bytes {a b c d : ℕ} (ha : a < 256) (hb : b < 256) (hc : c < 256) (hd : d < 256) :
    swarBits (a + 256 * (b + 256 * (c + 256 * d))) = nbitsAux 8 a + nbitsAux 8 b + nbitsAux 8 c + nbitsAux 8 d := by
  have q1 := byte12_ok a ha
  have q2 := byte12_ok b hb
  have q3 := byte12_ok c hc
  have q4 := byte12_ok d hd
  unfold swarBits
  simp only
  rw [swar1 ha hb hc hd, swar2 (byte1_ok a ha).2.2 (byte1_ok b hb).2.2 (byte1_ok c hc).2.2 (byte1_ok d hd).2.2,
    swar3 q1.1 q1.2.1 q2.1 q2.2.1 q3.1 q3.2.1 q4.1 q4.2.1, swar4, q1.2.2, q2.2.2, q3.2.2, q4.2.2]
  all_goals (unfold byte3; omega)

/-- Counting bits in parallel gives the number of bits. -/
theorem swarBits_eq {v : ℕ} (hv : v < 2 ^ 32) : swarBits v = nbits v := by
  obtain ⟨a, b, c, d, ha, hb, hc, hd, rfl⟩ : ∃ a b c d, a < 256 ∧ b < 256 ∧ c < 256 ∧ d < 256 ∧ v = a + 256 * (b + 256 * (c + 256 * d)) :=
    ⟨v % 256, v / 256 % 256, v / 65536 % 256, v / 16777216, by omega, by omega, by omega, by omega, by omega⟩
  rw [nbits_bytes ha hb hc, swarBits_bytes ha hb hc hd]
  omega

end Pmesh
