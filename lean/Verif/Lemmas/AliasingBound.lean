import Verif.Lemmas.Aliasing
import Mathlib.NumberTheory.ZetaValues

/-! # Size of the aliases -/

namespace Pmesh

open Complex

theorem hasSum_odd : HasSum (fun n : ℕ => 1 / (2 * (n : ℝ) + 1) ^ 2) (Real.pi ^ 2 / 8) := by
  obtain ⟨f, hf⟩ : ∃ f : ℕ → ℝ, ∀ n : ℕ, f n = 1 / (n : ℝ) ^ 2 := ⟨fun n => 1 / (n : ℝ) ^ 2, fun _ => rfl⟩
  have h : HasSum f (Real.pi ^ 2 / 6) := by
    rw [show f = fun n : ℕ => 1 / (n : ℝ) ^ 2 from funext hf]
    exact hasSum_zeta_two
  have e1 : ∀ n, 1 / 4 * f n = f (2 * n) := by
    intro n
    rw [hf, hf]
    push_cast
    by_cases hn : (n : ℝ) = 0
    · simp [hn]
    · field_simp
      norm_num
  have e2 : ∀ n, f (2 * n + 1) = 1 / (2 * (n : ℝ) + 1) ^ 2 := by
    intro n
    rw [hf]
    push_cast
    rfl
  have he : HasSum (fun n : ℕ => f (2 * n)) (1 / 4 * (Real.pi ^ 2 / 6)) := by
    have := h.mul_left (1 / 4)
    simp only [e1] at this
    exact this
  have ho : Summable fun n : ℕ => f (2 * n + 1) := h.summable.comp_injective (i := fun n : ℕ => 2 * n + 1) fun a b hab => by simpa using hab
  have h2 := he.even_add_odd ho.hasSum
  have h3 := h2.unique h
  have h4 : ∑' n : ℕ, f (2 * n + 1) = Real.pi ^ 2 / 8 := by linarith
  have h5 := ho.hasSum
  rw [h4] at h5
  simp only [e2] at h5
  exact h5

/-- Bound of the aliases relative to the wave, without the power of the frequency. -/
noncomputable def aliasTail (b : ℤ) : ℝ := if b = 0 then 0 else 1 / (2 * |(b : ℝ)| - 1) ^ 2

/-- `Σ_{b ≠ 0} 1 / (2|b| - 1)² = π² / 4` -/
theorem aliasTail_hasSum : HasSum aliasTail (Real.pi ^ 2 / 4) := by
  have h1 : HasSum (fun n : ℕ => aliasTail (n + 1)) (Real.pi ^ 2 / 8) := by
    convert hasSum_odd using 1
    funext n
    have h0 : ((n : ℤ) + 1) ≠ 0 := by omega
    have hp : (0 : ℝ) ≤ (n : ℝ) + 1 := by positivity
    unfold aliasTail
    rw [if_neg h0]
    push_cast
    rw [abs_of_nonneg hp]
    congr 2
    ring
  have h2 : HasSum (fun n : ℕ => aliasTail (-(n + 1 : ℤ))) (Real.pi ^ 2 / 8) := by
    convert h1 using 1
    funext n
    unfold aliasTail
    have h0 : ((n : ℤ) + 1) ≠ 0 := by omega
    rw [if_neg h0, if_neg (neg_ne_zero.2 h0)]
    push_cast
    rw [abs_neg]
  have h3 := h1.of_add_one_of_neg_add_one h2
  have : aliasTail 0 = 0 := if_pos rfl
  rw [this] at h3
  convert h3 using 1
  ring

/-- The aliases of a wave are weaker than the wave. -/
theorem sincPow_alias {t : Tuned} (ht : t ≠ .nnb) {n : ℕ} (hn : 0 < n) {κ : ℤ} (hκ : 2 * |κ| ≤ n) {b : ℤ} (hb : b ≠ 0) :
    |sincPow t n (κ + n * b)| ≤ |sincPow t n κ| * ((2 * |(κ : ℝ)| / n) ^ (Tuned.kern t : Kern ℝ).native * aliasTail b) := by
  have hn0 : (0 : ℝ) < n := by exact_mod_cast hn
  have hκr : 2 * |(κ : ℝ)| ≤ n := by exact_mod_cast hκ
  have hb1 : (1 : ℝ) ≤ |(b : ℝ)| := by
    have : 1 ≤ |b| := Int.one_le_abs hb
    exact_mod_cast this
  obtain ⟨y, hy⟩ : ∃ y : ℝ, y = Real.pi * κ / n := ⟨_, rfl⟩
  have e : Real.pi * ((κ + n * b : ℤ) : ℝ) / n = y + b * Real.pi := by
    rw [hy]
    push_cast
    field_simp
  have hsin : |Real.sin (y + b * Real.pi)| = |Real.sin y| := by
    rw [Real.sin_add_int_mul_pi, abs_mul]
    have : |(-1 : ℝ) ^ b| = 1 := by rw [abs_zpow]; simp
    rw [this, one_mul]
  have hlow : |y + b * Real.pi| ≥ Real.pi * (2 * |(b : ℝ)| - 1) / 2 := by
    have h1 : |y| ≤ Real.pi / 2 := by
      rw [hy, abs_div, abs_mul, abs_of_pos Real.pi_pos, abs_of_pos hn0, div_le_div_iff₀ hn0 two_pos]
      nlinarith [Real.pi_pos]
    have h2 : |(b : ℝ) * Real.pi| = |(b : ℝ)| * Real.pi := by rw [abs_mul, abs_of_pos Real.pi_pos]
    have h3 := abs_sub_abs_le_abs_sub ((b : ℝ) * Real.pi) (-y)
    rw [abs_neg, sub_neg_eq_add, add_comm _ y] at h3
    rw [h2] at h3
    linarith
  have hpos : 0 < 2 * |(b : ℝ)| - 1 := by linarith
  have hne : y + b * Real.pi ≠ 0 := by
    rw [← abs_pos]
    have := Real.pi_pos
    exact lt_of_lt_of_le (by positivity) hlow
  have hr : |Real.sinc (y + b * Real.pi)| ≤ |Real.sinc y| * ((2 * |(κ : ℝ)| / n) / (2 * |(b : ℝ)| - 1)) := by
    rw [Real.sinc_of_ne_zero hne, abs_div, hsin]
    have hs : |Real.sin y| = |Real.sinc y| * |y| := by
      by_cases h0 : y = 0
      · simp [h0]
      · rw [Real.sinc_of_ne_zero h0, abs_div, div_mul_cancel₀ _ (abs_ne_zero.2 h0)]
    rw [hs, mul_div_assoc]
    refine mul_le_mul_of_nonneg_left ?_ (abs_nonneg _)
    have hyk : |y| = Real.pi * |(κ : ℝ)| / n := by rw [hy, abs_div, abs_mul, abs_of_pos Real.pi_pos, abs_of_pos hn0]
    rw [div_le_div_iff₀ (abs_pos.2 hne) hpos, hyk]
    have h5 : 0 ≤ 2 * |(κ : ℝ)| / n := by positivity
    have h6 := mul_le_mul_of_nonneg_left hlow h5
    refine le_trans (le_of_eq ?_) h6
    ring
  unfold sincPow aliasTail
  rw [e, ← hy, if_neg hb, abs_pow, abs_pow]
  refine (pow_le_pow_left₀ (abs_nonneg _) hr _).trans ?_
  rw [mul_pow, div_pow]
  refine mul_le_mul_of_nonneg_left ?_ (by positivity)
  rw [div_eq_mul_one_div]
  refine mul_le_mul_of_nonneg_left ?_ (by positivity)
  apply one_div_le_one_div_of_le (by positivity)
  exact pow_le_pow_right₀ (by linarith) (native_two ht)

end Pmesh
