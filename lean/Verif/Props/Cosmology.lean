import Mathlib.Analysis.SpecialFunctions.Pow.Deriv
import Verif.Lemmas.Cosmology
import Verif.Spec.Cosmology
import Verif.Lemmas.Trapz

/-! # C113: kicks and drifts use the integrals over cosmic time -/

namespace Pmesh

open Real

section
variable {m k v : ℝ} (hm : 0 < m) (hk : 0 ≤ k) (hv : 0 ≤ v)
include hm hk hv

theorem expOver_continuous (p : ℝ) {H0 : ℝ} (hH : 0 < H0) : Continuous (expOver p m k v H0) :=
  continuous_iff_continuousAt.mpr fun l => (hasDerivAt_expOver hm hk hv p H0 l hH).continuousAt

theorem expOver_le_integral {p H0 : ℝ} (hH : 0 < H0) (hp1 : 1 ≤ p) (hp2 : p ≤ 2) {l0 l1 : ℝ} (h : l0 ≤ l1) (hl : l1 - l0 ≤ 1 / 10) {x : ℝ}
    (hx : x ∈ Set.Icc l0 l1) : (l1 - l0) * expOver p m k v H0 x ≤ exp (7 / 20) * ∫ y in l0..l1, expOver p m k v H0 y := by
  have hc := expOver_continuous hm hk hv p hH
  rw [← intervalIntegral.integral_const_mul]
  have : (l1 - l0) * expOver p m k v H0 x = ∫ _ in l0..l1, expOver p m k v H0 x := by
    rw [intervalIntegral.integral_const, smul_eq_mul]
  rw [this]
  refine intervalIntegral.integral_mono_on h (by simp) ((hc.const_mul _).intervalIntegrable _ _) ?_
  intro y hy
  have := expOver_ratio hm hk hv hH hp1 hp2 (h := 1 / 10) y x (by
    rw [abs_le]; constructor <;> linarith [hx.1, hx.2, hy.1, hy.2])
  rwa [show (7 / 2 * (1 / 10) : ℝ) = 7 / 20 from by norm_num] at this

theorem qFactor_expOver {p H0 : ℝ} (hH : 0 < H0) (hp1 : 1 ≤ p) (hp2 : p ≤ 2) {l0 l1 : ℝ} (hl : |l1 - l0| ≤ 1 / 10) :
    |qFactor (expOver p m k v H0) l0 l1 - ∫ y in l0..l1, expOver p m k v H0 y| ≤ 1 / 10 ^ 8 * |∫ y in l0..l1, expOver p m k v H0 y| := by
  rcases eq_or_ne l0 l1 with rfl | hne
  · rw [qFactor_eq]; simp
  have hpos : 0 < |l1 - l0| := abs_pos.mpr (sub_ne_zero.mpr hne.symm)
  set I := ∫ y in l0..l1, expOver p m k v H0 y with hI
  have key : ∀ x ∈ Set.uIcc l0 l1, |l1 - l0| * expOver p m k v H0 x ≤ exp (7 / 20) * |I| := by
    intro x hx
    rcases le_total l0 l1 with h | h
    · rw [Set.uIcc_of_le h] at hx
      rw [abs_of_nonneg (sub_nonneg.mpr h)] at hl ⊢
      exact (expOver_le_integral hm hk hv hH hp1 hp2 h hl hx).trans (mul_le_mul_of_nonneg_left (le_abs_self _) (exp_pos _).le)
    · rw [Set.uIcc_of_ge h] at hx
      rw [abs_sub_comm, abs_of_nonneg (sub_nonneg.mpr h)] at hl ⊢
      have := expOver_le_integral hm hk hv hH hp1 hp2 h hl hx
      rw [intervalIntegral.integral_symm, ← hI] at this
      exact this.trans (mul_le_mul_of_nonneg_left (neg_le_abs _) (exp_pos _).le)
  have hz := qFactor_error (f := expOver p m k v H0) (fun x => hasDerivAt_expOver hm hk hv p H0 x hH)
    (fun x => hasDerivAt_expOver1 hm hk hv p H0 x hH) (a := l0) (b := l1) (z := 17 / 2 * (exp (7 / 20) * |I| / |l1 - l0|)) (by
      intro x hx
      refine (expOver2_bound hm hk hv p H0 x hH hp1 hp2).trans (mul_le_mul_of_nonneg_left ?_ (by norm_num))
      rw [le_div_iff₀ hpos, mul_comm]
      exact key x hx)
  refine hz.trans ?_
  have he : exp (7 / 20) ≤ 1.45 := by
    have h1 : (0.93 : ℝ) ≤ exp (-(7 / 100)) := by
      have := one_sub_le_exp_neg (7 / 100 : ℝ)
      linarith
    have h2 : exp (7 / 20) * exp (-(7 / 100)) ^ 5 = 1 := by
      rw [← exp_nat_mul, ← exp_add]; norm_num
    have h3 : (0.93 : ℝ) ^ 5 ≤ exp (-(7 / 100)) ^ 5 := pow_le_pow_left₀ (by norm_num) h1 5
    nlinarith [exp_pos (7 / 20 : ℝ)]
  have e : |l1 - l0| ^ 3 * (17 / 2 * (exp (7 / 20) * |I| / |l1 - l0|)) / (12 * 1024 ^ 2) =
      (|l1 - l0| ^ 2 * exp (7 / 20)) * (17 / 2 / (12 * 1024 ^ 2)) * |I| := by
    field_simp
  rw [e]
  refine mul_le_mul_of_nonneg_right ?_ (abs_nonneg I)
  have h2 : |l1 - l0| ^ 2 ≤ (1 / 10) ^ 2 := pow_le_pow_left₀ (abs_nonneg _) hl 2
  have h3 : |l1 - l0| ^ 2 * exp (7 / 20) ≤ (1 / 10) ^ 2 * 1.45 := mul_le_mul h2 he (exp_pos _).le (by norm_num)
  calc |l1 - l0| ^ 2 * exp (7 / 20) * (17 / 2 / (12 * 1024 ^ 2)) ≤ (1 / 10) ^ 2 * 1.45 * (17 / 2 / (12 * 1024 ^ 2)) :=
        mul_le_mul_of_nonneg_right h3 (by norm_num)
    _ ≤ 1 / 10 ^ 8 := by norm_num

end

theorem ScaleFactor.Ea {M L H0 : ℝ} {a : ℝ → ℝ} {t0 t1 : ℝ} (h : ScaleFactor M L H0 a t0 t1) {t : ℝ} (ht : t ∈ Set.uIcc t0 t1) :
    √(M / a t ^ 3 + (1 - M - L) / a t ^ 2 + L) = (⟨M, L⟩ : Cosmology).Ea (a t) := by
  rw [Ea_eq_sqrt _ (h.pos t ht)]
  simp only [inv_pow, div_eq_mul_inv]

/-- An integral over the logarithm of the scale factor, as an integral over time. -/
theorem ScaleFactor.change {M L H0 : ℝ} {a : ℝ → ℝ} {t0 t1 : ℝ} (h : ScaleFactor M L H0 a t0 t1) (hM : 0 < M) (hL : 0 ≤ L) (hML : M + L ≤ 1)
    (hH : 0 < H0) {g : ℝ → ℝ} (hg : Continuous g) :
    ∫ l in log (a t0)..log (a t1), g l = ∫ t in t0..t1, g (log (a t)) * ((⟨M, L⟩ : Cosmology).Ea (a t) * H0) := by
  have hlog : ∀ t ∈ Set.uIcc t0 t1, HasDerivAt (fun t => log (a t)) ((⟨M, L⟩ : Cosmology).Ea (a t) * H0) t := by
    intro t ht
    have := (h.rate t ht).log (h.pos t ht).ne'
    rw [h.Ea ht] at this
    refine this.congr_deriv ?_
    have := (h.pos t ht).ne'
    field_simp
  have hcont : ContinuousOn (fun t => (⟨M, L⟩ : Cosmology).Ea (a t) * H0) (Set.uIcc t0 t1) := by
    have e : ∀ t ∈ Set.uIcc t0 t1, (⟨M, L⟩ : Cosmology).Ea (a t) * H0 = √(M / a t ^ 3 + (1 - M - L) / a t ^ 2 + L) * H0 := fun t ht => by
      rw [h.Ea ht]
    refine ContinuousOn.congr ?_ e
    have ha : ContinuousOn a (Set.uIcc t0 t1) := fun t ht => (h.rate t ht).continuousAt.continuousWithinAt
    refine ContinuousOn.mul (ContinuousOn.sqrt ?_) continuousOn_const
    refine ((continuousOn_const.div (ha.pow 3) ?_).add (continuousOn_const.div (ha.pow 2) ?_)).add continuousOn_const
    · exact fun t ht => pow_ne_zero 3 (h.pos t ht).ne'
    · exact fun t ht => pow_ne_zero 2 (h.pos t ht).ne'
  exact (intervalIntegral.integral_comp_mul_deriv hlog hcont hg).symm

/-- **C113.** For every universe with matter and without negative densities, and every expansion history, the factors that `Kick` and `Drift`
compute for a piece of a step, `|log a(t1) - log a(t0)| ≤ 1/10`, are the integrals of `dt/a` and of `dt/a²` over cosmic time, with a relative error
of less than 1e-8 from the trapezoidal rule: kicking and drifting with them integrates `d(a² dx/dt)/dt = F/a`. -/
theorem C113_factors {M L H0 : ℝ} (hM : 0 < M) (hL : 0 ≤ L) (hML : M + L ≤ 1) (hH : 0 < H0) {a : ℝ → ℝ} {t0 t1 : ℝ}
    (h : ScaleFactor M L H0 a t0 t1) (hl : |log (a t1) - log (a t0)| ≤ 1 / 10) :
    |dtKick ⟨M, L⟩ H0 (log (a t0)) (log (a t1)) - ∫ t in t0..t1, 1 / a t| ≤ 1 / 10 ^ 8 * |∫ t in t0..t1, 1 / a t| ∧
    |dtDrift ⟨M, L⟩ H0 (log (a t0)) (log (a t1)) - ∫ t in t0..t1, 1 / a t ^ 2| ≤ 1 / 10 ^ 8 * |∫ t in t0..t1, 1 / a t ^ 2| := by
  have hk : 0 ≤ 1 - M - L := by linarith
  have hEpos : ∀ t ∈ Set.uIcc t0 t1, 0 < (⟨M, L⟩ : Cosmology).Ea (a t) := by
    intro t ht
    rw [← exp_log (h.pos t ht), Ea_exp]
    exact sqrt_pos.mpr (rateSq_pos hM hk hL _)
  have e1 : (∫ t in t0..t1, 1 / a t) = ∫ l in log (a t0)..log (a t1), expOver 1 M (1 - M - L) L H0 l := by
    rw [h.change hM hL hML hH (expOver_continuous hM hk hL 1 hH)]
    refine intervalIntegral.integral_congr fun t ht => ?_
    rw [← kickIntegrand_eq ⟨M, L⟩]
    unfold kickIntegrand
    dsimp only
    rw [exp_log (h.pos t ht)]
    have h1 := (h.pos t ht).ne'
    have h2 := (hEpos t ht).ne'
    field_simp
  have e2 : (∫ t in t0..t1, 1 / a t ^ 2) = ∫ l in log (a t0)..log (a t1), expOver 2 M (1 - M - L) L H0 l := by
    rw [h.change hM hL hML hH (expOver_continuous hM hk hL 2 hH)]
    refine intervalIntegral.integral_congr fun t ht => ?_
    rw [← driftIntegrand_eq ⟨M, L⟩]
    unfold driftIntegrand
    dsimp only
    rw [exp_log (h.pos t ht)]
    have h1 := (h.pos t ht).ne'
    have h2 := (hEpos t ht).ne'
    field_simp
  have k1 : kickIntegrand ⟨M, L⟩ H0 = expOver 1 M (1 - M - L) L H0 := funext fun l => kickIntegrand_eq ⟨M, L⟩ H0 l
  have k2 : driftIntegrand ⟨M, L⟩ H0 = expOver 2 M (1 - M - L) L H0 := funext fun l => driftIntegrand_eq ⟨M, L⟩ H0 l
  rw [e1, e2, dtKick, dtDrift, k1, k2]
  exact ⟨qFactor_expOver hM hk hL hH le_rfl (by norm_num) hl, qFactor_expOver hM hk hL hH (by norm_num) le_rfl hl⟩

theorem eds_rate {x : ℝ} (hp : 0 < x) : √(1 / (x ^ (2 / 3 : ℝ)) ^ 3 + (1 - 1 - 0) / (x ^ (2 / 3 : ℝ)) ^ 2 + 0) = x ^ (-1 : ℝ) := by
  rw [sqrt_eq_iff_mul_self_eq (by positivity) (by positivity), ← rpow_natCast (x ^ (2 / 3 : ℝ)) 3, ← rpow_mul hp.le, ← rpow_add hp]
  norm_num

theorem eds_hasDerivAt {t : ℝ} (hp : 0 < 3 / 2 * t) : HasDerivAt (fun t : ℝ => (3 / 2 * t) ^ (2 / 3 : ℝ))
    (1 * (3 / 2 * t) ^ (2 / 3 : ℝ) * √(1 / ((3 / 2 * t) ^ (2 / 3 : ℝ)) ^ 3 + (1 - 1 - 0) / ((3 / 2 * t) ^ (2 / 3 : ℝ)) ^ 2 + 0)) t := by
  have h1 : HasDerivAt (fun t : ℝ => 3 / 2 * t) (3 / 2) t := by simpa using (hasDerivAt_id t).const_mul (3 / 2 : ℝ)
  have := h1.rpow_const (p := 2 / 3) (Or.inl hp.ne')
  refine this.congr_deriv ?_
  rw [eds_rate hp, one_mul, ← rpow_add hp]
  norm_num

/-- The universe of Einstein and de Sitter, `a = (3 t/2)^(2/3)` for `H0 = 1`. -/
theorem expands_eds : ScaleFactor 1 0 1 (fun t => (3 / 2 * t) ^ (2 / 3 : ℝ)) 1 (11 / 10) := by
  have hpos : ∀ t ∈ Set.uIcc (1 : ℝ) (11 / 10), 0 < 3 / 2 * t := by
    intro t ht
    rw [Set.uIcc_of_le (by norm_num)] at ht
    linarith [ht.1]
  exact ⟨fun t ht => rpow_pos_of_pos (hpos t ht) _, fun t ht => eds_hasDerivAt (hpos t ht)⟩

example : |dtKick ⟨1, 0⟩ 1 (log ((3 / 2 * 1) ^ (2 / 3 : ℝ))) (log ((3 / 2 * (11 / 10)) ^ (2 / 3 : ℝ))) -
    ∫ t in (1 : ℝ)..(11 / 10), 1 / (3 / 2 * t) ^ (2 / 3 : ℝ)| ≤ 1 / 10 ^ 8 * |∫ t in (1 : ℝ)..(11 / 10), 1 / (3 / 2 * t) ^ (2 / 3 : ℝ)| := by
  refine (C113_factors one_pos le_rfl (by norm_num) one_pos expands_eds ?_).1
  rw [log_rpow (by norm_num), log_rpow (by norm_num), ← mul_sub, ← log_div (by norm_num) (by norm_num)]
  have h1 : log (3 / 2 * (11 / 10) / (3 / 2 * 1)) ≤ 1 / 10 := by
    have := log_le_sub_one_of_pos (show (0 : ℝ) < 3 / 2 * (11 / 10) / (3 / 2 * 1) by norm_num)
    refine this.trans (by norm_num)
  have h2 : 0 ≤ log (3 / 2 * (11 / 10) / (3 / 2 * 1)) := log_nonneg (by norm_num)
  rw [abs_of_nonneg (by positivity)]
  linarith

#print axioms C113_factors

end Pmesh
