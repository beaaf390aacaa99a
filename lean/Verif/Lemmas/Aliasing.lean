import Verif.Lemmas.ShotNoiseMesh
import Verif.Props.FWindow
import Mathlib.Analysis.Fourier.AddCircle
import Mathlib.Analysis.PSeries

/-! # The amplitude of one particle as a sum over all waves that look alike on the mesh -/

namespace Pmesh

open Complex MeasureTheory

/-- The weights of the stencil seen as values of the window. -/
theorem waveAmp_window {w : Resampler ℝ} (hw : w.Valid) {kind : Tuned} (hk : w.kern = Tuned.kern kind) (hsup : w.support = w.kern.native) {n : ℕ} (hn : 0 < n)
    (k : ℕ) (u : ℝ) :
    ((List.range n).map fun (c : ℕ) => ((∑ᶠ i : ℤ, if IsCell n i c then windowAt (Tuned.kern kind) ((Tuned.kern kind : Kern ℝ).native : ℝ) 0 1 (u - i) else 0 : ℝ) : ℂ) *
      exp (-(2 * Real.pi * I * (k * c / n : ℝ)))).sum = waveAmp kind (modeQ n k) u := by
  have hsz : w.width1 = w.kern.native := by
    unfold Resampler.width1
    split_ifs
    · rfl
    · rw [mul_one, hsup]
  rw [← gridW_wave hw hk hsup 0 hn u (modeQ_pow hn k)]
  congr 1
  apply List.map_congr_left
  intro c _
  congr 1
  · rw [gridW_axisWeight hw (by rw [hk]; exact tuned_confined kind), hsz, hk]
    simp [axisWeight, unitAxis]
  · unfold modeQ
    rw [← Complex.exp_nat_mul]
    congr 1
    push_cast
    ring

/-- Where the stencil is a polynomial. -/
noncomputable def cellStart : Tuned → ℝ
  | .nnb => -(1 / 2)
  | .cic => 0
  | .tsc => -(1 / 2)
  | .pcs => 0

/-- The amplitude inside of that cell. -/
noncomputable def cellPoly (t : Tuned) (q : ℂ) (x : ℝ) : ℂ :=
  match t with
  | .nnb => 1
  | .cic => (1 - x) + x * q
  | .tsc => (1 / 2 - x) ^ 2 / 2 * q⁻¹ + (3 / 4 - x ^ 2) + (1 / 2 + x) ^ 2 / 2 * q
  | .pcs => (1 - x) ^ 3 / 6 * q⁻¹ + (4 - 6 * x ^ 2 + 3 * x ^ 3) / 6 + (4 - 6 * (1 - x) ^ 2 + 3 * (1 - x) ^ 3) / 6 * q + x ^ 3 / 6 * q ^ 2

theorem waveAmp_cell (t : Tuned) (q : ℂ) {x : ℝ} (h1 : cellStart t ≤ x) (h2 : x < cellStart t + 1) : waveAmp t q x = cellPoly t q x := by
  cases t <;> simp only [cellStart] at h1 h2
  · have hf : ⌊x + 1 / 2⌋ = 0 := by rw [Int.floor_eq_zero_iff]; constructor <;> linarith
    simp only [waveAmp, rawStencil, tunedSetup, unitAxis, PAxis.grid, if_true, List.zip_cons_cons, List.zip_nil_right, List.map_cons, List.map_nil,
        List.sum_cons, List.sum_nil, mul_one, add_zero, hf, zpow_zero, Complex.ofReal_one, cellPoly]
  · have hf : ⌊x⌋ = 0 := by rw [Int.floor_eq_zero_iff]; constructor <;> linarith
    simp only [waveAmp, rawStencil, tunedSetup, unitAxis, PAxis.grid, if_true, List.zip_cons_cons, List.zip_nil_right, List.map_cons, List.map_nil,
        List.sum_cons, List.sum_nil, mul_one, add_zero, hf, zero_add, zpow_zero, zpow_one, cellPoly]
    push_cast
    ring
  · have hf : ⌊x + 1 / 2⌋ = 0 := by rw [Int.floor_eq_zero_iff]; constructor <;> linarith
    simp only [waveAmp, rawStencil, tunedSetup, unitAxis, PAxis.grid, if_true, List.zip_cons_cons, List.zip_nil_right, List.map_cons, List.map_nil,
        List.sum_cons, List.sum_nil, mul_one, add_zero, hf, zero_add, zero_sub, zpow_zero, zpow_one, zpow_neg_one, cellPoly]
    push_cast
    ring
  · have hf : ⌊x⌋ = 0 := by rw [Int.floor_eq_zero_iff]; constructor <;> linarith
    have h2' : q ^ (1 + 1 : ℤ) = q ^ 2 := by norm_cast
    simp only [waveAmp, rawStencil, tunedSetup, unitAxis, PAxis.grid, if_true, List.zip_cons_cons, List.zip_nil_right, List.map_cons, List.map_nil,
        List.sum_cons, List.sum_nil, mul_one, add_zero, hf, zero_add, zero_sub, zpow_zero, zpow_one, zpow_neg_one, h2', cellPoly]
    push_cast
    ring

/-- The windows other than nnb are continuous. -/
theorem cellPoly_joins {t : Tuned} (ht : t ≠ .nnb) {q : ℂ} (hq : q ≠ 0) : cellPoly t q (cellStart t + 1) = q * cellPoly t q (cellStart t) := by
  cases t
  · exact absurd rfl ht
  all_goals
    simp only [cellPoly, cellStart]
    push_cast
    field_simp
    ring

theorem cellPoly_continuous (t : Tuned) (q : ℂ) : Continuous (cellPoly t q) := by
  unfold cellPoly
  cases t <;> fun_prop

/-- Amplitude times the wave: a periodic function of the position. -/
noncomputable def cellWave (t : Tuned) (n k : ℕ) (x : ℝ) : ℂ := cellPoly t (modeQ n k) x * exp (I * (2 * Real.pi * k / n : ℝ) * x)

theorem modeQ_exp (n k : ℕ) : modeQ n k * exp (I * (2 * Real.pi * k / n : ℝ)) = 1 := by
  unfold modeQ
  rw [← exp_add]
  simp [mul_comm]

theorem cellWave_joins {t : Tuned} (ht : t ≠ .nnb) (n k : ℕ) : cellWave t n k (cellStart t) = cellWave t n k (cellStart t + 1) := by
  unfold cellWave
  rw [cellPoly_joins ht (modeQ_ne n k)]
  push_cast
  rw [mul_add, mul_one, exp_add]
  have := modeQ_exp n k
  push_cast at this
  linear_combination -(cellPoly t (modeQ n k) (cellStart t)) * exp (I * (2 * Real.pi * k / n) * (cellStart t)) * this

theorem waveAmp_periodic (t : Tuned) (n k : ℕ) (x : ℝ) :
    waveAmp t (modeQ n k) (x + 1) * exp (I * (2 * Real.pi * k / n : ℝ) * (x + 1 : ℝ)) = waveAmp t (modeQ n k) x * exp (I * (2 * Real.pi * k / n : ℝ) * x) := by
  rw [waveAmp_succ t (modeQ_ne n k), Complex.ofReal_add, mul_add, exp_add, Complex.ofReal_one, mul_one]
  linear_combination (waveAmp t (modeQ n k) x * exp (I * (2 * Real.pi * k / n : ℝ) * x)) * modeQ_exp n k

/-- Fourier transform of the window at the wave `κ` of `n` cells. -/
noncomputable def sincPow (t : Tuned) (n : ℕ) (κ : ℤ) : ℝ := Real.sinc (Real.pi * κ / n) ^ (Tuned.kern t : Kern ℝ).native

/-- The Fourier coefficients. -/
theorem cellWave_coeff {w : Resampler ℝ} (hw : w.Valid) {kind : Tuned} (hk : w.kern = Tuned.kern kind) (hsup : w.support = w.kern.native) {n : ℕ} (hn : 0 < n)
    {k : ℕ} (hkn : k < n) (a : ℤ) :
    ∫ x in (cellStart kind)..(cellStart kind + 1), exp (2 * Real.pi * I * a * x) * cellWave kind n k x = sincPow kind n (k + n * a) := by
  have hn0 : (n : ℝ) ≠ 0 := by exact_mod_cast hn.ne'
  have hnat := tuned_native_pos kind
  obtain ⟨F, hF⟩ : ∃ F : ℝ → ℂ, F = fun x => waveAmp kind (modeQ n k) x * exp (I * (2 * Real.pi * ((k + n * a : ℤ) : ℝ) / n : ℝ) * x) := ⟨_, rfl⟩
  have hE : ∀ x : ℝ, exp (I * (2 * Real.pi * ((k + n * a : ℤ) : ℝ) / n : ℝ) * x) = exp (2 * Real.pi * I * a * x) * exp (I * (2 * Real.pi * k / n : ℝ) * x) := by
    intro x
    rw [← exp_add]
    congr 1
    push_cast
    have : (n : ℂ) ≠ 0 := by exact_mod_cast hn.ne'
    field_simp
    ring
  have hper : ∀ x, F (x + 1) = F x := by
    intro x
    rw [hF]
    simp only [hE]
    have h := waveAmp_periodic kind n k x
    have h1 : exp (2 * Real.pi * I * a * (x + 1 : ℝ)) = exp (2 * Real.pi * I * a * x) := by
      rw [Complex.exp_eq_exp_iff_exists_int]
      exact ⟨a, by push_cast; ring⟩
    rw [h1]
    linear_combination exp (2 * Real.pi * I * a * x) * h
  have h1 : ∫ x in (cellStart kind)..(cellStart kind + 1), exp (2 * Real.pi * I * a * x) * cellWave kind n k x = ∫ x in (cellStart kind)..(cellStart kind + 1), F x := by
    refine intervalIntegral.integral_congr_Ioo_of_le (by linarith) fun x hx => ?_
    simp only [hF, hE, cellWave]
    rw [waveAmp_cell kind _ hx.1.le hx.2]
    ring
  have h2 := Function.Periodic.intervalIntegral_add_eq (f := F) (T := 1) hper (cellStart kind) 0
  rw [zero_add] at h2
  rw [h1, h2]
  have hmod : ((k : ℤ) + n * a) % n = k := by
    rw [Int.add_mul_emod_self_left]
    exact Int.emod_eq_of_lt (by omega) (by omega)
  have h3 := (axis_average kind (s := (Tuned.kern kind : Kern ℝ).native) (by exact_mod_cast hnat) hn (k + n * a) k hmod 0).2
  simp only [zero_add, waveAmp_window hw hk hsup hn, Complex.ofReal_zero, mul_zero, neg_zero, exp_zero, one_mul] at h3
  rw [hF]
  refine h3.trans ?_
  have h4 := windowFourier_sinc kind 0 (2 * Real.pi * ((k + n * a : ℤ) : ℝ) / n)
  unfold sizeOf at h4
  rw [if_pos le_rfl] at h4
  rw [h4]
  unfold sincPow sincArg sizeOf
  rw [if_pos le_rfl]
  congr 3
  have : ((Tuned.kern kind : Kern ℝ).native : ℝ) ≠ 0 := by exact_mod_cast hnat.ne'
  field_simp

theorem sinc_sq_le (x : ℝ) (hx : x ≠ 0) : Real.sinc x ^ 2 ≤ 1 / x ^ 2 := by
  rw [Real.sinc_of_ne_zero hx, div_pow]
  exact div_le_div_of_nonneg_right (Real.sin_sq_le_one x) (sq_nonneg x)

theorem native_two {t : Tuned} (ht : t ≠ .nnb) : 2 ≤ (Tuned.kern t : Kern ℝ).native := by
  cases t
  · exact absurd rfl ht
  all_goals decide

theorem sincPow_le {t : Tuned} (ht : t ≠ .nnb) (n : ℕ) (κ : ℤ) : |sincPow t n κ| ≤ Real.sinc (Real.pi * κ / n) ^ 2 := by
  unfold sincPow
  rw [abs_pow, ← sq_abs]
  exact pow_le_pow_of_le_one (abs_nonneg _) (Real.abs_sinc_le_one _) (native_two ht)

theorem sincPow_summable {t : Tuned} (ht : t ≠ .nnb) {n : ℕ} (hn : 0 < n) {k : ℕ} (hkn : k < n) : Summable fun a : ℤ => |sincPow t n (k + n * a)| := by
  have hn0 : (0 : ℝ) < n := by exact_mod_cast hn
  have h1 : Summable fun a : ℤ => (if a = 0 then (1 : ℝ) else 0) := (hasSum_ite_eq 0 (1 : ℝ)).summable
  have h2 := (Real.summable_one_div_int_add_rpow (k / n) 2).2 (by norm_num)
  refine Summable.of_nonneg_of_le (fun _ => abs_nonneg _) (fun a => ?_) (h1.add h2)
  refine (sincPow_le ht n _).trans ?_
  by_cases ha : a = 0
  · rw [if_pos ha]
    have : (0 : ℝ) ≤ 1 / |(a : ℝ) + k / n| ^ (2 : ℝ) := by positivity
    have h3 := Real.abs_sinc_le_one (Real.pi * ((k + n * a : ℤ) : ℝ) / n)
    have h4 : Real.sinc (Real.pi * ((k + n * a : ℤ) : ℝ) / n) ^ 2 ≤ 1 := (sq_le_one_iff_abs_le_one _).2 h3
    linarith
  · rw [if_neg ha, zero_add]
    have hy : (a : ℝ) + k / n ≠ 0 := by
      intro h
      have h5 : (a : ℝ) * n + k = 0 := by
        field_simp at h
        linarith
      have h6 : a * n + k = 0 := by exact_mod_cast h5
      apply ha
      have h7 : a * n = -k := by omega
      have h8 : ((n : ℕ) : ℤ) ∣ (k : ℤ) := ⟨-a, by linarith⟩
      have h9 : k = 0 := Nat.eq_zero_of_dvd_of_lt (by exact_mod_cast h8) hkn
      rw [h9] at h7
      simp only [Nat.cast_zero, neg_zero, mul_eq_zero] at h7
      omega
    have e : Real.pi * ((k + n * a : ℤ) : ℝ) / n = Real.pi * (a + k / n) := by
      push_cast
      field_simp
      ring
    rw [e]
    refine (sinc_sq_le _ (mul_ne_zero Real.pi_ne_zero hy)).trans ?_
    rw [Real.rpow_two, sq_abs]
    apply one_div_le_one_div_of_le (by positivity)
    rw [mul_pow]
    have : 1 ≤ Real.pi ^ 2 := by nlinarith [Real.pi_gt_three]
    nlinarith [sq_nonneg ((a : ℝ) + k / n)]

/-- The amplitude of a particle is the sum over all the waves that look alike on the mesh. -/
theorem waveAmp_hasSum {w : Resampler ℝ} (hw : w.Valid) {kind : Tuned} (hk : w.kern = Tuned.kern kind) (hsup : w.support = w.kern.native) (ht : kind ≠ .nnb)
    {n : ℕ} (hn : 0 < n) {k : ℕ} (hkn : k < n) (x : ℝ) :
    HasSum (fun a : ℤ => (sincPow kind n (k + n * a) : ℂ) * exp (-(2 * Real.pi * I * (((k + n * a : ℤ) : ℝ) / n * x : ℝ)))) (waveAmp kind (modeQ n k) x) := by
  have hn0 : (n : ℂ) ≠ 0 := by exact_mod_cast hn.ne'
  have hT : Fact (0 < (1 : ℝ)) := ⟨one_pos⟩
  obtain ⟨F, hF⟩ : ∃ F : C(AddCircle (1 : ℝ), ℂ), (F : AddCircle (1 : ℝ) → ℂ) = AddCircle.liftIco 1 (cellStart kind) (cellWave kind n k) :=
    ⟨⟨_, AddCircle.liftIco_continuous (cellWave_joins ht n k) (by
      unfold cellWave
      exact ((cellPoly_continuous kind _).mul (by fun_prop)).continuousOn)⟩, rfl⟩
  have hc : ∀ i, fourierCoeff F i = (sincPow kind n (k + n * -i) : ℂ) := by
    intro i
    rw [hF, fourierCoeff_liftIco_eq, fourierCoeffOn_eq_integral, ← cellWave_coeff hw hk hsup hn hkn]
    simp only [add_sub_cancel_left, div_one, one_smul, fourier_coe_apply, smul_eq_mul]
    simp
  have hs : Summable (fourierCoeff F) := by
    apply Summable.of_norm
    simp only [hc, Complex.norm_real, Real.norm_eq_abs]
    exact (Equiv.neg ℤ).summable_iff.2 (sincPow_summable ht hn hkn)
  obtain ⟨y, hy⟩ : ∃ y : ℝ, y = x - ⌊x - cellStart kind⌋ := ⟨_, rfl⟩
  have hy1 : cellStart kind ≤ y ∧ y < cellStart kind + 1 := by
    rw [hy]
    constructor
    · linarith [Int.floor_le (x - cellStart kind)]
    · linarith [Int.lt_floor_add_one (x - cellStart kind)]
  have hG : waveAmp kind (modeQ n k) x * exp (I * (2 * Real.pi * k / n : ℝ) * x) = F (x : AddCircle (1 : ℝ)) := by
    have hp : Function.Periodic (fun x : ℝ => waveAmp kind (modeQ n k) x * exp (I * (2 * Real.pi * k / n : ℝ) * x)) 1 := fun x => waveAmp_periodic kind n k x
    have h1 := hp.sub_int_mul_eq (x := x) ⌊x - cellStart kind⌋
    rw [mul_one, ← hy] at h1
    have h2 : (x : AddCircle (1 : ℝ)) = (y : AddCircle (1 : ℝ)) := by
      rw [← sub_eq_zero, ← AddCircle.coe_sub, AddCircle.coe_eq_zero_iff]
      exact ⟨⌊x - cellStart kind⌋, by rw [hy]; simp⟩
    rw [h2, hF, AddCircle.liftIco_coe_apply ⟨hy1.1, hy1.2⟩]
    refine h1.symm.trans ?_
    unfold cellWave
    rw [waveAmp_cell kind _ hy1.1 hy1.2]
  have h := has_pointwise_sum_fourier_series_of_summable hs (x : AddCircle (1 : ℝ))
  rw [← hG] at h
  have h2 := (((Equiv.neg ℤ).hasSum_iff.2 h).mul_right (exp (-(I * (2 * Real.pi * k / n : ℝ) * x))))
  have hE : waveAmp kind (modeQ n k) x * exp (I * (2 * Real.pi * k / n : ℝ) * x) * exp (-(I * (2 * Real.pi * k / n : ℝ) * x)) = waveAmp kind (modeQ n k) x := by
    rw [mul_assoc (waveAmp kind (modeQ n k) x), ← exp_add, add_neg_cancel, exp_zero, mul_one]
  rw [hE] at h2
  have e : (fun a : ℤ => (sincPow kind n (k + n * a) : ℂ) * exp (-(2 * Real.pi * I * (((k + n * a : ℤ) : ℝ) / n * x : ℝ)))) =
      fun i => ((fun i => fourierCoeff F i • (fourier i) (x : AddCircle (1 : ℝ))) ∘ Equiv.neg ℤ) i * exp (-(I * (2 * Real.pi * k / n : ℝ) * x)) := by
    funext a
    simp only [Function.comp, Equiv.neg_apply, hc, neg_neg, fourier_coe_apply, smul_eq_mul]
    rw [mul_assoc (sincPow kind n (k + n * a) : ℂ), ← exp_add]
    congr 2
    push_cast
    field_simp
    ring
  rw [e]
  exact h2

/-- The same for any wave `κ`. -/
theorem waveAmp_alias {w : Resampler ℝ} (hw : w.Valid) {kind : Tuned} (hk : w.kern = Tuned.kern kind) (hsup : w.support = w.kern.native) (ht : kind ≠ .nnb)
    {n : ℕ} (hn : 0 < n) (κ : ℤ) (x : ℝ) :
    HasSum (fun a : ℤ => (sincPow kind n (κ + n * a) : ℂ) * exp (-(2 * Real.pi * I * (((κ + n * a : ℤ) : ℝ) / n * x : ℝ)))) (waveAmp kind (modeQ n (κ % n).toNat) x) ∧
      Summable fun a : ℤ => |sincPow kind n (κ + n * a)| := by
  have hn' : (n : ℤ) ≠ 0 := by exact_mod_cast hn.ne'
  have h0 : (((κ % n).toNat : ℕ) : ℤ) = κ % n := Int.toNat_of_nonneg (Int.emod_nonneg _ hn')
  have hlt : (κ % n).toNat < n := by
    have := Int.emod_lt_of_pos κ (by omega : (0 : ℤ) < n)
    omega
  have e : ∀ a : ℤ, κ + n * a = ((κ % n).toNat : ℕ) + n * (a + κ / n) := by
    intro a
    rw [h0]
    have := Int.emod_add_mul_ediv κ n
    linarith
  constructor
  · have h := (Equiv.addRight (κ / (n : ℤ))).hasSum_iff.2 (waveAmp_hasSum hw hk hsup ht hn hlt x)
    convert h using 1
    funext a
    simp only [Function.comp, Equiv.coe_addRight, ← e]
  · have h := (Equiv.addRight (κ / (n : ℤ))).summable_iff.2 (sincPow_summable ht hn hlt)
    convert h using 1
    funext a
    simp only [Function.comp, Equiv.coe_addRight, ← e]

theorem hasSum_mul_norm {α β : Type} {f : α → ℂ} {g : β → ℂ} {s t : ℂ} (hf : HasSum f s) (hg : HasSum g t) (hf' : Summable fun a => ‖f a‖) (hg' : Summable fun b => ‖g b‖) :
    HasSum (fun p : α × β => f p.1 * g p.2) (s * t) ∧ Summable fun p : α × β => ‖f p.1 * g p.2‖ := by
  have hn := hf'.mul_norm hg'
  exact ⟨hf.mul hg hn.of_norm, hn⟩

/-- Product of absolutely convergent sums. -/
theorem hasSum_pi {d : ℕ} (f : Fin d → ℤ → ℂ) (s : Fin d → ℂ) (h : ∀ j, HasSum (f j) (s j)) (hs : ∀ j, Summable fun a => ‖f j a‖) :
    HasSum (fun b : Fin d → ℤ => ∏ j, f j (b j)) (∏ j, s j) ∧ Summable fun b : Fin d → ℤ => ‖∏ j, f j (b j)‖ := by
  induction d with
  | zero =>
    simp only [Finset.univ_eq_empty, Finset.prod_empty]
    exact ⟨hasSum_unique _, (hasSum_unique _).summable⟩
  | succ d ih =>
    obtain ⟨g, hg⟩ : ∃ g : Fin d → ℤ → ℂ, g = fun j => f j.succ := ⟨_, rfl⟩
    obtain ⟨h1, h2⟩ := ih g (fun j => s j.succ) (fun j => by rw [hg]; exact h j.succ) (fun j => by rw [hg]; exact hs j.succ)
    obtain ⟨hm, hn⟩ := hasSum_mul_norm (h 0) h1 (hs 0) h2
    have e : ∀ p : ℤ × (Fin d → ℤ), ∏ j, f j ((Fin.consEquiv fun _ => ℤ) p j) = f 0 p.1 * ∏ j : Fin d, g j (p.2 j) := by
      intro p
      rw [Fin.prod_univ_succ, hg]
      rfl
    constructor
    · rw [← (Fin.consEquiv fun _ => ℤ).hasSum_iff, Fin.prod_univ_succ]
      simp only [Function.comp_def, e]
      exact hm
    · rw [← (Fin.consEquiv fun _ => ℤ).summable_iff]
      simp only [Function.comp_def, e]
      exact hn

end Pmesh
