import Verif.Lemmas.PowerSpectrum
import Mathlib.Data.List.GetD

/-!
# C118: the power spectrum of nbody/powerspectrum.py
-/

namespace Pmesh

open MeasureTheory

theorem logTable_incr {kp : List (ℝ × ℝ)} (h : PowerTable kp) : (kp.map fun q => (Real.logb 10 q.1, Real.logb 10 q.2)).Pairwise fun a b => a.1 < b.1 := by
  rw [List.pairwise_map]
  refine h.incr.imp_of_mem fun {a b} ha hb hab => ?_
  exact Real.logb_lt_logb (by norm_num) (h.pos a ha).1 hab

theorem PofK_eq (kp : List (ℝ × ℝ)) (s8 : Option ℝ) (k : ℝ) :
    (powerSpectrum kp s8).PofK k = (powerSpectrum kp s8).norm * (10 : ℝ) ^ npInterp (kp.map fun q => (Real.logb 10 q.1, Real.logb 10 q.2)) (Real.logb 10 k) := by
  cases s8 <;> rfl

theorem npInterp_first (t : List (ℝ × ℝ)) (a : ℝ × ℝ) {x : ℝ} (hx : x ≤ a.1) (hs : (a :: t).Pairwise fun a b => a.1 < b.1) : npInterp (a :: t) x = a.2 := by
  cases t with
  | nil => rfl
  | cons b t =>
    obtain ⟨x0, f0⟩ := a
    obtain ⟨x1, f1⟩ := b
    have h : x0 < x1 := (List.pairwise_cons.1 hs).1 (x1, f1) (by simp)
    simp only at hx
    simp only [npInterp]
    split_ifs with c1 c2
    · rfl
    · have : x = x0 := le_antisymm hx (not_lt.1 c1)
      rw [this]
      ring
    · exfalso
      linarith

theorem npInterp_last (t : List (ℝ × ℝ)) (hs : t.Pairwise fun a b => a.1 < b.1) (i : ℕ) (hi : i + 1 = t.length) {x : ℝ} (hx : (t.getD i 0).1 ≤ x) :
    npInterp t x = (t.getD i 0).2 := by
  induction t generalizing i with
  | nil => simp at hi
  | cons a t ih =>
    cases t with
    | nil =>
      have : i = 0 := by simpa using hi
      subst this
      rfl
    | cons b t =>
      obtain ⟨x0, f0⟩ := a
      obtain ⟨x1, f1⟩ := b
      obtain ⟨i, rfl⟩ : ∃ i', i = i' + 1 := ⟨i - 1, by simp at hi; omega⟩
      rw [List.getD_cons_succ] at hx ⊢
      have hp := List.pairwise_cons.1 hs
      have h1 : x1 ≤ x := by
        cases i with
        | zero => exact hx
        | succ i =>
          rw [List.getD_cons_succ] at hx
          have := (List.pairwise_cons.1 hp.2).1 (t.getD i 0) (by
            rw [List.getD_eq_getElem _ _ (by simp at hi; omega)]
            exact List.getElem_mem _)
          linarith
      have h0 : x0 < x1 := hp.1 (x1, f1) (by simp)
      simp only [npInterp]
      rw [if_neg (by linarith), if_neg (by linarith)]
      exact ih hp.2 i (by simpa using hi) hx

theorem npInterp_segment (t : List (ℝ × ℝ)) (hs : t.Pairwise fun a b => a.1 < b.1) (i : ℕ) (hi : i + 1 < t.length) {x : ℝ} (h1 : (t.getD i 0).1 ≤ x) (h2 : x ≤ (t.getD (i + 1) 0).1) :
    npInterp t x = ((t.getD (i + 1) 0).2 - (t.getD i 0).2) / ((t.getD (i + 1) 0).1 - (t.getD i 0).1) * (x - (t.getD i 0).1) + (t.getD i 0).2 := by
  induction t generalizing i with
  | nil => simp at hi
  | cons a t ih =>
    cases t with
    | nil => simp at hi
    | cons b t =>
      obtain ⟨x0, f0⟩ := a
      obtain ⟨x1, f1⟩ := b
      have hp := List.pairwise_cons.1 hs
      have h0 : x0 < x1 := hp.1 (x1, f1) (by simp)
      cases i with
      | zero =>
        simp only [List.getD_cons_zero, List.getD_cons_succ, zero_add] at h1 h2 ⊢
        simp only [npInterp]
        rw [if_neg (by linarith)]
        split_ifs with c
        · rfl
        · have : x = x1 := le_antisymm h2 (not_lt.1 c)
          rw [npInterp_first t (x1, f1) h2 hp.2, this]
          have : x1 - x0 ≠ 0 := by linarith
          field_simp
          ring
      | succ i =>
        rw [List.getD_cons_succ] at h1 h2
        rw [List.getD_cons_succ, List.getD_cons_succ]
        have h3 : x1 ≤ x := by
          cases i with
          | zero => exact h1
          | succ i =>
            rw [List.getD_cons_succ] at h1
            have := (List.pairwise_cons.1 hp.2).1 (t.getD i 0) (by
              rw [List.getD_eq_getElem _ _ (by simp at hi; omega)]
              exact List.getElem_mem _)
            linarith
        have e : npInterp ((x0, f0) :: (x1, f1) :: t) x = npInterp ((x1, f1) :: t) x := by
          simp only [npInterp]
          rw [if_neg (by linarith), if_neg (by linarith)]
        rw [e]
        exact ih hp.2 i (by simpa using hi) h1 h2

theorem logTable_getD {kp : List (ℝ × ℝ)} {i : ℕ} (hi : i < kp.length) :
    (kp.map fun q => (Real.logb 10 q.1, Real.logb 10 q.2)).getD i 0 = (Real.logb 10 (kp.getD i 0).1, Real.logb 10 (kp.getD i 0).2) := by
  rw [List.getD_eq_getElem _ _ (by simpa using hi), List.getD_eq_getElem _ _ hi, List.getElem_map]

theorem table_pos {kp : List (ℝ × ℝ)} (h : PowerTable kp) {i : ℕ} (hi : i < kp.length) : 0 < (kp.getD i 0).1 ∧ 0 < (kp.getD i 0).2 := by
  rw [List.getD_eq_getElem _ _ hi]
  exact h.pos _ (List.getElem_mem _)

/-- **C118**, the table.  Up to the normalisation, the spectrum passes through all the points of the table, it is a power law between them, and constant outside. -/
theorem C118_table (kp : List (ℝ × ℝ)) (h : PowerTable kp) (s8 : Option ℝ) :
    (∀ i < kp.length, (powerSpectrum kp s8).PofK (kp.getD i 0).1 = (powerSpectrum kp s8).norm * (kp.getD i 0).2) ∧
    (∀ i, i + 1 < kp.length → ∀ k, (kp.getD i 0).1 ≤ k → k ≤ (kp.getD (i + 1) 0).1 →
      (powerSpectrum kp s8).PofK k = (powerSpectrum kp s8).norm * ((kp.getD i 0).2 * (k / (kp.getD i 0).1) ^
        (Real.log ((kp.getD (i + 1) 0).2 / (kp.getD i 0).2) / Real.log ((kp.getD (i + 1) 0).1 / (kp.getD i 0).1)))) ∧
    (∀ k, 0 < k → k ≤ (kp.getD 0 0).1 → (powerSpectrum kp s8).PofK k = (powerSpectrum kp s8).norm * (kp.getD 0 0).2) ∧
    ∀ k, (kp.getD (kp.length - 1) 0).1 ≤ k → (powerSpectrum kp s8).PofK k = (powerSpectrum kp s8).norm * (kp.getD (kp.length - 1) 0).2 := by
  have hs := logTable_incr h
  have hlen : 0 < kp.length := List.length_pos_iff.2 h.ne
  have h10 : ∀ {y : ℝ}, 0 < y → (10 : ℝ) ^ Real.logb 10 y = y := fun hy => Real.rpow_logb (by norm_num) (by norm_num) hy
  have hlast : ∀ k, (kp.getD (kp.length - 1) 0).1 ≤ k → (powerSpectrum kp s8).PofK k = (powerSpectrum kp s8).norm * (kp.getD (kp.length - 1) 0).2 := by
    intro k hk
    have hp := table_pos h (by omega : kp.length - 1 < kp.length)
    rw [PofK_eq, npInterp_last _ hs (kp.length - 1) (by simp; omega) (by
      rw [logTable_getD (by omega)]
      exact Real.logb_le_logb_of_le (by norm_num) hp.1 hk), logTable_getD (by omega), h10 hp.2]
  have hseg : ∀ i, i + 1 < kp.length → ∀ k, (kp.getD i 0).1 ≤ k → k ≤ (kp.getD (i + 1) 0).1 →
      (powerSpectrum kp s8).PofK k = (powerSpectrum kp s8).norm * ((kp.getD i 0).2 * (k / (kp.getD i 0).1) ^
        (Real.log ((kp.getD (i + 1) 0).2 / (kp.getD i 0).2) / Real.log ((kp.getD (i + 1) 0).1 / (kp.getD i 0).1))) := by
    intro i hi k h1 h2
    have hp := table_pos h (by omega : i < kp.length)
    have hp' := table_pos h hi
    have hk : 0 < k := hp.1.trans_le h1
    rw [PofK_eq, npInterp_segment _ hs i (by simpa using hi) (x := Real.logb 10 k) (by
      rw [logTable_getD (by omega)]
      exact Real.logb_le_logb_of_le (by norm_num) hp.1 h1) (by
      rw [logTable_getD hi]
      exact Real.logb_le_logb_of_le (by norm_num) hk h2), logTable_getD hi, logTable_getD (by omega)]
    simp only
    rw [Real.rpow_add (by norm_num), h10 hp.2, mul_comm (kp.getD i 0).2]
    congr 2
    rw [← Real.logb_div hp'.2.ne' hp.2.ne', ← Real.logb_div hp'.1.ne' hp.1.ne', ← Real.logb_div hk.ne' hp.1.ne', mul_comm, Real.rpow_mul (by norm_num), h10 (div_pos hk hp.1)]
    congr 1
    unfold Real.logb
    have : Real.log 10 ≠ 0 := (Real.log_pos (by norm_num)).ne'
    field_simp
  refine ⟨fun i hi => ?_, hseg, fun k hk hk0 => ?_, hlast⟩
  · by_cases hi' : i + 1 < kp.length
    · have hp := table_pos h hi
      rw [hseg i hi' _ le_rfl (by
        rw [List.getD_eq_getElem _ _ hi, List.getD_eq_getElem _ _ hi']
        exact ((List.pairwise_iff_getElem.1 h.incr) i (i + 1) hi hi' (by omega)).le), div_self hp.1.ne', Real.one_rpow, mul_one]
    · have : i = kp.length - 1 := by omega
      rw [this]
      exact hlast _ le_rfl
  · have hp := table_pos h hlen
    obtain ⟨a, t, rfl⟩ := List.exists_cons_of_ne_nil h.ne
    rw [PofK_eq, List.map_cons, npInterp_first _ _ (Real.logb_le_logb_of_le (by norm_num) hk hk0) (by simpa using hs)]
    simp only [List.getD_cons_zero] at hp ⊢
    rw [h10 hp.2]

/-- The integral for the unnormalised spectrum. -/
theorem sigma_pos {t : List (ℝ × ℝ)} (hs : t.Pairwise fun a b => a.1 < b.1) (hne : t ≠ []) (N : ℝ) {R : ℝ} (hR : 0 < R) :
    IntegrableOn (fun k => (⟨t, 1, N⟩ : PowerSpec).integrand k R) (Set.Ioi 0) ∧ 0 < (⟨t, 1, N⟩ : PowerSpec).sigmaSq R ∧
      (⟨t, 1, N⟩ : PowerSpec).sigmaSq R < ballVariance (⟨t, 1, N⟩ : PowerSpec).PofK R := by
  obtain ⟨m, M, hb⟩ := table_bounds t
  have hP : ∀ k, (10 : ℝ) ^ m ≤ (⟨t, 1, N⟩ : PowerSpec).PofK k ∧ (⟨t, 1, N⟩ : PowerSpec).PofK k ≤ (10 : ℝ) ^ M := by
    intro k
    have h := npInterp_bound t hs hne hb (Real.logb 10 k)
    unfold PowerSpec.PofK
    simp only [one_mul]
    exact ⟨Real.rpow_le_rpow_of_exponent_le (by norm_num) h.1, Real.rpow_le_rpow_of_exponent_le (by norm_num) h.2⟩
  have hm0 : (0 : ℝ) < 10 ^ m := by positivity
  have hnn : ∀ k, 0 ≤ (⟨t, 1, N⟩ : PowerSpec).integrand k R := by
    intro k
    unfold PowerSpec.integrand
    have := hm0.le.trans (hP k).1
    positivity
  have hmeas : Measurable fun k => (⟨t, 1, N⟩ : PowerSpec).integrand k R := by
    unfold PowerSpec.integrand PowerSpec.PofK
    have h1 : Measurable fun k => npInterp t (Real.logb 10 k) := (npInterp_measurable t).comp (by unfold Real.logb; fun_prop)
    have h2 : Measurable fun k => WofK (R * k) := WofK_measurable.comp (by fun_prop)
    simp only
    fun_prop
  have hint : IntegrableOn (fun k => (⟨t, 1, N⟩ : PowerSpec).integrand k R) (Set.Ioi 0) := by
    have h1 : Integrable (fun k : ℝ => (4 * Real.pi * 10 ^ M * 72 / R ^ 2) * (1 + (R * k) ^ 2)⁻¹) := (integrable_inv_one_add_sq.comp_mul_left' hR.ne').const_mul _
    refine Integrable.mono' h1.integrableOn hmeas.aestronglyMeasurable ?_
    refine (ae_restrict_iff' measurableSet_Ioi).2 (Filter.Eventually.of_forall fun k hk => ?_)
    rw [Real.norm_of_nonneg (hnn k)]
    have hk' : 0 < R * k := mul_pos hR hk
    have h2 := WofK_decay hk'
    unfold PowerSpec.integrand
    have e : k ^ 2 * (⟨t, 1, N⟩ : PowerSpec).PofK k * 4 * Real.pi * WofK (R * k) ^ 2 =
        (4 * Real.pi * (⟨t, 1, N⟩ : PowerSpec).PofK k / R ^ 2) * ((R * k) ^ 2 * WofK (R * k) ^ 2) := by
      field_simp
    have e' : 4 * Real.pi * (10 : ℝ) ^ M * 72 / R ^ 2 * (1 + (R * k) ^ 2)⁻¹ = (4 * Real.pi * 10 ^ M / R ^ 2) * (72 * (1 + (R * k) ^ 2)⁻¹) := by ring
    rw [e, e']
    have hPk := (hP k).2
    have hP0 := hm0.le.trans (hP k).1
    gcongr
  have hint2 : IntegrableOn (fun k => 4 * Real.pi * k ^ 2 * (⟨t, 1, N⟩ : PowerSpec).PofK k * ballWave (R * k) ^ 2) (Set.Ioi 0) := by
    have h1 : Integrable (fun k : ℝ => (4 * Real.pi * 10 ^ M * 72 / R ^ 2) * (1 + (R * k) ^ 2)⁻¹) := (integrable_inv_one_add_sq.comp_mul_left' hR.ne').const_mul _
    refine Integrable.mono' h1.integrableOn ?_ ?_
    · unfold PowerSpec.PofK
      have h1 : Measurable fun k => npInterp t (Real.logb 10 k) := (npInterp_measurable t).comp (by unfold Real.logb; fun_prop)
      have h2 : Measurable fun k => ballWave (R * k) := ballWave_measurable.comp (by fun_prop)
      simp only
      exact (by fun_prop : Measurable fun k => 4 * Real.pi * k ^ 2 * (1 * (10 : ℝ) ^ npInterp t (Real.logb 10 k)) * ballWave (R * k) ^ 2).aestronglyMeasurable
    refine (ae_restrict_iff' measurableSet_Ioi).2 (Filter.Eventually.of_forall fun k hk => ?_)
    have hPk := (hP k).2
    have hP0 := hm0.le.trans (hP k).1
    rw [Real.norm_of_nonneg (by positivity)]
    have hk' : 0 < R * k := mul_pos hR hk
    have h2 := ballWave_decay hk'
    have e : 4 * Real.pi * k ^ 2 * (⟨t, 1, N⟩ : PowerSpec).PofK k * ballWave (R * k) ^ 2 =
        (4 * Real.pi * (⟨t, 1, N⟩ : PowerSpec).PofK k / R ^ 2) * ((R * k) ^ 2 * ballWave (R * k) ^ 2) := by
      field_simp
    have e' : 4 * Real.pi * (10 : ℝ) ^ M * 72 / R ^ 2 * (1 + (R * k) ^ 2)⁻¹ = (4 * Real.pi * 10 ^ M / R ^ 2) * (72 * (1 + (R * k) ^ 2)⁻¹) := by ring
    rw [e, e']
    gcongr
  have hless : (⟨t, 1, N⟩ : PowerSpec).sigmaSq R < ballVariance (⟨t, 1, N⟩ : PowerSpec).PofK R := by
    unfold PowerSpec.sigmaSq ballVariance
    rw [← sub_pos, ← integral_sub hint2 hint]
    have hnn' : ∀ k ∈ Set.Ioi (0 : ℝ), 0 ≤ 4 * Real.pi * k ^ 2 * (⟨t, 1, N⟩ : PowerSpec).PofK k * ballWave (R * k) ^ 2 - (⟨t, 1, N⟩ : PowerSpec).integrand k R := by
      intro k hk
      have h1 := (WofK_le (mul_pos hR hk).le).1
      have hP0 := hm0.le.trans (hP k).1
      have e : 4 * Real.pi * k ^ 2 * (⟨t, 1, N⟩ : PowerSpec).PofK k * ballWave (R * k) ^ 2 - (⟨t, 1, N⟩ : PowerSpec).integrand k R =
          4 * Real.pi * k ^ 2 * (⟨t, 1, N⟩ : PowerSpec).PofK k * (ballWave (R * k) ^ 2 - WofK (R * k) ^ 2) := by
        unfold PowerSpec.integrand
        ring
      rw [e]
      exact mul_nonneg (by positivity) (by linarith)
    rw [setIntegral_pos_iff_support_of_nonneg_ae ((ae_restrict_iff' measurableSet_Ioi).2 (Filter.Eventually.of_forall hnn')) (hint2.sub hint)]
    refine lt_of_lt_of_le ?_ (measure_mono (s := Set.Ioo 0 (1e-2 / R)) fun k hk => ?_)
    · rw [Real.volume_Ioo, ENNReal.ofReal_pos]
      have : 0 < 1e-2 / R := by positivity
      linarith
    · refine ⟨?_, hk.1⟩
      have hk0 : 0 < k := hk.1
      have h1 : R * k < 1e-2 := by
        have := hk.2
        rwa [lt_div_iff₀ hR, mul_comm] at this
      have h2 := (WofK_le (mul_pos hR hk0).le).2 h1
      have h4 := hm0.trans_le (hP k).1
      rw [Function.mem_support]
      have e : 4 * Real.pi * k ^ 2 * (⟨t, 1, N⟩ : PowerSpec).PofK k * ballWave (R * k) ^ 2 - (⟨t, 1, N⟩ : PowerSpec).integrand k R =
          4 * Real.pi * k ^ 2 * (⟨t, 1, N⟩ : PowerSpec).PofK k * (ballWave (R * k) ^ 2 - WofK (R * k) ^ 2) := by
        unfold PowerSpec.integrand
        ring
      rw [e]
      exact (mul_pos (by positivity) (by linarith)).ne'
  refine ⟨hint, ?_, hless⟩
  unfold PowerSpec.sigmaSq
  rw [setIntegral_pos_iff_support_of_nonneg_ae (Filter.Eventually.of_forall hnn) hint]
  refine lt_of_lt_of_le ?_ (measure_mono (s := Set.Ioo 0 (1e-2 / R)) fun k hk => ?_)
  · rw [Real.volume_Ioo, ENNReal.ofReal_pos]
    have : 0 < 1e-2 / R := by positivity
    linarith
  · refine ⟨?_, hk.1⟩
    have hk0 : 0 < k := hk.1
    have h1 : R * k < 1e-2 := by
      have := hk.2
      rwa [lt_div_iff₀ hR, mul_comm] at this
    have h2 := (WofK_near (mul_pos hR hk0).le h1).1
    have h3 : 0 < WofK (R * k) := lt_of_lt_of_le (by norm_num) h2
    have h4 := hm0.trans_le (hP k).1
    rw [Function.mem_support]
    unfold PowerSpec.integrand
    positivity

/-- **C118**, the normalisation.  The integral of `sigma_squared_of_R` exists and is positive for every table; a spectrum made with `sigma8` has exactly this amplitude at a
radius of 8, and one made without keeps the table and has the amplitude of the table in its attribute. -/
theorem C118_sigma8 (kp : List (ℝ × ℝ)) (h : PowerTable kp) :
    (∀ R, 0 < R → IntegrableOn (fun k => (powerSpectrum kp none).integrand k R) (Set.Ioi 0)) ∧
    (∀ s, (powerSpectrum kp (some s)).sigmaSq 8 = s ^ 2 ∧ (powerSpectrum kp (some s)).sigma8 = s) ∧
    (powerSpectrum kp none).norm = 1 ∧ 0 < (powerSpectrum kp none).sigma8 ∧ (powerSpectrum kp none).sigma8 ^ 2 = (powerSpectrum kp none).sigmaSq 8 := by
  have hs := logTable_incr h
  have hne : (kp.map fun q => (Real.logb 10 q.1, Real.logb 10 q.2)) ≠ [] := by simpa using h.ne
  have key := fun N R (hR : (0 : ℝ) < R) => sigma_pos hs hne N hR
  have same : ∀ N R, (powerSpectrum kp none).sigmaSq R = (⟨kp.map fun q => (Real.logb 10 q.1, Real.logb 10 q.2), 1, N⟩ : PowerSpec).sigmaSq R := fun _ _ => rfl
  refine ⟨fun R hR => (key 0 R hR).1, fun s => ⟨?_, rfl⟩, rfl, ?_, ?_⟩
  · have h0 := (key 0 8 (by norm_num)).2.1
    have e : ∀ k, (powerSpectrum kp (some s)).integrand k 8 = s ^ 2 / (⟨kp.map fun q => (Real.logb 10 q.1, Real.logb 10 q.2), 1, 0⟩ : PowerSpec).sigmaSq 8 *
        (⟨kp.map fun q => (Real.logb 10 q.1, Real.logb 10 q.2), 1, 0⟩ : PowerSpec).integrand k 8 := by
      intro k
      simp only [PowerSpec.integrand, PowerSpec.PofK, powerSpectrum]
      ring
    have e2 : (powerSpectrum kp (some s)).sigmaSq 8 = ∫ k in Set.Ioi 0, (powerSpectrum kp (some s)).integrand k 8 := rfl
    rw [e2]
    simp only [e]
    rw [integral_const_mul]
    exact div_mul_cancel₀ _ h0.ne'
  · exact Real.rpow_pos_of_pos (key 0 8 (by norm_num)).2.1 _
  · have h0 := (key 0 8 (by norm_num)).2.1
    have e : (powerSpectrum kp none).sigma8 = (⟨kp.map fun q => (Real.logb 10 q.1, Real.logb 10 q.2), 1, 0⟩ : PowerSpec).sigmaSq 8 ^ (0.5 : ℝ) := rfl
    rw [e, same 0, ← Real.rpow_natCast, ← Real.rpow_mul h0.le]
    norm_num

/-- **C118**, the window of the amplitude: the Fourier transform of a ball, for arguments of at least 0.01. -/
theorem C118_window_partial (x : ℝ) (hx : 1e-2 ≤ x) : WofK x = ballWave x := WofK_far hx

/-- **C118 violated** below 0.01: the series in the code lacks a factor of 3; `WofK` is at most 0.34, where the Fourier transform of the ball is at least 0.99. -/
theorem C118_violated_window (x : ℝ) (h0 : 0 ≤ x) (hx : x < 1e-2) : WofK x ≤ 0.34 ∧ 0.99 ≤ ballWave x := by
  refine ⟨(WofK_near h0 hx).2, le_trans ?_ (ballWave_ge x)⟩
  norm_num at hx ⊢
  nlinarith

/-- **C118 violated**: for every table the variance in balls of radius 8 of a spectrum made with `sigma8` is larger than `sigma8²`. -/
theorem C118_violated_sigma8 (kp : List (ℝ × ℝ)) (h : PowerTable kp) (s : ℝ) (hs0 : s ≠ 0) : s ^ 2 < ballVariance (powerSpectrum kp (some s)).PofK 8 := by
  have hs := logTable_incr h
  have hne : (kp.map fun q => (Real.logb 10 q.1, Real.logb 10 q.2)) ≠ [] := by simpa using h.ne
  obtain ⟨-, h0, h1⟩ := sigma_pos hs hne 0 (show (0 : ℝ) < 8 by norm_num)
  have e : ballVariance (powerSpectrum kp (some s)).PofK 8 = s ^ 2 / (⟨kp.map fun q => (Real.logb 10 q.1, Real.logb 10 q.2), 1, 0⟩ : PowerSpec).sigmaSq 8 *
      ballVariance (⟨kp.map fun q => (Real.logb 10 q.1, Real.logb 10 q.2), 1, 0⟩ : PowerSpec).PofK 8 := by
    unfold ballVariance
    rw [← integral_const_mul]
    congr 1
    funext k
    simp only [PowerSpec.PofK, powerSpectrum]
    ring
  rw [e, div_mul_eq_mul_div, lt_div_iff₀ h0]
  exact mul_lt_mul_of_pos_left h1 (by positivity)

/-! ## Example -/

theorem exPower_ok : PowerTable [(1 / 100, 300), (1 / 10, 50), (2, 1 / 2)] :=
  ⟨by simp, by intro q hq; simp at hq; rcases hq with rfl | rfl | rfl <;> norm_num, by norm_num⟩

example := C118_table _ exPower_ok (some 0.82)
example := C118_sigma8 _ exPower_ok
example := C118_violated_sigma8 _ exPower_ok 0.82 (by norm_num)
example : (1e-2 : ℝ) ≤ 3 := by norm_num
example : (0 : ℝ) ≤ 1e-3 ∧ (1e-3 : ℝ) < 1e-2 := by norm_num

end Pmesh
