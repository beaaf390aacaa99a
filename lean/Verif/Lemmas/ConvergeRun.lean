import Verif.Lemmas.ConvergeFactors
import Mathlib.Analysis.Calculus.MeanValue

/-! # Runs of the three schemes stay close to the equations of motion -/

namespace Pmesh

theorem early_time {x y a0 a1 : ℝ} (ha0 : 0 < a0) (hx : a0 ≤ x) (hxy : x ≤ y) (hy : y ≤ a1) :
    a0 * (a0 / a1) ≤ x * Real.exp (-1 / 24 * (Real.log y - Real.log x)) ∧ x * Real.exp (-1 / 24 * (Real.log y - Real.log x)) ≤ x ∧
      y - x * Real.exp (-1 / 24 * (Real.log y - Real.log x)) ≤ 2 * (y - x) := by
  have hx0 : 0 < x := ha0.trans_le hx
  have hy0 : 0 < y := hx0.trans_le hxy
  have ha1 : 0 < a1 := hy0.trans_le hy
  have hD : 0 ≤ Real.log y - Real.log x := by linarith [Real.log_le_log hx0 hxy]
  have h1 : a0 / a1 ≤ Real.exp (-1 / 24 * (Real.log y - Real.log x)) := by
    calc a0 / a1 ≤ x / y := div_le_div₀ hx0.le hx hy0 hy
      _ = Real.exp (Real.log x - Real.log y) := by rw [Real.exp_sub, Real.exp_log hx0, Real.exp_log hy0]
      _ ≤ _ := Real.exp_le_exp.2 (by linarith)
  have h2 : Real.exp (-1 / 24 * (Real.log y - Real.log x)) ≤ 1 := Real.exp_le_one_iff.2 (by nlinarith)
  have h3 := Real.add_one_le_exp (-1 / 24 * (Real.log y - Real.log x))
  have h4 : Real.log y - Real.log x ≤ y / x - 1 := by
    rw [← Real.log_div hy0.ne' hx0.ne']
    exact Real.log_le_sub_one_of_pos (by positivity)
  have h5 : x * (Real.log y - Real.log x) ≤ y - x := by
    calc _ ≤ x * (y / x - 1) := mul_le_mul_of_nonneg_left h4 hx0.le
      _ = y - x := by field_simp
  refine ⟨mul_le_mul hx h1 (by positivity) hx0.le, by nlinarith, ?_⟩
  nlinarith [mul_le_mul_of_nonneg_left h3 hx0.le]

theorem scheme_good (fac : Factors) {E : ℝ → ℝ} (hE2 : ContinuousOn (fun a => 1 / (a ^ 2 * E a)) (Set.Ioi 0)) (hE3 : ContinuousOn (fun a => 1 / (a ^ 3 * E a)) (Set.Ioi 0))
    {a0 a1 h η κ : ℝ} (ha0 : 0 < a0) (hη : 0 ≤ η) (hη1 : η ≤ 1) (hκ0 : 0 ≤ κ) (hκ2 : ∀ t ∈ Set.Icc (a0 * (a0 / a1)) a1, |1 / (t ^ 2 * E t)| ≤ κ)
    (hκ3 : ∀ t ∈ Set.Icc (a0 * (a0 / a1)) a1, |1 / (t ^ 3 * E t)| ≤ κ) (hfac : FacNear fac E (a0 * (a0 / a1)) a1 (2 * h) η) {l : List NbOp} {x y : ℝ}
    (hx : a0 ≤ x) (hxy : x ≤ y) (hy : y ≤ a1) (hh : y - x ≤ h) (hlen : l.length ≤ 9) (hc : Clocked l x x (some x) y y)
    (hin : ∀ op ∈ l, op.In (Set.Icc (x * Real.exp (-1 / 24 * (Real.log y - Real.log x))) y)) : GoodStep fac E (18 * (κ + 1)) (18 * η) x y l := by
  obtain ⟨e1, e2, e3⟩ := early_time ha0 hx hxy hy
  have hxc : x ∈ Set.Icc (x * Real.exp (-1 / 24 * (Real.log y - Real.log x))) y := ⟨e2, hxy⟩
  have ha1 : 0 < a1 := ha0.trans_le (hx.trans (hxy.trans hy))
  obtain ⟨c, hcc⟩ : ∃ c, c = x * Real.exp (-1 / 24 * (Real.log y - Real.log x)) := ⟨_, rfl⟩
  rw [← hcc] at e1 e2 e3 hin hxc
  obtain ⟨g1, g2, g3, -, -⟩ := clocked_good fac hE2 hE3 (by positivity) hη hκ0 hκ2 hκ3 hfac e1 hy (e3.trans (by linarith)) (by linarith) l x x _ y y hc hin hxc hxc
  have hlen' : (l.length : ℝ) ≤ 9 := by exact_mod_cast hlen
  have hyc : 0 ≤ y - c := by linarith
  have key : ∀ k : ℝ, 0 ≤ k → (l.length : ℝ) * (k * (y - c)) ≤ 18 * k * (y - x) := by
    intro k hk
    calc (l.length : ℝ) * (k * (y - c)) ≤ 9 * (k * (2 * (y - x))) := by gcongr
      _ = _ := by ring
  refine ⟨g1.trans ((key _ (by positivity)).trans ?_), g2.trans (key _ hη), g3.trans (key _ hη)⟩
  have : 0 ≤ y - x := by linarith
  gcongr

theorem schemes_error {X : Type} [NormedAddCommGroup X] [NormedSpace ℝ X] {E : ℝ → ℝ} (hE2 : ContinuousOn (fun a => 1 / (a ^ 2 * E a)) (Set.Ioi 0))
    (hE3 : ContinuousOn (fun a => 1 / (a ^ 3 * E a)) (Set.Ioi 0)) {F : X → X} {L M a0 a1 : ℝ} (hM : ∀ x, ‖F x‖ ≤ M) (hL : ∀ x y, ‖F x - F y‖ ≤ L * ‖x - y‖)
    (hL0 : 0 ≤ L) (ha0 : 0 < a0) (ha : a0 ≤ a1) {S V : ℝ → X} (hmove : MovesOn E F a0 a1 S V) :
    ∃ C, 0 ≤ C ∧ ∀ fac η h, 0 ≤ η → η ≤ 1 → 0 ≤ h → FacNear fac E (a0 * (a0 / a1)) a1 (2 * h) η → ∀ scheme ∈ nbSchemes, ∀ times, TimeSteps a0 a1 h times →
      ∃ l, scheme times = .force :: l ∧ ‖(phaseRun fac F l (S a0, V a0, F (S a0))).1 - S a1‖ ≤ C * (h + 18 * η) ∧
        ‖(phaseRun fac F l (S a0, V a0, F (S a0))).2.1 - V a1‖ ≤ C * (h + 18 * η) := by
  have ha1 : 0 < a1 := ha0.trans_le ha
  have hM0 : 0 ≤ M := (norm_nonneg _).trans (hM 0)
  have hsub : Set.Icc (a0 * (a0 / a1)) a1 ⊆ Set.Ioi 0 := fun t ht => (show 0 < a0 * (a0 / a1) by positivity).trans_le ht.1
  obtain ⟨κ2, hκ2⟩ := isCompact_Icc.exists_bound_of_continuousOn (hE2.mono hsub)
  obtain ⟨κ3, hκ3⟩ := isCompact_Icc.exists_bound_of_continuousOn (hE3.mono hsub)
  obtain ⟨κ, hκ⟩ : ∃ κ, κ = max |κ2| |κ3| := ⟨_, rfl⟩
  have hκ0 : 0 ≤ κ := by rw [hκ]; positivity
  have hk2 : ∀ t ∈ Set.Icc (a0 * (a0 / a1)) a1, |1 / (t ^ 2 * E t)| ≤ κ := fun t ht => (hκ2 t ht).trans ((le_abs_self _).trans (hκ ▸ le_max_left _ _))
  have hk3 : ∀ t ∈ Set.Icc (a0 * (a0 / a1)) a1, |1 / (t ^ 3 * E t)| ≤ κ := fun t ht => (hκ3 t ht).trans ((le_abs_self _).trans (hκ ▸ le_max_right _ _))
  have hlo : a0 * (a0 / a1) ≤ a0 := by
    have : a0 / a1 ≤ 1 := (div_le_one ha1).2 ha
    nlinarith
  have hI : Set.Icc a0 a1 ⊆ Set.Icc (a0 * (a0 / a1)) a1 := Set.Icc_subset_Icc hlo le_rfl
  obtain ⟨A, hA⟩ : ∃ A, A = 18 * (κ + 1) := ⟨_, rfl⟩
  have hA0 : 0 ≤ A := by rw [hA]; positivity
  have hT0 : 0 ≤ a1 - a0 := by linarith
  obtain ⟨B, hB⟩ : ∃ B, B = ‖V a0‖ + A * M * (a1 - a0) := ⟨_, rfl⟩
  have hB0 : 0 ≤ B := by rw [hB]; positivity
  have hV : ∀ t ∈ Set.Icc a0 a1, ‖V t‖ ≤ B := by
    intro t ht
    have h1 := (convex_Icc a0 a1).norm_image_sub_le_of_norm_hasDerivWithin_le (f := V) (C := κ * M) (fun s hs => hmove.dV s hs) (fun s hs => by
      rw [norm_smul]
      exact mul_le_mul (hk2 s (hI hs)) (hM _) (norm_nonneg _) hκ0) (Set.left_mem_Icc.2 ha) ht
    have h2 : ‖V t‖ ≤ ‖V a0‖ + ‖V t - V a0‖ := by
      have := norm_add_le (V a0) (V t - V a0)
      rwa [add_sub_cancel] at this
    have h3 : κ * M * ‖t - a0‖ ≤ A * M * (a1 - a0) := by
      rw [Real.norm_of_nonneg (by linarith [ht.1])]
      have : κ ≤ A := by rw [hA]; linarith
      have : t - a0 ≤ a1 - a0 := by linarith [ht.2]
      have : 0 ≤ t - a0 := by linarith [ht.1]
      gcongr
    rw [hB]
    linarith
  obtain ⟨C, hC⟩ : ∃ C, C = B + M + A ^ 2 * M + κ ^ 2 * M + L * A ^ 2 * (B + A * (a1 - a0) * M) + κ ^ 2 * L * B := ⟨_, rfl⟩
  have hC0 : 0 ≤ C := by rw [hC]; positivity
  refine ⟨Real.exp (A * (1 + L) * (a1 - a0)) * (C * (a1 - a0)), by positivity, fun fac η h hη hη1 hh hfac scheme hs times ht => ?_⟩
  obtain ⟨step, s1, s2, s3⟩ := scheme_steps scheme hs
  obtain ⟨x, rest, rfl⟩ : ∃ x rest, times = x :: rest := by
    cases times with
    | nil => exact absurd ht.first (by simp)
    | cons x rest => exact ⟨x, rest, rfl⟩
  obtain rfl : x = a0 := by simpa using ht.first
  refine ⟨_, s1 _, ?_⟩
  have := run_error fac hE2 hE3 hL0 hM0 (norm_nonneg (V x)) hB hκ0 hA0 (show 0 ≤ 18 * η by positivity) hM hL ha0 (fun t h => hk2 t (hI h)) (fun t h => hk3 t (hI h))
    hmove hV step (fun x' y h1 h2 h3 h4 => by
      obtain ⟨t1, t2, t3⟩ := s3 x' y (ha0.trans_le h1) h2
      rw [hA]
      exact scheme_good fac hE2 hE3 ha0 hη hη1 hκ0 hk2 hk3 hfac h1 h2 h3 h4 t1 t2 t3)
    (fun x' y p => s2 fac F x' y p) hC rest x le_rfl ha ht.last ht.steps (S x) (V x) 0 (by simp) (by simp) (by simp)
  rw [zero_add] at this
  rw [mul_assoc]
  exact this

end Pmesh
