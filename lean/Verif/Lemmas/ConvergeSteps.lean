import Verif.Lemmas.Converge
import Verif.Props.NBodyTime

/-! # The steps of the three schemes, and the seven classes of factors, are consistent with the equations of motion -/

namespace Pmesh

/-- Over short intervals the factors are the integrals of the equations of motion but for a fraction `η`. -/
def FacNear (fac : Factors) (E : ℝ → ℝ) (lo hi δ η : ℝ) : Prop :=
  ∀ x ∈ Set.Icc lo hi, ∀ y ∈ Set.Icc lo hi, ∀ r ∈ Set.Icc lo hi, |y - x| ≤ δ → |r - x| ≤ δ →
    |fac.K x y r - kickExact E x y| ≤ η * |y - x| ∧ |fac.D x y r - driftExact E x y| ≤ η * |y - x|

/-- All times of a statement are in a set. -/
def NbOp.In (s : Set ℝ) : NbOp → Prop
  | .force => True
  | .kick ai af ar => ai ∈ s ∧ af ∈ s ∧ ar ∈ s
  | .drift ai af ar => ai ∈ s ∧ af ∈ s ∧ ar ∈ s

section
variable {g : ℝ → ℝ} (hg : ContinuousOn g (Set.Ioi 0))
include hg

theorem intervalIntegrable_pos {a b : ℝ} (ha : 0 < a) (hb : 0 < b) : IntervalIntegrable g MeasureTheory.volume a b :=
  (hg.mono fun _ hz => lt_of_lt_of_le (lt_min ha hb) hz.1).intervalIntegrable

theorem integral_le_of_bound {lo hi κ a b : ℝ} (hκ : ∀ t ∈ Set.Icc lo hi, |g t| ≤ κ) (ha : a ∈ Set.Icc lo hi) (hb : b ∈ Set.Icc lo hi) :
    |∫ t in a..b, g t| ≤ κ * |b - a| := by
  rw [← Real.norm_eq_abs]
  refine intervalIntegral.norm_integral_le_of_norm_le_const fun t ht => ?_
  have := Set.uIoc_subset_uIcc ht
  exact hκ t ((convex_Icc lo hi).ordConnected.uIcc_subset ha hb this)
end

theorem clocked_good (fac : Factors) {E : ℝ → ℝ} (hE2 : ContinuousOn (fun a => 1 / (a ^ 2 * E a)) (Set.Ioi 0)) (hE3 : ContinuousOn (fun a => 1 / (a ^ 3 * E a)) (Set.Ioi 0))
    {lo hi δ η κ c c' : ℝ} (hlo : 0 < lo) (hη : 0 ≤ η) (hκ0 : 0 ≤ κ) (hκ2 : ∀ t ∈ Set.Icc lo hi, |1 / (t ^ 2 * E t)| ≤ κ)
    (hκ3 : ∀ t ∈ Set.Icc lo hi, |1 / (t ^ 3 * E t)| ≤ κ) (hfac : FacNear fac E lo hi δ η) (hc : lo ≤ c) (hc' : c' ≤ hi) (hcc : c' - c ≤ δ) (hδ : 0 ≤ δ) :
    ∀ (l : List NbOp) (x v : ℝ) (f : Option ℝ) (xe ve : ℝ), Clocked l x v f xe ve → (∀ op ∈ l, op.In (Set.Icc c c')) → x ∈ Set.Icc c c' → v ∈ Set.Icc c c' →
      absSum fac l ≤ l.length * ((κ + η) * (c' - c)) ∧ |(l.map fac.kickOf).sum - kickExact E v ve| ≤ l.length * (η * (c' - c)) ∧
        |(l.map fac.driftOf).sum - driftExact E x xe| ≤ l.length * (η * (c' - c)) ∧ xe ∈ Set.Icc c c' ∧ ve ∈ Set.Icc c c'
  | [], x, v, f, xe, ve, h, _, hx, hv => by
    obtain ⟨rfl, rfl⟩ := h
    simp [absSum, kickExact, driftExact, hx.1, hx.2, hv.1, hv.2]
  | .force :: l, x, v, f, xe, ve, h, hin, hx, hv => by
    obtain ⟨h1, h2, h3, h4⟩ := clocked_good fac hE2 hE3 hlo hη hκ0 hκ2 hκ3 hfac hc hc' hcc hδ l x v _ xe ve h (fun op ho => hin op (List.mem_cons_of_mem _ ho)) hx hv
    have hcc0 : 0 ≤ c' - c := by linarith [hx.1, hx.2]
    refine ⟨?_, ?_, ?_, h4⟩
    · simp only [absSum, List.map_cons, List.sum_cons, Factors.kickOf, Factors.driftOf, abs_zero, add_zero, zero_add, List.length_cons] at h1 ⊢
      push_cast
      nlinarith [mul_nonneg (add_nonneg hκ0 hη) hcc0]
    · simp only [List.map_cons, List.sum_cons, Factors.kickOf, zero_add, List.length_cons] at h2 ⊢
      push_cast
      nlinarith [mul_nonneg hη hcc0]
    · simp only [List.map_cons, List.sum_cons, Factors.driftOf, zero_add, List.length_cons] at h3 ⊢
      push_cast
      nlinarith [mul_nonneg hη hcc0]
  | .kick ai af ar :: l, x, v, f, xe, ve, h, hin, hx, hv => by
    obtain ⟨rfl, -, h⟩ := h
    obtain ⟨i1, i2, i3⟩ : ai ∈ Set.Icc c c' ∧ af ∈ Set.Icc c c' ∧ ar ∈ Set.Icc c c' := hin (.kick ai af ar) List.mem_cons_self
    obtain ⟨h1, h2, h3, h4⟩ := clocked_good fac hE2 hE3 hlo hη hκ0 hκ2 hκ3 hfac hc hc' hcc hδ l x af _ xe ve h (fun op ho => hin op (List.mem_cons_of_mem _ ho)) hx i2
    have hsub : Set.Icc c c' ⊆ Set.Icc lo hi := Set.Icc_subset_Icc hc hc'
    have dist : ∀ {u w : ℝ}, u ∈ Set.Icc c c' → w ∈ Set.Icc c c' → |u - w| ≤ c' - c := fun hu hw => abs_le.2 ⟨by linarith [hu.1, hw.2], by linarith [hu.2, hw.1]⟩
    have hcc0 : 0 ≤ c' - c := by linarith [hx.1, hx.2]
    obtain ⟨f1, -⟩ := hfac ai (hsub i1) af (hsub i2) ar (hsub i3) ((dist i2 i1).trans hcc) ((dist i3 i1).trans hcc)
    have b1 := integral_le_of_bound hE2 hκ2 (hsub i1) (hsub i2)
    have pos : ∀ {u : ℝ}, u ∈ Set.Icc c c' → 0 < u := fun hu => hlo.trans_le (hc.trans hu.1)
    have hadd : kickExact E ai ve = kickExact E ai af + kickExact E af ve :=
      (intervalIntegral.integral_add_adjacent_intervals (intervalIntegrable_pos hE2 (pos i1) (pos i2)) (intervalIntegrable_pos hE2 (pos i2) (pos h4.2))).symm
    have d1 := dist i2 i1
    have f1' : |fac.K ai af ar - kickExact E ai af| ≤ η * (c' - c) := f1.trans (mul_le_mul_of_nonneg_left d1 hη)
    have b1' : |kickExact E ai af| ≤ κ * (c' - c) := b1.trans (mul_le_mul_of_nonneg_left d1 hκ0)
    have kb : |fac.K ai af ar| ≤ (κ + η) * (c' - c) := by
      have := abs_add_le (fac.K ai af ar - kickExact E ai af) (kickExact E ai af)
      rw [sub_add_cancel] at this
      linarith
    refine ⟨?_, ?_, ?_, h4⟩
    · simp only [absSum, List.map_cons, List.sum_cons, Factors.kickOf, Factors.driftOf, abs_zero, add_zero, List.length_cons] at h1 ⊢
      push_cast
      linarith
    · simp only [List.map_cons, List.sum_cons, Factors.kickOf, List.length_cons] at h2 ⊢
      push_cast
      rw [hadd, show ∀ a b c d : ℝ, a + b - (c + d) = (a - c) + (b - d) by intros; ring]
      have := abs_add_le (fac.K ai af ar - kickExact E ai af) ((l.map fac.kickOf).sum - kickExact E af ve)
      linarith
    · simp only [List.map_cons, List.sum_cons, Factors.driftOf, zero_add, List.length_cons] at h3 ⊢
      push_cast
      nlinarith [mul_nonneg hη hcc0]
  | .drift ai af ar :: l, x, v, f, xe, ve, h, hin, hx, hv => by
    obtain ⟨rfl, -, h⟩ := h
    obtain ⟨i1, i2, i3⟩ : ai ∈ Set.Icc c c' ∧ af ∈ Set.Icc c c' ∧ ar ∈ Set.Icc c c' := hin (.drift ai af ar) List.mem_cons_self
    obtain ⟨h1, h2, h3, h4⟩ := clocked_good fac hE2 hE3 hlo hη hκ0 hκ2 hκ3 hfac hc hc' hcc hδ l af v _ xe ve h (fun op ho => hin op (List.mem_cons_of_mem _ ho)) i2 hv
    have hsub : Set.Icc c c' ⊆ Set.Icc lo hi := Set.Icc_subset_Icc hc hc'
    have dist : ∀ {u w : ℝ}, u ∈ Set.Icc c c' → w ∈ Set.Icc c c' → |u - w| ≤ c' - c := fun hu hw => abs_le.2 ⟨by linarith [hu.1, hw.2], by linarith [hu.2, hw.1]⟩
    have hcc0 : 0 ≤ c' - c := by linarith [hx.1, hx.2]
    obtain ⟨-, f1⟩ := hfac ai (hsub i1) af (hsub i2) ar (hsub i3) ((dist i2 i1).trans hcc) ((dist i3 i1).trans hcc)
    have b1 := integral_le_of_bound hE3 hκ3 (hsub i1) (hsub i2)
    have pos : ∀ {u : ℝ}, u ∈ Set.Icc c c' → 0 < u := fun hu => hlo.trans_le (hc.trans hu.1)
    have hadd : driftExact E ai xe = driftExact E ai af + driftExact E af xe :=
      (intervalIntegral.integral_add_adjacent_intervals (intervalIntegrable_pos hE3 (pos i1) (pos i2)) (intervalIntegrable_pos hE3 (pos i2) (pos h4.1))).symm
    have d1 := dist i2 i1
    have f1' : |fac.D ai af ar - driftExact E ai af| ≤ η * (c' - c) := f1.trans (mul_le_mul_of_nonneg_left d1 hη)
    have b1' : |driftExact E ai af| ≤ κ * (c' - c) := b1.trans (mul_le_mul_of_nonneg_left d1 hκ0)
    have kb : |fac.D ai af ar| ≤ (κ + η) * (c' - c) := by
      have := abs_add_le (fac.D ai af ar - driftExact E ai af) (driftExact E ai af)
      rw [sub_add_cancel] at this
      linarith
    refine ⟨?_, ?_, ?_, h4⟩
    · simp only [absSum, List.map_cons, List.sum_cons, Factors.kickOf, Factors.driftOf, abs_zero, add_zero, zero_add, List.length_cons] at h1 ⊢
      push_cast
      linarith
    · simp only [List.map_cons, List.sum_cons, Factors.kickOf, zero_add, List.length_cons] at h2 ⊢
      push_cast
      nlinarith [mul_nonneg hη hcc0]
    · simp only [List.map_cons, List.sum_cons, Factors.driftOf, List.length_cons] at h3 ⊢
      push_cast
      rw [hadd, show ∀ a b c d : ℝ, a + b - (c + d) = (a - c) + (b - d) by intros; ring]
      have := abs_add_le (fac.D ai af ar - driftExact E ai af) ((l.map fac.driftOf).sum - driftExact E af xe)
      linarith

/-- The three schemes: a force, and then steps. -/
theorem scheme_steps (scheme : List ℝ → List NbOp) (hs : scheme ∈ nbSchemes) : ∃ step : ℝ × ℝ → List NbOp,
    (∀ times, scheme times = .force :: (stepPairs times).flatMap step) ∧
    (∀ {X : Type} [NormedAddCommGroup X] [NormedSpace ℝ X] (fac : Factors) (F : X → X) (x y : ℝ) (p : X × X × X),
      (phaseRun fac F (step (x, y)) p).2.2 = F (phaseRun fac F (step (x, y)) p).1) ∧
    ∀ x y, 0 < x → x ≤ y → (step (x, y)).length ≤ 9 ∧ Clocked (step (x, y)) x x (some x) y y ∧
      ∀ op ∈ step (x, y), op.In (Set.Icc (x * Real.exp (-1 / 24 * (Real.log y - Real.log x))) y) := by
  simp only [nbSchemes, List.mem_cons, List.not_mem_nil, or_false] at hs
  have base : ∀ x y : ℝ, 0 < x → x ≤ y → ∀ c, -1 / 24 ≤ c → c ≤ 1 → x * Real.exp (c * (Real.log y - Real.log x)) ∈
      Set.Icc (x * Real.exp (-1 / 24 * (Real.log y - Real.log x))) y := by
    intro x y hx hxy c h1 h2
    have hl : 0 ≤ Real.log y - Real.log x := by linarith [Real.log_le_log hx hxy]
    refine ⟨mul_le_mul_of_nonneg_left (Real.exp_le_exp.2 (mul_le_mul_of_nonneg_right h1 hl)) hx.le, ?_⟩
    calc x * Real.exp (c * (Real.log y - Real.log x)) ≤ x * Real.exp (1 * (Real.log y - Real.log x)) :=
          mul_le_mul_of_nonneg_left (Real.exp_le_exp.2 (mul_le_mul_of_nonneg_right h2 hl)) hx.le
      _ = y := by
          rw [one_mul, Real.exp_sub, Real.exp_log hx, Real.exp_log (hx.trans_le hxy)]
          field_simp
  have hxin : ∀ x y : ℝ, 0 < x → x ≤ y → x ∈ Set.Icc (x * Real.exp (-1 / 24 * (Real.log y - Real.log x))) y := by
    intro x y hx hxy
    simpa using base x y hx hxy 0 (by norm_num) (by norm_num)
  have hyin : ∀ x y : ℝ, 0 < x → x ≤ y → y ∈ Set.Icc (x * Real.exp (-1 / 24 * (Real.log y - Real.log x))) y :=
    fun x y hx hxy => ⟨(hxin x y hx hxy).1.trans hxy, le_rfl⟩
  rcases hs with rfl | rfl | rfl
  · refine ⟨_, fun _ => rfl, fun fac F x y p => rfl, fun x y hx hxy => ⟨by simp, by simp [Clocked], ?_⟩⟩
    have i1 := hxin x y hx hxy
    have i2 := hyin x y hx hxy
    intro op ho
    simp only [List.mem_cons, List.not_mem_nil, or_false] at ho
    rcases ho with rfl | rfl | rfl | rfl <;> simp only [NbOp.In] <;> tauto
  · refine ⟨_, fun _ => rfl, fun fac F x y p => rfl, fun x y hx hxy => ⟨by simp, by simp [Clocked], ?_⟩⟩
    have i1 := hxin x y hx hxy
    have i2 := hyin x y hx hxy
    have i3 : √(x * y) ∈ Set.Icc (x * Real.exp (-1 / 24 * (Real.log y - Real.log x))) y := by
      refine ⟨i1.1.trans ?_, ?_⟩
      · exact Real.le_sqrt_of_sq_le (by nlinarith)
      · exact Real.sqrt_le_iff.2 ⟨by linarith, by nlinarith⟩
    intro op ho
    simp only [List.mem_cons, List.not_mem_nil, or_false] at ho
    rcases ho with rfl | rfl | rfl | rfl <;> simp only [NbOp.In] <;> tauto
  · refine ⟨_, fun _ => rfl, fun fac F x y p => rfl, fun x y hx hxy => ⟨by simp, by simp [Clocked], ?_⟩⟩
    have i1 := hxin x y hx hxy
    have i2 := hyin x y hx hxy
    have hy := hx.trans_le hxy
    have i3 : x * Real.exp (-1 / 24 * (Real.log y - Real.log x)) ∈ Set.Icc (x * Real.exp (-1 / 24 * (Real.log y - Real.log x))) y := base x y hx hxy _ le_rfl (by norm_num)
    have i4 : x * Real.exp (-1 / 24 * (Real.log y - Real.log x)) * Real.exp (3 / 4 * (Real.log y - Real.log x)) ∈
        Set.Icc (x * Real.exp (-1 / 24 * (Real.log y - Real.log x))) y := by
      rw [mul_assoc, ← Real.exp_add, ← add_mul]
      exact base x y hx hxy _ (by norm_num) (by norm_num)
    have i5 : y * Real.exp (-2.0 / 3.0 * (Real.log y - Real.log x)) ∈ Set.Icc (x * Real.exp (-1 / 24 * (Real.log y - Real.log x))) y := by
      have e : y * Real.exp (-2.0 / 3.0 * (Real.log y - Real.log x)) = x * Real.exp (1 / 3 * (Real.log y - Real.log x)) := by
        have : y = x * Real.exp (Real.log y - Real.log x) := by
          rw [Real.exp_sub, Real.exp_log hx, Real.exp_log hy]
          field_simp
        obtain ⟨D, hD⟩ : ∃ D, D = Real.log y - Real.log x := ⟨_, rfl⟩
        rw [← hD] at this ⊢
        rw [this, mul_assoc, ← Real.exp_add]
        congr 2
        norm_num
        ring
      rw [e]
      exact base x y hx hxy _ (by norm_num) (by norm_num)
    intro op ho
    simp only [List.mem_cons, List.not_mem_nil, or_false] at ho
    rcases ho with rfl | rfl | rfl | rfl | rfl | rfl | rfl | rfl | rfl <;> simp only [NbOp.In] <;> tauto

end Pmesh
