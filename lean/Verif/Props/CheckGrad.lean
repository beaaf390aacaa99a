import Verif.Lemmas.CheckGrad
import Verif.Lemmas.Norm
import Mathlib.Analysis.Calculus.Deriv.Add

/-!
# C95: the check of gradients accepts right gradients and rejects wrong ones, the same on all ranks
-/

namespace Pmesh

theorem gradDigit_four (x : ℝ) : gradDigit gradBins x = 4 ↔ -1 ≤ x ∧ x < 1 := by
  unfold gradDigit gradBins
  simp only [List.filter_cons, List.filter_nil, decide_eq_true_eq]
  constructor
  · intro h
    by_contra hc
    revert h
    rcases lt_or_ge x (-1) with h1 | h1
    · have h2 : ¬ (-1 : ℝ) ≤ x := by linarith
      have h3 : ¬ (1 : ℝ) ≤ x := by linarith
      have h4 : ¬ (20 : ℝ) ≤ x := by linarith
      have h5 : ¬ (50 : ℝ) ≤ x := by linarith
      have h6 : ¬ (100 : ℝ) ≤ x := by linarith
      simp only [h2, h3, h4, h5, h6, if_false]
      split_ifs <;> simp
    · have h2 : (1 : ℝ) ≤ x := by
        by_contra h
        exact hc ⟨h1, not_le.1 h⟩
      have h3 : (-100 : ℝ) ≤ x := by linarith
      have h4 : (-50 : ℝ) ≤ x := by linarith
      have h5 : (-20 : ℝ) ≤ x := by linarith
      simp only [h1, h2, h3, h4, h5, if_true]
      split_ifs <;> simp
  · rintro ⟨h1, h2⟩
    have a1 : (-100 : ℝ) ≤ x := by linarith
    have a2 : (-50 : ℝ) ≤ x := by linarith
    have a3 : (-20 : ℝ) ≤ x := by linarith
    have a4 : ¬ (1 : ℝ) ≤ x := by linarith
    have a5 : ¬ (20 : ℝ) ≤ x := by linarith
    have a6 : ¬ (50 : ℝ) ≤ x := by linarith
    have a7 : ¬ (100 : ℝ) ≤ x := by linarith
    simp [a1, a2, a3, a4, a5, a6, a7, h1]

theorem errorstat_pass {ι : Type} (l : List ι) (f g : ι → ℝ) {rtol atol : ℝ} (hr : 0 ≤ rtol) (ha : 0 ≤ atol) :
    (errorstat (l.map fun i => (f i, g i)) rtol atol).any (fun d => decide (d ≠ 4)) = false ↔
      ∀ i ∈ l, GradWithin (stdDev l f) (stdDev l g) rtol atol (f i) (g i) := by
  have e : ∀ u : ι → ℝ, stdOf (l.map u) = stdDev l u := by
    intro u
    unfold stdOf stdDev
    simp only [List.length_map, List.map_map]
    rfl
  have hs : ∀ u : ι → ℝ, 0 ≤ stdDev l u := fun u => Real.sqrt_nonneg _
  rw [List.any_eq_false]
  unfold errorstat
  simp only [List.map_map, List.mem_map, Function.comp_def, forall_exists_index, and_imp, forall_apply_eq_imp_iff₂, decide_eq_true_eq,
    not_not, ne_eq]
  refine forall₂_congr fun i hi => ?_
  have hag : ∀ a S : ℝ, |a| + (if |a| = 0 then 1 else 0) * S = if a = 0 then S else |a| := by
    intro a S
    by_cases h : a = 0
    · simp [h]
    · simp [h]
  simp only [hag, e]
  unfold GradWithin
  dsimp only
  set den := ((if f i = 0 then stdDev l f else |f i|) + (if g i = 0 then stdDev l g else |g i|)) * rtol + atol with hden
  have hden0 : 0 ≤ den := by
    have h1 : 0 ≤ (if f i = 0 then stdDev l f else |f i|) := by split_ifs; exacts [hs f, abs_nonneg _]
    have h2 : 0 ≤ (if g i = 0 then stdDev l g else |g i|) := by split_ifs; exacts [hs g, abs_nonneg _]
    positivity
  by_cases h0 : den = 0
  · rw [if_pos h0]
    constructor
    · intro h
      split_ifs at h
      all_goals simp [gradBins] at h
    · rintro ⟨h, -⟩
      exact absurd h0 h.ne'
  · have hpos : 0 < den := lt_of_le_of_ne hden0 (Ne.symm h0)
    rw [if_neg h0, gradDigit_four, le_div_iff₀ hpos, div_lt_iff₀ hpos]
    constructor
    · rintro ⟨h1, h2⟩
      exact ⟨hpos, by linarith, by linarith⟩
    · rintro ⟨-, h1, h2⟩
      exact ⟨by linarith, by linarith⟩

section
variable {W X ι : Type} [DecidableEq ι]

/-- The verdict for the tables. -/
theorem checkGrad_return {inp : GradInput W X ι} {n : ℕ} {idx : List ι} {Rep : (ℕ → X) → (ι → ℝ) → Prop} (hin : inp.OK n idx Rep)
    {code : GradCode W X} {Y : (ι → ℝ) → ℝ} {G : ι → ℝ} {J : (ι → ℝ) → ℝ} (hcode : code.Computes n Rep Y G J)
    {xs : ℕ → X} {v : ι → ℝ} (hx : Rep xs v) (eps : ℝ) {rtol atol : ℝ} (hr : 0 ≤ rtol) (ha : 0 ≤ atol) :
    ∃ res : Except GradErr Unit, AllReturn n (fun r => checkGrad inp code idx eps rtol atol r (xs r)) (fun _ => res) ∧
      (res = .ok () ↔ GradAgrees idx Y G J v eps rtol atol) := by
  obtain ⟨gs, hg, hG⟩ := hcode.vjp
  set T : List ι → List (ℝ × ℝ) × List (ℝ × ℝ) := fun l =>
    (l.map fun i => (J (axisVector i (2 * eps)), 2 * eps * G i), l.map fun i => (centralDiff Y v eps i, 2 * eps * G i)) with hT
  have hloop : ∀ (l done : List ι), (∀ i ∈ l, i ∈ idx) →
      AllReturn n (fun r => forProg (gradStep inp code r (xs r) (gs r) eps) l (T done)) (fun _ => .ok (T (done ++ l))) := by
    intro l
    induction l with
    | nil =>
      intro done _
      rw [List.append_nil]
      exact AllReturn.ret n _
    | cons i l ih =>
      intro done hmem
      have hi : i ∈ idx := hmem i (by simp)
      obtain ⟨x1, h1, hx1⟩ := hin.perturb xs v hx i hi eps
      obtain ⟨x0, h0, hx0⟩ := hin.perturb xs v hx i hi (-eps)
      have hbase := hin.sub x1 x0 _ _ hx1 hx0
      have hb : (fun j => Function.update v i (v i + eps) j - Function.update v i (v i + -eps) j) = axisVector i (2 * eps) := by
        funext j
        unfold axisVector
        by_cases h : j = i
        · subst h
          rw [Function.update_self, Function.update_self, if_pos rfl]
          ring
        · rw [Function.update_of_ne h, Function.update_of_ne h, if_neg h, sub_self]
      rw [hb] at hbase
      have hstep : AllReturn n (fun r => gradStep inp code r (xs r) (gs r) eps i (T done)) (fun _ => .ok (T (done ++ [i]))) := by
        refine AllReturn.andThen h1 (AllReturn.andThen h0 (AllReturn.andThen (hin.get gs G hG i hi) ?_))
        refine AllReturn.andThen (hcode.compute x1 _ hx1) (AllReturn.andThen (hcode.compute x0 _ hx0) ?_)
        refine AllReturn.andThen (hcode.jvp _ _ hbase) (AllReturn.andThen (hin.get gs G hG i hi)
          (AllReturn.andThen (hin.get gs G hG i hi) ?_))
        refine AllReturn.congr (fun _ _ => rfl) (fun r hr => ?_) (AllReturn.ret n _)
        simp only [hT, List.map_append, List.map_cons, List.map_nil, centralDiff]
        rw [show G i * 2 * eps = 2 * eps * G i by ring, sub_eq_add_neg (v i) eps]
      have := AllReturn.andThen hstep (ih (done ++ [i]) (fun j hj => hmem j (by simp [hj])))
      rw [List.append_assoc, List.singleton_append] at this
      exact this
  have hl := hloop idx [] (fun _ h => h)
  rw [List.nil_append] at hl
  set res : Except GradErr Unit :=
    if (errorstat (T idx).1 rtol atol).any (fun d => decide (d ≠ 4)) then .error .fgbg
    else if (errorstat (T idx).2 (rtol * 10000) atol).any (fun d => decide (d ≠ 4)) then .error .ngbg
    else .ok () with hres
  refine ⟨res, ?_, ?_⟩
  · refine AllReturn.andThen (hcode.compute xs v hx) (AllReturn.andThen hg (AllReturn.andThen hl ?_))
    refine AllReturn.congr (fun r hr => ?_) (fun _ _ => rfl) (AllReturn.ret n fun _ => res)
    rw [hres]
    dsimp only
    split_ifs <;> rfl
  · have h1 := errorstat_pass idx (fun i => J (axisVector i (2 * eps))) (fun i => 2 * eps * G i) hr ha
    have h2 := errorstat_pass idx (centralDiff Y v eps) (fun i => 2 * eps * G i) (mul_nonneg hr (by norm_num : (0:ℝ) ≤ 10000)) ha
    have h3 : GradAgrees idx Y G J v eps rtol atol ↔ (errorstat (T idx).1 rtol atol).any (fun d => decide (d ≠ 4)) = false ∧
        (errorstat (T idx).2 (rtol * 10000) atol).any (fun d => decide (d ≠ 4)) = false := by
      refine Iff.trans ?_ (and_congr h1 h2).symm
      unfold GradAgrees
      rw [mul_comm (10000 : ℝ) rtol]
      exact ⟨fun h => ⟨fun i hi => (h i hi).1, fun i hi => (h i hi).2⟩, fun h i hi => ⟨h.1 i hi, h.2 i hi⟩⟩
    rw [h3, hres]
    cases (errorstat (T idx).1 rtol atol).any (fun d => decide (d ≠ 4)) <;>
      cases (errorstat (T idx).2 (rtol * 10000) atol).any (fun d => decide (d ≠ 4)) <;> simp

/-- If the gradient holds the partial derivatives and the directional derivative is linear along the axes, what the check
demands is true for all small steps. -/
theorem gradAgrees_small (idx : List ι) {Y : (ι → ℝ) → ℝ} {G : ι → ℝ} {J : (ι → ℝ) → ℝ} {v : ι → ℝ}
    (hY : ∀ i ∈ idx, HasDerivAt (fun s => Y (Function.update v i (v i + s))) (G i) 0)
    (hJ : ∀ i ∈ idx, ∀ c, J (axisVector i c) = c * G i) {rtol atol : ℝ} (hr : 0 < rtol) (ha : 0 ≤ atol)
    (hscale : 0 < atol ∨ ∀ i ∈ idx, G i ≠ 0) :
    ∃ e0 > 0, ∀ eps, 0 < |eps| → |eps| < e0 → GradAgrees idx Y G J v eps rtol atol := by
  have hlim : ∀ i ∈ idx, ∀ c > 0, ∃ e0 > 0, ∀ eps, |eps| < e0 → |centralDiff Y v eps i - 2 * eps * G i| ≤ c * |eps| := by
    intro i hi c hc
    have h := (hasDerivAt_iff_isLittleO.1 (hY i hi)).def (show 0 < c / 2 by linarith)
    rw [Metric.eventually_nhds_iff] at h
    obtain ⟨e0, he, h⟩ := h
    refine ⟨e0, he, fun eps hlt => ?_⟩
    have h1 := h (show dist eps 0 < e0 by simpa [Real.dist_eq] using hlt)
    have h2 := h (show dist (-eps) 0 < e0 by simpa [Real.dist_eq] using hlt)
    simp only [sub_zero, smul_eq_mul, Real.norm_eq_abs, abs_neg, add_zero] at h1 h2
    unfold centralDiff
    rw [show v i - eps = v i + -eps by ring]
    have : Y (Function.update v i (v i + eps)) - Y (Function.update v i (v i + -eps)) - 2 * eps * G i =
        (Y (Function.update v i (v i + eps)) - Y (Function.update v i (v i)) - eps * G i) -
        (Y (Function.update v i (v i + -eps)) - Y (Function.update v i (v i)) - -eps * G i) := by ring
    rw [this]
    refine (abs_sub _ _).trans ?_
    linarith
  have hall : ∃ e0 > 0, ∀ eps, 0 < |eps| → |eps| < e0 → ∀ i ∈ idx,
      |centralDiff Y v eps i - 2 * eps * G i| < (|2 * eps * G i| * (10000 * rtol)) + atol := by
    have key : ∀ i ∈ idx, ∃ e0 > 0, ∀ eps, 0 < |eps| → |eps| < e0 →
        |centralDiff Y v eps i - 2 * eps * G i| < (|2 * eps * G i| * (10000 * rtol)) + atol := by
      intro i hi
      rcases hscale with h | h
      · obtain ⟨e0, he, hl⟩ := hlim i hi 1 one_pos
        refine ⟨min e0 atol, lt_min he h, fun eps _ hlt => ?_⟩
        have := hl eps (lt_of_lt_of_le hlt (min_le_left _ _))
        have h2 := lt_of_lt_of_le hlt (min_le_right _ _)
        have h3 : 0 ≤ |2 * eps * G i| * (10000 * rtol) := by positivity
        linarith
      · have hG := abs_pos.2 (h i hi)
        obtain ⟨e0, he, hl⟩ := hlim i hi (|G i| * (10000 * rtol)) (by positivity)
        refine ⟨e0, he, fun eps hpos hlt => ?_⟩
        have := hl eps hlt
        have h3 : |2 * eps * G i| * (10000 * rtol) = 2 * (|G i| * (10000 * rtol) * |eps|) := by
          rw [abs_mul, abs_mul, abs_of_pos (by norm_num : (0:ℝ) < 2)]
          ring
        have h4 : 0 < |G i| * (10000 * rtol) * |eps| := by positivity
        linarith
    clear hlim hY hJ hscale
    revert key
    induction idx with
    | nil => exact fun _ => ⟨1, one_pos, by simp⟩
    | cons i l ih =>
      intro key
      obtain ⟨e1, h1, k1⟩ := key i (by simp)
      obtain ⟨e2, h2, k2⟩ := ih (fun j hj => key j (by simp [hj]))
      refine ⟨min e1 e2, lt_min h1 h2, fun eps hp hlt j hj => ?_⟩
      rcases List.mem_cons.1 hj with rfl | hj
      · exact k1 eps hp (lt_of_lt_of_le hlt (min_le_left _ _))
      · exact k2 eps hp (lt_of_lt_of_le hlt (min_le_right _ _)) j hj
  obtain ⟨e0, he, hall⟩ := hall
  refine ⟨e0, he, fun eps hpos hlt i hi => ?_⟩
  have hs : ∀ u : ι → ℝ, 0 ≤ stdDev idx u := fun u => Real.sqrt_nonneg _
  have hx : ∀ (a S : ℝ), 0 ≤ S → |a| ≤ (if a = 0 then S else |a|) := by
    intro a S hS
    split_ifs with h
    · rw [h, abs_zero]; exact hS
    · exact le_refl _
  have hx0 : ∀ (a S : ℝ), 0 ≤ S → 0 ≤ (if a = 0 then S else |a|) := fun a S hS => (abs_nonneg a).trans (hx a S hS)
  have hden : ∀ a S1 S2 c : ℝ, 0 ≤ S1 → 0 ≤ S2 → 0 ≤ c → |2 * eps * G i| * c + atol ≤
      ((if a = 0 then S1 else |a|) + (if 2 * eps * G i = 0 then S2 else |2 * eps * G i|)) * c + atol := by
    intro a S1 S2 c h1 h2 hc
    have := mul_le_mul_of_nonneg_right (hx (2 * eps * G i) S2 h2) hc
    have h3 := mul_nonneg (hx0 a S1 h1) hc
    linarith
  constructor
  · have hpos' : 0 < |2 * eps * G i| * rtol + atol := by
      rcases hscale with h | h
      · have : 0 ≤ |2 * eps * G i| * rtol := by positivity
        linarith
      · have : 0 < |2 * eps * G i| := abs_pos.2 (mul_ne_zero (mul_ne_zero two_ne_zero (abs_pos.1 hpos)) (h i hi))
        positivity
    have := lt_of_lt_of_le hpos' (hden (J (axisVector i (2 * eps))) _ _ rtol (hs fun i => J (axisVector i (2 * eps))) (hs fun i => 2 * eps * G i) hr.le)
    have he : J (axisVector i (2 * eps)) - 2 * eps * G i = 0 := by rw [hJ i hi]; ring
    refine ⟨this, ?_, ?_⟩
    · rw [he]; linarith
    · rw [he]; exact this
  · have h1 := lt_of_lt_of_le (hall eps hpos hlt i hi) (hden (centralDiff Y v eps i) _ _ (10000 * rtol) (hs (centralDiff Y v eps))
      (hs fun i => 2 * eps * G i) (by positivity))
    have h2 := abs_lt.1 h1
    exact ⟨lt_of_le_of_lt (abs_nonneg _) h1, h2.1.le, h2.2⟩

/-- If `Y` is quadratic along each axis, the check accepts its gradient at every step. -/
theorem gradAgrees_quadratic (idx : List ι) {Y : (ι → ℝ) → ℝ} {G : ι → ℝ} {J : (ι → ℝ) → ℝ} {v : ι → ℝ} (Q : ι → ℝ)
    (hY : ∀ i ∈ idx, ∀ s, Y (Function.update v i (v i + s)) = Y v + G i * s + Q i * s ^ 2)
    (hJ : ∀ i ∈ idx, ∀ c, J (axisVector i c) = c * G i) {rtol atol : ℝ} (hr : 0 ≤ rtol) (ha : 0 < atol) (eps : ℝ) :
    GradAgrees idx Y G J v eps rtol atol := by
  intro i hi
  have hs : ∀ u : ι → ℝ, 0 ≤ stdDev idx u := fun u => Real.sqrt_nonneg _
  have hw : ∀ S1 S2 c a : ℝ, 0 ≤ S1 → 0 ≤ S2 → 0 ≤ c → GradWithin S1 S2 c atol a a := by
    intro S1 S2 c a h1 h2 hc
    have hx0 : ∀ S, 0 ≤ S → 0 ≤ (if a = 0 then S else |a|) := by
      intro S hS
      split_ifs
      · exact hS
      · exact abs_nonneg a
    have : 0 < ((if a = 0 then S1 else |a|) + (if a = 0 then S2 else |a|)) * c + atol := by
      have := mul_nonneg (add_nonneg (hx0 S1 h1) (hx0 S2 h2)) hc
      linarith
    exact ⟨this, by rw [sub_self]; linarith, by rw [sub_self]; exact this⟩
  constructor
  · rw [hJ i hi (2 * eps)]
    exact hw _ _ _ _ (hs fun i => J (axisVector i (2 * eps))) (hs _) hr
  · have : centralDiff Y v eps i = 2 * eps * G i := by
      unfold centralDiff
      rw [show v i - eps = v i + -eps by ring, hY i hi, hY i hi]
      ring
    rw [this]
    exact hw _ _ _ _ (hs (centralDiff Y v eps)) (hs _) (by positivity)

/-- The zero gradient is accepted for every function, if `rtol` is at least 1e-4. -/
theorem gradAgrees_zero (idx : List ι) (Y : (ι → ℝ) → ℝ) (v : ι → ℝ) {rtol atol : ℝ} (hr : 1 / 10000 ≤ rtol) (ha : 0 < atol) (eps : ℝ) :
    GradAgrees idx Y (fun _ => 0) (fun _ => 0) v eps rtol atol := by
  intro i hi
  have hs : ∀ u : ι → ℝ, 0 ≤ stdDev idx u := fun u => Real.sqrt_nonneg _
  have hw : ∀ S1 S2 c a : ℝ, 0 ≤ S1 → 0 ≤ S2 → a = 0 ∧ 0 ≤ c ∨ 1 ≤ c → GradWithin S1 S2 c atol a 0 := by
    intro S1 S2 c a h1 h2 hc
    unfold GradWithin
    dsimp only
    rw [if_pos rfl, sub_zero]
    have hc0 : 0 ≤ c := by rcases hc with h | h; exacts [h.2, by linarith]
    have h3 : |a| < ((if a = 0 then S1 else |a|) + S2) * c + atol := by
      have h4 := mul_nonneg h2 hc0
      rcases hc with h | h
      · rw [if_pos h.1, h.1, abs_zero]
        have := mul_nonneg h1 hc0
        linarith
      · by_cases h0 : a = 0
        · rw [if_pos h0, h0, abs_zero]
          have := mul_nonneg h1 hc0
          linarith
        · rw [if_neg h0]
          have := mul_le_mul_of_nonneg_left h (abs_nonneg a)
          linarith
    have h5 := abs_lt.1 h3
    exact ⟨lt_of_le_of_lt (abs_nonneg _) h3, h5.1.le, h5.2⟩
  simp only [mul_zero]
  exact ⟨hw _ _ _ _ (hs fun _ => 0) (hs fun _ => 0) (Or.inl ⟨rfl, by linarith⟩),
    hw _ _ _ _ (hs (centralDiff Y v eps)) (hs fun _ => 0) (Or.inr (by linarith))⟩

end

/-! ## The two kinds of input -/

/-- The kinds of input of `check_grad`, as programs of `n` ranks that hold a vector `v` with components `idx`: rows of
particles, or a real field. -/
inductive GradRun (W : Type) : (n : ℕ) → {ι : Type} → [DecidableEq ι] → (idx : List ι) → (Y : (ι → ℝ) → ℝ) → (G : ι → ℝ) →
    (J : (ι → ℝ) → ℝ) → (v : ι → ℝ) → (ℝ → ℝ → ℝ → ℕ → Prog (GMsg W) (Except GradErr Unit)) → Prop where
  | rows {n : ℕ} (hn : 0 < n) (len : ℕ → ℕ) (dim : ℕ) {code : GradCode W (List (List ℝ))} {Y : (ℕ × ℕ → ℝ) → ℝ}
      {G : ℕ × ℕ → ℝ} {J : (ℕ × ℕ → ℝ) → ℝ} (hcode : code.Computes n (RowsHold n len dim) Y G J)
      {xs : ℕ → List (List ℝ)} {v : ℕ × ℕ → ℝ} (hx : RowsHold n len dim xs v) :
      GradRun W n (pairIndex ((List.range n).map len).sum dim) Y G J v fun eps rtol atol r =>
        checkGradRows code dim eps rtol atol r (xs r)
  | field {t : Tiling} (ht : t.OK) (hfull : t.cshape = t.nmesh) {code : GradCode W (List ℕ → ℝ)} {Y : (List ℕ → ℝ) → ℝ}
      {G : List ℕ → ℝ} {J : (List ℕ → ℝ) → ℝ} (hcode : code.Computes t.nrank t.Holds Y G J)
      {xs : ℕ → List ℕ → ℝ} {v : List ℕ → ℝ} (hx : t.Holds xs v) :
      GradRun W t.nrank (ndindex t.cshape) Y G J v fun eps rtol atol r => checkGradField t code eps rtol atol r (xs r)

section
variable {W ι : Type} [DecidableEq ι] {n : ℕ} {idx : List ι} {Y : (ι → ℝ) → ℝ} {G : ι → ℝ} {J : (ι → ℝ) → ℝ} {v : ι → ℝ}
  {run : ℝ → ℝ → ℝ → ℕ → Prog (GMsg W) (Except GradErr Unit)}

/-- **C95**, the verdict.  All ranks finish `check_grad` with the same verdict, on any distribution of the input; it is
acceptance if and only if for each component twice the step times the gradient agrees with the directional derivative to
`rtol` and with the central difference of the function to `10000 rtol`, up to `atol`. -/
theorem C95_verdict (h : GradRun W n idx Y G J v run) (eps : ℝ) {rtol atol : ℝ} (hr : 0 ≤ rtol) (ha : 0 ≤ atol) :
    ∃ res : Except GradErr Unit, AllReturn n (run eps rtol atol) (fun _ => res) ∧
      (res = .ok () ↔ GradAgrees idx Y G J v eps rtol atol) := by
  cases h with
  | @rows _ hn len dim code _ _ _ hcode xs _ hx =>
    obtain ⟨res, h1, h2⟩ := checkGrad_return (rowInput_ok hn len dim) hcode hx eps hr ha
    refine ⟨res, ?_, ?_⟩
    · refine AllReturn.coll hn ?_
      rw [List.map_map]
      have e : ((List.range n).map (GMsg.toCount ∘ fun r => GMsg.count (W := W) (xs r).length)).sum = ((List.range n).map len).sum :=
        sum_len_congr (le_refl n) fun q hq => (hx q hq).1
      rw [e]
      exact h1
    · convert h2 using 2
  | @field t ht hfull code _ _ _ hcode xs _ hx =>
    obtain ⟨res, h1, h2⟩ := checkGrad_return (fieldInput_ok ht hfull) hcode hx eps hr ha
    refine ⟨res, h1, ?_⟩
    convert h2 using 2

/-- **C95**, right gradients pass: if the gradient holds the partial derivatives and jvp is linear along the axes then all
ranks accept, for all steps small enough. -/
theorem C95_accepts (h : GradRun W n idx Y G J v run)
    (hY : ∀ i ∈ idx, HasDerivAt (fun s => Y (Function.update v i (v i + s))) (G i) 0)
    (hJ : ∀ i ∈ idx, ∀ c, J (axisVector i c) = c * G i) {rtol atol : ℝ} (hr : 0 < rtol) (ha : 0 ≤ atol)
    (hscale : 0 < atol ∨ ∀ i ∈ idx, G i ≠ 0) :
    ∃ e0 > 0, ∀ eps, 0 < |eps| → |eps| < e0 → AllReturn n (run eps rtol atol) fun _ => .ok () := by
  obtain ⟨e0, he, hg⟩ := gradAgrees_small idx hY hJ hr ha hscale
  refine ⟨e0, he, fun eps hp hlt => ?_⟩
  obtain ⟨res, h1, h2⟩ := C95_verdict h eps hr.le ha
  rwa [h2.2 (hg eps hp hlt)] at h1

/-- **C95**, right gradients of functions that are quadratic along each axis (all scalars that `check_grad` forms from linear
code, which are sums of squares) pass for every step. -/
theorem C95_accepts_quadratic (h : GradRun W n idx Y G J v run) (Q : ι → ℝ)
    (hY : ∀ i ∈ idx, ∀ s, Y (Function.update v i (v i + s)) = Y v + G i * s + Q i * s ^ 2)
    (hJ : ∀ i ∈ idx, ∀ c, J (axisVector i c) = c * G i) {rtol atol : ℝ} (hr : 0 ≤ rtol) (ha : 0 < atol) (eps : ℝ) :
    AllReturn n (run eps rtol atol) fun _ => .ok () := by
  obtain ⟨res, h1, h2⟩ := C95_verdict h eps hr ha.le
  rwa [h2.2 (gradAgrees_quadratic idx Q hY hJ hr ha eps)] at h1

/-- **C95**, wrong gradients do not pass: if one component, not 0, differs from the central difference, not 0, by more than
the tolerance, then all ranks raise, and the same error. -/
theorem C95_rejects (h : GradRun W n idx Y G J v run) (eps : ℝ) {rtol atol : ℝ} (hr : 0 ≤ rtol) (ha : 0 ≤ atol) {i : ι} (hi : i ∈ idx)
    (hD : centralDiff Y v eps i ≠ 0) (hG : 2 * eps * G i ≠ 0)
    (hwrong : (|centralDiff Y v eps i| + |2 * eps * G i|) * (10000 * rtol) + atol < |centralDiff Y v eps i - 2 * eps * G i|) :
    ∃ e : GradErr, AllReturn n (run eps rtol atol) fun _ => .error e := by
  obtain ⟨res, h1, h2⟩ := C95_verdict h eps hr ha
  cases res with
  | error e => exact ⟨e, h1⟩
  | ok _ =>
    exfalso
    have h3 := ((h2.1 rfl) i hi).2
    unfold GradWithin at h3
    dsimp only at h3
    rw [if_neg hD, if_neg hG] at h3
    have := abs_le.2 ⟨h3.2.1, h3.2.2.le⟩
    linarith

/-- **C95 violated** for `rtol ≥ 1e-4`: the gradient 0 and the directional derivative 0 are accepted on all ranks, for every
function and step, because the second comparison uses the tolerance `10000 rtol` relative to the sum of both numbers. -/
theorem C95_violated_rtol (h : GradRun W n idx Y (fun _ => 0) (fun _ => 0) v run) {rtol atol : ℝ} (hr : 1 / 10000 ≤ rtol) (ha : 0 < atol)
    (eps : ℝ) : AllReturn n (run eps rtol atol) fun _ => .ok () := by
  obtain ⟨res, h1, h2⟩ := C95_verdict h eps (show 0 ≤ rtol by linarith) ha.le
  rwa [h2.2 (gradAgrees_zero idx Y v hr ha eps)] at h1

end
/-! ## Examples -/

/-- A code under test: the sum of the numbers of two ranks with one particle in one dimension each.  Its vjp is `g` for each
number and its jvp `g` times the sum, which is right for `g = 1`. -/
def exSumCode (g : ℝ) : GradCode Unit (List (List ℝ)) where
  compute _ x := .coll .allreduce (.num ((x.getD 0 []).getD 0 0)) fun vs => .ret (.ok (vs.map GMsg.toNum).sum)
  vjp _ := .ret (.ok [[g]])
  jvp _ x := .coll .allreduce (.num ((x.getD 0 []).getD 0 0)) fun vs => .ret (.ok (g * (vs.map GMsg.toNum).sum))

theorem exSumCode_computes (g : ℝ) : (exSumCode g).Computes 2 (RowsHold 2 (fun _ => 1) 1) (fun v => v (0, 0) + v (1, 0)) (fun _ => g)
    (fun u => g * (u (0, 0) + u (1, 0))) where
  compute := by
    intro xs v h
    refine AllReturn.coll (by norm_num) ?_
    refine AllReturn.congr (fun _ _ => rfl) (fun r hr => ?_) (AllReturn.ret 2 _)
    have h0 := (h 0 (by norm_num)).2.2 0 (by norm_num) 0 (by norm_num)
    have h1 := (h 1 (by norm_num)).2.2 0 (by norm_num) 0 (by norm_num)
    simp [List.range_succ] at h0 h1
    simp [List.range_succ, GMsg.toNum, h0, h1]
  vjp := by
    refine ⟨fun _ => [[g]], AllReturn.ret 2 _, ?_⟩
    intro r hr
    refine ⟨rfl, by simp, ?_⟩
    intro i hi d hd
    obtain rfl : i = 0 := by dsimp only at hi; omega
    obtain rfl : d = 0 := by omega
    rfl
  jvp := by
    intro xs v h
    refine AllReturn.coll (by norm_num) ?_
    refine AllReturn.congr (fun _ _ => rfl) (fun r hr => ?_) (AllReturn.ret 2 _)
    have h0 := (h 0 (by norm_num)).2.2 0 (by norm_num) 0 (by norm_num)
    have h1 := (h 1 (by norm_num)).2.2 0 (by norm_num) 0 (by norm_num)
    simp [List.range_succ] at h0 h1
    simp [List.range_succ, GMsg.toNum, h0, h1]

theorem exSum_run (g : ℝ) : GradRun Unit 2 [((0, 0) : ℕ × ℕ), (1, 0)] (fun v => v (0, 0) + v (1, 0)) (fun _ => g)
    (fun u => g * (u (0, 0) + u (1, 0))) (fun i => (i.1 : ℝ) + 5)
    (fun eps rtol atol r => checkGradRows (exSumCode g) 1 eps rtol atol r [[(r : ℝ) + 5]]) :=
  GradRun.rows (W := Unit) (n := 2) (by norm_num) (fun _ => 1) 1 (exSumCode_computes g)
  (xs := fun r => [[(r : ℝ) + 5]]) (v := fun i => (i.1 : ℝ) + 5) (by
    intro r hr
    refine ⟨rfl, by simp, ?_⟩
    intro i hi d hd
    obtain rfl : i = 0 := by dsimp only at hi; omega
    obtain rfl : d = 0 := by omega
    simp)

example := C95_verdict (exSum_run 3) (1 / 10) (rtol := 1 / 100000000) (atol := 1 / 1000000000000) (by norm_num) (by norm_num)

/-- The right gradient passes. -/
example := C95_accepts_quadratic (exSum_run 1) (fun _ => 0) (by
    intro i hi s
    simp only [List.mem_cons, List.not_mem_nil, or_false] at hi
    rcases hi with rfl | rfl
    · simp; ring
    · simp; ring) (by
    intro i hi c
    simp only [List.mem_cons, List.not_mem_nil, or_false] at hi
    rcases hi with rfl | rfl
    · simp [axisVector]
    · simp [axisVector]) (rtol := 1 / 100000000) (atol := 1 / 1000000000000) (by norm_num) (by norm_num) (1 / 10)

example := C95_accepts (exSum_run 1) (by
    intro i hi
    simp only [List.mem_cons, List.not_mem_nil, or_false] at hi
    rcases hi with rfl | rfl
    · simp only [Function.update_self]
      have := (HasDerivAt.const_add (((0 : ℕ) : ℝ) + 5) (hasDerivAt_id (0 : ℝ))).add_const (((1 : ℕ) : ℝ) + 5)
      simpa using this
    · simp only [Function.update_self]
      have := (HasDerivAt.const_add (((1 : ℕ) : ℝ) + 5) (hasDerivAt_id (0 : ℝ))).const_add (((0 : ℕ) : ℝ) + 5)
      simpa using this) (by
    intro i hi c
    simp only [List.mem_cons, List.not_mem_nil, or_false] at hi
    rcases hi with rfl | rfl
    · simp [axisVector]
    · simp [axisVector]) (rtol := 1 / 100000000) (atol := 0) (by norm_num) (by norm_num) (Or.inr (by simp))

/-- Twice the gradient does not pass. -/
example := C95_rejects (exSum_run 2) (1 / 10) (rtol := 1 / 100000000) (atol := 1 / 1000000000000) (by norm_num) (by norm_num)
  (i := (1, 0)) (by simp) (by simp [centralDiff]) (by norm_num) (by
    have : centralDiff (fun v : ℕ × ℕ → ℝ => v (0, 0) + v (1, 0)) (fun i => (i.1 : ℝ) + 5) (1 / 10) (1, 0) = 1 / 5 := by
      simp [centralDiff]; norm_num
    rw [this]
    norm_num [abs_of_neg])

/-- The gradient 0 of the sum passes with `rtol = 1e-4`. -/
example : AllReturn 2 (fun r => checkGradRows (exSumCode 0) 1 (1 / 10) (1 / 10000) (1 / 1000000000000) r [[(r : ℝ) + 5]])
    fun _ => .ok () := by
  have h := exSum_run 0
  simp only [zero_mul] at h
  exact C95_violated_rtol h (le_refl _) (by norm_num) (1 / 10)

/-- A code under test with a field as input: the sum over the mesh. -/
noncomputable def exFieldCode (t : Tiling) : GradCode Unit (List ℕ → ℝ) where
  compute r f := .coll .allreduce (.num ((ndindex (t.lshape r)).map f).sum) fun vs => .ret (.ok (vs.map GMsg.toNum).sum)
  vjp _ := .ret (.ok fun _ => 1)
  jvp r f := .coll .allreduce (.num ((ndindex (t.lshape r)).map f).sum) fun vs => .ret (.ok (vs.map GMsg.toNum).sum)

theorem exFieldCode_computes {t : Tiling} (ht : t.OK) : (exFieldCode t).Computes t.nrank t.Holds (fun v => ((ndindex t.cshape).map v).sum)
    (fun _ => 1) (fun v => ((ndindex t.cshape).map v).sum) := by
  have h : ∀ xs v, t.Holds xs v → AllReturn (V := GMsg Unit) (R := Except GradErr ℝ) t.nrank (fun r => .coll .allreduce
      (.num ((ndindex (t.lshape r)).map (xs r)).sum) fun vs => .ret (.ok (vs.map GMsg.toNum).sum))
      fun _ => .ok ((ndindex t.cshape).map v).sum := by
    intro xs v h
    refine AllReturn.coll ht.rank_pos ?_
    refine AllReturn.congr (fun _ _ => rfl) (fun r hr => ?_) (AllReturn.ret t.nrank _)
    congr 1
    rw [List.map_map, ← tiles_sum ht]
    apply congrArg
    apply List.map_congr_left
    intro r hr
    rw [List.mem_range] at hr
    show _ = ((ndindex (t.lshape r)).map (xs r)).sum
    apply congrArg
    apply List.map_congr_left
    intro c hc
    exact (h r hr c (mem_ndindex.1 hc)).symm
  exact ⟨h, ⟨fun _ _ => 1, AllReturn.ret t.nrank _, fun _ _ _ _ => rfl⟩, h⟩

def exGradLine : Tiling := ⟨[4], [4], 2, fun r => [3 * r], fun r => if r = 0 then [3] else [1]⟩

theorem exGradLine_ok : exGradLine.OK := tiling_ok_of_decide (by decide)

example := C95_verdict (GradRun.field exGradLine_ok rfl (exFieldCode_computes exGradLine_ok)
  (xs := fun r c => (exGradLine.global r c).sum) (v := fun i => i.sum) (fun _ _ _ _ => rfl)) (1 / 10)
  (rtol := 1 / 100000000) (atol := 1 / 1000000000000) (by norm_num) (by norm_num)

#print axioms C95_verdict
#print axioms C95_accepts
#print axioms C95_accepts_quadratic
#print axioms C95_rejects
#print axioms C95_violated_rtol

end Pmesh
