import Verif.Model.LicNormalize
import Verif.Spec.LicNormalize
import Verif.Lemmas.Lic

/-! # Lemmas for the normalisation in `lic` -/

namespace Pmesh

theorem foldl_sq (vectors : List (ℤ → ℝ)) (a : ℤ) (s : ℝ) :
    vectors.foldl (fun acc v => acc + v a ^ 2) s = s + (vectors.map fun v => v a ^ 2).sum := by
  induction vectors generalizing s with
  | nil => simp
  | cons v l ih => rw [List.foldl_cons, ih, List.map_cons, List.sum_cons]; ring

theorem licAbs_eq (vectors : List (ℤ → ℝ)) (a : ℤ) :
    licAbs vectors a = if vectorLength vectors a = 0 then 1 else vectorLength vectors a := by
  unfold licAbs vectorLength
  simp only [foldl_sq, zero_add, Real.sqrt_eq_rpow]

theorem sumsq_nonneg (vectors : List (ℤ → ℝ)) (a : ℤ) : 0 ≤ (vectors.map fun v => v a ^ 2).sum :=
  List.sum_nonneg (by intro x hx; obtain ⟨v, _, rfl⟩ := List.mem_map.1 hx; positivity)

theorem vectorLength_zero {vectors : List (ℤ → ℝ)} {a : ℤ} (h : vectorLength vectors a = 0) : ∀ v ∈ vectors, v a = 0 := by
  intro v hv
  have h0 := (Real.sqrt_eq_zero (sumsq_nonneg vectors a)).1 h
  have h1 : v a ^ 2 ≤ (vectors.map fun v => v a ^ 2).sum :=
    List.single_le_sum (by intro x hx; obtain ⟨v, _, rfl⟩ := List.mem_map.1 hx; positivity) _ (List.mem_map.2 ⟨v, hv, rfl⟩)
  rw [h0] at h1
  exact pow_eq_zero_iff (two_ne_zero) |>.1 (le_antisymm h1 (sq_nonneg _))

theorem vectorLength_eq_zero {vectors : List (ℤ → ℝ)} {a : ℤ} (h : ∀ v ∈ vectors, v a = 0) : vectorLength vectors a = 0 := by
  unfold vectorLength
  rw [List.map_congr_left (g := fun _ => (0 : ℝ)) (fun v hv => by rw [h v hv]; norm_num)]
  simp

theorem licAbs_pos (vectors : List (ℤ → ℝ)) (a : ℤ) : 0 < licAbs vectors a := by
  rw [licAbs_eq]
  split_ifs with h
  · exact one_pos
  · exact lt_of_le_of_ne (Real.sqrt_nonneg _) (Ne.symm h)

theorem sumsq_div (l : List (ℤ → ℝ)) (a : ℤ) (c : ℝ) :
    ((l.map fun v => fun b : ℤ => v b).map fun v => (v a / c) ^ 2).sum = (l.map fun v => v a ^ 2).sum / c ^ 2 := by
  induction l with
  | nil => simp
  | cons v l ih => simp only [List.map_cons, List.sum_cons] at ih ⊢; rw [ih]; ring

theorem sumsq_mul (l : List (ℤ → ℝ)) (a : ℤ) (c : ℝ) :
    (l.map fun v => (c * v a) ^ 2).sum = c ^ 2 * (l.map fun v => v a ^ 2).sum := by
  induction l with
  | nil => simp
  | cons v l ih => simp only [List.map_cons, List.sum_cons]; rw [ih]; ring

theorem licNormalized_sumsq (vectors : List (ℤ → ℝ)) (a : ℤ) :
    ((licNormalized vectors).map fun v => v a ^ 2).sum = (vectors.map fun v => v a ^ 2).sum / licAbs vectors a ^ 2 := by
  unfold licNormalized
  rw [List.map_map]
  simpa [Function.comp_def] using sumsq_div vectors a (licAbs vectors a)

theorem licNormalized_le (vectors : List (ℤ → ℝ)) (a : ℤ) : ((licNormalized vectors).map fun v => v a ^ 2).sum ≤ 1 := by
  rw [licNormalized_sumsq, licAbs_eq]
  split_ifs with h
  · rw [(Real.sqrt_eq_zero (sumsq_nonneg vectors a)).1 h]; norm_num
  · unfold vectorLength at h ⊢
    rw [Real.sq_sqrt (sumsq_nonneg _ _)]
    exact div_self_le_one _

theorem vectorLength_mul (vectors : List (ℤ → ℝ)) (c : ℤ → ℝ) (a : ℤ) :
    vectorLength (vectors.map fun v b => c b * v b) a = |c a| * vectorLength vectors a := by
  unfold vectorLength
  rw [List.map_map]
  simp only [Function.comp_def]
  rw [sumsq_mul, Real.sqrt_mul (sq_nonneg _), Real.sqrt_sq_eq_abs]

theorem licNormalized_mul (vectors : List (ℤ → ℝ)) (c : ℤ → ℝ) (hc : ∀ a, c a ≠ 0) :
    licNormalized (vectors.map fun v b => c b * v b) = (licNormalized vectors).map fun v a => (c a / |c a|) * v a := by
  unfold licNormalized
  rw [List.map_map, List.map_map]
  apply List.map_congr_left
  intro v hv
  funext a
  simp only [Function.comp_def]
  have hca : 0 < |c a| := abs_pos.2 (hc a)
  rw [licAbs_eq, licAbs_eq, vectorLength_mul]
  by_cases h : vectorLength vectors a = 0
  · rw [vectorLength_zero h v hv]; simp
  · rw [if_neg h, if_neg (mul_ne_zero hca.ne' h), mul_div_mul_comm]

theorem licNormalized_getD (vectors : List (ℤ → ℝ)) {d : ℕ} (hd : d < vectors.length) (a : ℤ) :
    ((licNormalized vectors).getD d fun _ => 0) a = (vectors.getD d fun _ => 0) a / licAbs vectors a := by
  unfold licNormalized
  simp [List.getD_eq_getElem?_getD, hd]

/-! ### the streamline -/

/-- The weights with which all fields are read at a position. -/
theorem fieldAt_weights {m : PMesh ℝ} (hm : m.OK) (st : List ℤ) {w : Resampler ℝ} (hw : w.Valid) {kind : Tuned} (hk : w.kern = Tuned.kern kind)
    (hsup : w.support = w.kern.native) {x : List ℝ} (hx : x.length = m.nmesh.length) :
    ∃ (wt : List ℕ → ℝ) (idx : List (List ℕ)) (ad : List ℕ → ℤ), (∀ c ∈ idx, 0 ≤ wt c) ∧
      (idx.map wt).sum = 1 ∧ ∀ field : ℤ → ℝ, fieldAt m st w field x = (idx.map fun c => wt c * field (ad c)).sum := by
  have hSl : (m.serial st).localShape 0 = m.nmesh := serial_localShape m st 0
  have hper : ∀ ax ∈ ((m.serial st).painter w none 0).axes, ax.order = 0 ∧ 0 < ax.size ∧ ax.period = ax.size := by
    intro ax hax
    obtain ⟨j, hj, rfl⟩ := List.mem_map.1 hax
    have hj : j < m.nmesh.length := List.mem_range.1 hj
    have := hm.nmesh_pos hj
    refine ⟨by simp, ?_, ?_⟩
    · show 0 < ((m.serial st).localShape 0).getD j 0
      rw [hSl]; exact this
    · show m.nmesh.getD j 0 = ((m.serial st).localShape 0).getD j 0
      rw [hSl]
  have hs := weights_sum (painter_valid (m := m.serial st) hw hm.dim none 0) (kind := kind) hk hper (h := 1) (by
    unfold windowSize
    show (if (w.support : ℝ) * 1 ≤ 0 then (w.kern.native : ℝ) else w.support * 1) = w.kern.native
    rw [hsup]
    split <;> simp) (x := x) (by rw [painter_len]; exact hx)
  exact ⟨fun c => cwProd (List.zipWith (axisStencil ((m.serial st).painter w none 0) 1) ((m.serial st).painter w none 0).axes x) c,
    ndindex (shapeOf ((m.serial st).painter w none 0).axes), elemAddr ((m.serial st).painter w none 0).axes,
    fun c _ => weights_nonneg (kind := kind) hk (fun ax hax => (hper ax hax).1) _ _ _, hs, fun field => fieldAt_eq hm st hw field hx⟩

/-- The square of a mean is at most the mean of the squares. -/
theorem mean_sq_le {ι : Type*} (l : List ι) (p f : ι → ℝ) (hp : ∀ c ∈ l, 0 ≤ p c) :
    ((l.map fun c => p c * f c).sum) ^ 2 ≤ (l.map p).sum * (l.map fun c => p c * f c ^ 2).sum := by
  have hS : 0 ≤ (l.map p).sum := List.sum_nonneg (by intro x hx; obtain ⟨c, hc, rfl⟩ := List.mem_map.1 hx; exact hp c hc)
  induction l with
  | nil => simp
  | cons c l ih =>
    have hp' : ∀ c ∈ l, 0 ≤ p c := fun d hd => hp d (List.mem_cons_of_mem _ hd)
    have hS' : 0 ≤ (l.map p).sum := List.sum_nonneg (by intro x hx; obtain ⟨c, hc, rfl⟩ := List.mem_map.1 hx; exact hp' c hc)
    have hQ : 0 ≤ (l.map fun c => p c * f c ^ 2).sum := List.sum_nonneg (by
      intro x hx; obtain ⟨c, hc, rfl⟩ := List.mem_map.1 hx; exact mul_nonneg (hp' c hc) (sq_nonneg _))
    have h0 := hp c (List.mem_cons_self ..)
    have := ih hp' hS'
    simp only [List.map_cons, List.sum_cons]
    set A := (l.map fun c => p c * f c).sum
    set P := (l.map p).sum
    set Q := (l.map fun c => p c * f c ^ 2).sum
    have hmix : 2 * f c * A ≤ Q + P * f c ^ 2 := by
      by_cases hP : P = 0
      · rw [hP, zero_mul] at this
        have hA : A = 0 := pow_eq_zero_iff (two_ne_zero) |>.1 (le_antisymm this (sq_nonneg _))
        rw [hA, hP]; simpa using hQ
      · have hP0 : 0 < P := lt_of_le_of_ne hS' (Ne.symm hP)
        have h1 : A ^ 2 / P ≤ Q := by rw [div_le_iff₀ hP0]; linarith [mul_comm P Q]
        have h2 : 2 * f c * A ≤ A ^ 2 / P + P * f c ^ 2 := by
          have : A ^ 2 / P + P * f c ^ 2 - 2 * f c * A = (A - P * f c) ^ 2 / P := by field_simp; ring
          have h3 : 0 ≤ (A - P * f c) ^ 2 / P := by positivity
          linarith
        linarith
    nlinarith [mul_le_mul_of_nonneg_left hmix h0]

/-- The interpolated vector is not longer than the vectors of the cells. -/
theorem velocity_sumsq_le {m : PMesh ℝ} (hm : m.OK) (st : List ℤ) {w : Resampler ℝ} (hw : w.Valid) {kind : Tuned} (hk : w.kern = Tuned.kern kind)
    (hsup : w.support = w.kern.native) {x : List ℝ} (hx : x.length = m.nmesh.length) {gv : List (ℤ → ℝ)}
    (h1 : ∀ a, (gv.map fun v => v a ^ 2).sum ≤ 1) : (gv.map fun v => fieldAt m st w v x ^ 2).sum ≤ 1 := by
  obtain ⟨wt, idx, ad, hn, hs, hf⟩ := fieldAt_weights hm st hw hk hsup hx
  have key : ∀ l : List (ℤ → ℝ), (l.map fun v => fieldAt m st w v x ^ 2).sum ≤ (idx.map fun c => wt c * (l.map fun v => v (ad c) ^ 2).sum).sum := by
    intro l
    induction l with
    | nil => simp
    | cons v l ih =>
      simp only [List.map_cons, List.sum_cons, mul_add]
      rw [List.sum_map_add]
      refine add_le_add ?_ ih
      have := mean_sq_le idx wt (fun c => v (ad c)) hn
      rw [hs, one_mul, ← hf v] at this
      exact this
  refine (key gv).trans ?_
  rw [← hs]
  exact List.sum_le_sum fun c hc => by simpa using mul_le_mul_of_nonneg_left (h1 (ad c)) (hn c hc)

theorem fieldAt_neg {m : PMesh ℝ} (hm : m.OK) (st : List ℤ) {w : Resampler ℝ} (hw : w.Valid) (v : ℤ → ℝ) {x : List ℝ} (hx : x.length = m.nmesh.length) :
    fieldAt m st w (fun a => -v a) x = -fieldAt m st w v x := by
  have h : ∀ (l : List (List ℕ)) (f : List ℕ → ℝ), (l.map fun c => -f c).sum = -(l.map f).sum := by
    intro l f
    induction l with
    | nil => simp
    | cons c l ih => simp only [List.map_cons, List.sum_cons, ih]; ring
  rw [fieldAt_eq hm st hw _ hx, fieldAt_eq hm st hw _ hx, ← h]
  simp only [mul_neg]

theorem velocityAt_neg {m : PMesh ℝ} (hm : m.OK) (st : List ℤ) {w : Resampler ℝ} (hw : w.Valid) (gv : List (ℤ → ℝ)) {x : List ℝ}
    (hx : x.length = m.nmesh.length) (d : ℕ) : velocityAt m st w (gv.map fun v a => -v a) x d = -velocityAt m st w gv x d := by
  unfold velocityAt
  rw [List.getElem?_map]
  cases gv[d]? with
  | none => simp
  | some v => exact fieldAt_neg hm st hw v hx

theorem follow_neg {m : PMesh ℝ} (hm : m.OK) (st : List ℤ) {w : Resampler ℝ} (hw : w.Valid) (gv : List (ℤ → ℝ)) {x : List ℝ}
    (hx : x.length = m.nmesh.length) (t : ℝ) : follow m st w (gv.map fun v a => -v a) t x = follow m st w gv (-t) x := by
  unfold follow
  congr 1
  funext d a
  rw [velocityAt_neg hm st hw gv hx]
  ring

theorem streamline_neg {m : PMesh ℝ} (hm : m.OK) (st : List ℤ) {w : Resampler ℝ} (hw : w.Valid) (gv : List (ℤ → ℝ)) {x : List ℝ}
    (hx : x.length = m.nmesh.length) (t : ℝ) (n : ℕ) :
    streamline m st w (gv.map fun v a => -v a) t x n = streamline m st w gv (-t) x n := by
  induction n with
  | zero => rfl
  | succ n ih =>
    rw [streamline, streamline, ih, follow_neg hm st hw gv (by rw [streamline_length]; exact hx)]

theorem lineSum_neg {m : PMesh ℝ} (hm : m.OK) (st : List ℤ) {w : Resampler ℝ} (hw : w.Valid) (gv : List (ℤ → ℝ)) (gt : ℤ → ℝ) {kernel : ℝ → ℝ}
    (heven : ∀ s, kernel (-s) = kernel s) {x : List ℝ} (hx : x.length = m.nmesh.length) (length ds sign : ℝ) (n : ℕ) :
    lineSum m st w (gv.map fun v a => -v a) gt kernel length ds sign x n = lineSum m st w gv gt kernel length ds (-sign) x n := by
  unfold lineSum
  congr 1
  apply List.map_congr_left
  intro i _
  rw [streamline_neg hm st hw gv hx, follow_neg hm st hw gv (by rw [streamline_length]; exact hx),
    show -(ds * sign) = ds * -sign by ring, show -(ds * sign / 2) = ds * -sign / 2 by ring, ← heven (i * ds * sign / (length / 2)),
    show -(i * ds * sign / (length / 2)) = i * ds * -sign / (length / 2) by ring]

/-! ### distances -/

theorem velocity_fin_sum (m : PMesh ℝ) (st : List ℤ) (w : Resampler ℝ) (gv : List (ℤ → ℝ)) (x : List ℝ) (n : ℕ) (hn : gv.length ≤ n) :
    ∑ d : Fin n, velocityAt m st w gv x d ^ 2 = (gv.map fun v => fieldAt m st w v x ^ 2).sum := by
  rw [Fin.sum_univ_eq_sum_range (fun d => velocityAt m st w gv x d ^ 2) n]
  rw [← Finset.sum_subset (Finset.range_subset_range.2 hn) (fun d _ hd => by
    have : gv[d]? = none := List.getElem?_eq_none (by simpa using hd)
    simp [velocityAt, this])]
  rw [Finset.sum_range, ← Fin.sum_univ_fun_getElem]
  apply Finset.sum_congr rfl
  intro d _
  simp [velocityAt]

theorem follow_dist {m : PMesh ℝ} (hm : m.OK) (st : List ℤ) {w : Resampler ℝ} (hw : w.Valid) {kind : Tuned} (hk : w.kern = Tuned.kern kind)
    (hsup : w.support = w.kern.native) {x : List ℝ} (hx : x.length = m.nmesh.length) {gv : List (ℤ → ℝ)} (hg : gv.length ≤ m.nmesh.length)
    (h1 : ∀ a, (gv.map fun v => v a ^ 2).sum ≤ 1) (t : ℝ) :
    dist (toPoint m.nmesh.length (follow m st w gv t x)) (toPoint m.nmesh.length x) ≤ |t| := by
  rw [EuclideanSpace.dist_eq]
  have : ∀ d : Fin m.nmesh.length, dist ((toPoint m.nmesh.length (follow m st w gv t x)) d) ((toPoint m.nmesh.length x) d) ^ 2 =
      velocityAt m st w gv x d ^ 2 * t ^ 2 := by
    intro d
    show dist ((follow m st w gv t x).getD d 0) (x.getD d 0) ^ 2 = _
    rw [follow_getD _ _ _ _ _ _ (by rw [hx]; exact d.2), Real.dist_eq, sq_abs]
    ring
  simp only [this]
  rw [← Finset.sum_mul, velocity_fin_sum m st w gv x _ hg]
  refine (Real.sqrt_le_sqrt (mul_le_mul_of_nonneg_right (velocity_sumsq_le hm st hw hk hsup hx h1) (sq_nonneg t))).trans ?_
  rw [one_mul, Real.sqrt_sq_eq_abs]

theorem streamline_dist {m : PMesh ℝ} (hm : m.OK) (st : List ℤ) {w : Resampler ℝ} (hw : w.Valid) {kind : Tuned} (hk : w.kern = Tuned.kern kind)
    (hsup : w.support = w.kern.native) {x : List ℝ} (hx : x.length = m.nmesh.length) {gv : List (ℤ → ℝ)} (hg : gv.length ≤ m.nmesh.length)
    (h1 : ∀ a, (gv.map fun v => v a ^ 2).sum ≤ 1) (t : ℝ) (n : ℕ) :
    dist (toPoint m.nmesh.length (streamline m st w gv t x n)) (toPoint m.nmesh.length x) ≤ n * |t| := by
  induction n with
  | zero => simp [streamline]
  | succ n ih =>
    have h2 := follow_dist hm st hw hk hsup (x := streamline m st w gv t x n) (by rw [streamline_length]; exact hx) hg h1 t
    have h3 := dist_triangle (toPoint m.nmesh.length (streamline m st w gv t x (n + 1))) (toPoint m.nmesh.length (streamline m st w gv t x n))
      (toPoint m.nmesh.length x)
    rw [streamline] at h3 ⊢
    push_cast
    linarith

end Pmesh
