import Verif.Spec.NBodySpace
import Verif.Props.NBody
import Verif.Props.Energy
import Verif.Props.AboptTransfer
import Verif.Lemmas.Translate

/-!
# C92: the N-body example computes the gradient of the potential of its particles, and displacements with the given divergence
-/

namespace Pmesh

open Complex

theorem shiftArg_axis : ∀ (nmesh k : List ℕ) (d : ℕ) (z : ℤ), k.length = nmesh.length → d < nmesh.length →
    shiftArg nmesh k (axisShift nmesh.length d z) = (k.getD d 0 : ℝ) * z / (nmesh.getD d 0 : ℝ) := by
  have zero : ∀ (nmesh k : List ℕ), shiftArg nmesh k (List.replicate nmesh.length 0) = 0 := by
    intro nmesh
    induction nmesh with
    | nil => intro k; cases k <;> simp [shiftArg]
    | cons n ns ih =>
      intro k
      cases k with
      | nil => simp [shiftArg]
      | cons k ks => simp [shiftArg, List.replicate_succ, ih ks]
  intro nmesh
  induction nmesh with
  | nil => intro k d z _ hd; simp at hd
  | cons n ns ih =>
    intro k d z hk hd
    obtain ⟨k, ks, rfl⟩ := List.exists_cons_of_length_pos (show 0 < k.length by rw [hk]; simp)
    cases d with
    | zero =>
      have := zero ns ks
      simp [axisShift, List.replicate_succ, shiftArg, this]
    | succ d =>
      have := ih ks d z (by simpa using hk) (by simpa using hd)
      simp only [axisShift] at this
      simp [axisShift, List.replicate_succ, shiftArg, this]

theorem waveVector_getD {nmesh : List ℕ} {box : List ℝ} {k : List ℕ} (hb : box.length = nmesh.length) (hk : k.length = nmesh.length) {d : ℕ}
    (hd : d < nmesh.length) :
    (waveVector Real.pi nmesh box k).getD d 0 = (Int.bmod (k.getD d 0 : ℤ) (nmesh.getD d 0) : ℝ) * (2 * Real.pi) / box.getD d 0 := by
  unfold waveVector
  rw [List.getD_eq_getElem _ _ (by simp; omega), List.getElem_zipWith, List.getElem_zip, List.getD_eq_getElem k _ (by omega),
    List.getD_eq_getElem nmesh _ hd, List.getD_eq_getElem box _ (by omega)]

theorem exp_shift {nmesh : List ℕ} {box : List ℝ} {k : List ℕ} (hb : box.length = nmesh.length) (hbp : ∀ b ∈ box, 0 < b) (hk : k.length = nmesh.length)
    {d : ℕ} (hd : d < nmesh.length) (hpos : ∀ n ∈ nmesh, 0 < n) (z : ℤ) :
    exp (2 * Real.pi * I * shiftArg nmesh k (axisShift nmesh.length d z)) =
      exp (((z : ℝ) * ((waveVector Real.pi nmesh box k).getD d 0 * (box.getD d 0 / (nmesh.getD d 0 : ℝ))) : ℝ) * I) := by
  rw [shiftArg_axis nmesh k d z hk hd, waveVector_getD hb hk hd]
  have hN : (nmesh.getD d 0 : ℝ) ≠ 0 := by
    rw [List.getD_eq_getElem _ _ hd]
    exact_mod_cast (hpos _ (List.getElem_mem hd)).ne'
  have hL : box.getD d 0 ≠ 0 := by
    rw [List.getD_eq_getElem _ _ (by omega)]
    exact (hbp _ (List.getElem_mem _)).ne'
  obtain ⟨N, hN'⟩ : ∃ N, N = nmesh.getD d 0 := ⟨_, rfl⟩
  obtain ⟨j, hj⟩ : ∃ j, j = k.getD d 0 := ⟨_, rfl⟩
  rw [← hN'] at hN ⊢
  rw [← hj]
  have hdiv : (N : ℤ) ∣ (j : ℤ) - Int.bmod (j : ℤ) N := Int.dvd_self_sub_bmod
  obtain ⟨q, hq⟩ := hdiv
  have hq' : (j : ℝ) = (Int.bmod (j : ℤ) N : ℝ) + N * q := by
    have : (j : ℤ) = Int.bmod (j : ℤ) N + N * q := by omega
    exact_mod_cast this
  rw [exp_eq_exp_iff_exists_int]
  refine ⟨q * z, ?_⟩
  rw [hq']
  push_cast
  have hNc : (N : ℂ) ≠ 0 := by exact_mod_cast hN
  have hLc : ((box.getD d 0 : ℝ) : ℂ) ≠ 0 := by exact_mod_cast hL
  field_simp

/-- The difference of four cells in Fourier space. -/
theorem c2r_diff4 {nmesh cshape : List ℕ} (hs : StoredShape nmesh cshape) (hne : nmesh ≠ []) (hpos : ∀ n ∈ nmesh, 0 < n) {box : List ℝ}
    (hb : box.length = nmesh.length) (hbp : ∀ b ∈ box, 0 < b) {d : ℕ} (hd : d < nmesh.length) (G : List ℕ → ℂ) {g : List ℕ} (hg : ValidIndex nmesh g)
    (C : ℝ) (hC : C = box.getD d 0 / (nmesh.getD d 0 : ℝ)) {K : List ℕ → ℂ}
    (hK : ∀ k, ValidIndex nmesh k → K k = I * ((8 * Real.sin ((waveVector Real.pi nmesh box k).getD d 0 * C) -
      Real.sin (2 * ((waveVector Real.pi nmesh box k).getD d 0 * C))) / (6 * C) : ℝ)) :
    c2r nmesh cshape (fun k => K k * G k) g = diff4 nmesh C d (c2r nmesh cshape G) g := by
  have hsh : ∀ z : ℤ, (axisShift nmesh.length d z).length = nmesh.length := fun z => by simp [axisShift]
  have move : ∀ z : ℤ, c2r nmesh cshape G (movedCell nmesh (axisShift nmesh.length d z) g) =
      c2r nmesh cshape (fun k => exp (2 * Real.pi * I * shiftArg nmesh k (axisShift nmesh.length d z)) * G k) g := fun z => by
    refine c2r_moved hs hne (hsh z) (fun k _ => ?_) hg
    rw [← mul_assoc, ← exp_add, neg_add_cancel, exp_zero, one_mul]
  have hsum := c2r_sum nmesh cshape ([(1, 8 / (12 * C)), (-1, -8 / (12 * C)), (2, -1 / (12 * C)), (-2, 1 / (12 * C))] : List (ℤ × ℝ)) (fun y => y.2)
    (fun y k => exp (2 * Real.pi * I * shiftArg nmesh k (axisShift nmesh.length d y.1)) * G k) g
  unfold diff4
  simp only [move]
  have e : (8 * (c2r nmesh cshape (fun k => exp (2 * Real.pi * I * shiftArg nmesh k (axisShift nmesh.length d 1)) * G k) g -
      c2r nmesh cshape (fun k => exp (2 * Real.pi * I * shiftArg nmesh k (axisShift nmesh.length d (-1))) * G k) g) -
      (c2r nmesh cshape (fun k => exp (2 * Real.pi * I * shiftArg nmesh k (axisShift nmesh.length d 2)) * G k) g -
      c2r nmesh cshape (fun k => exp (2 * Real.pi * I * shiftArg nmesh k (axisShift nmesh.length d (-2))) * G k) g)) / (12 * C) =
      (([(1, 8 / (12 * C)), (-1, -8 / (12 * C)), (2, -1 / (12 * C)), (-2, 1 / (12 * C))] : List (ℤ × ℝ)).map fun y => y.2 *
        c2r nmesh cshape (fun k => exp (2 * Real.pi * I * shiftArg nmesh k (axisShift nmesh.length d y.1)) * G k) g).sum := by
    simp only [List.map_cons, List.map_nil, List.sum_cons, List.sum_nil]
    ring
  rw [e, ← hsum]
  refine c2r_stored_congr hs hne hpos (fun k hk => ?_) g
  have hv := stored_valid hs hne hpos hk
  rw [hK k hv]
  simp only [List.map_cons, List.map_nil, List.sum_cons, List.sum_nil, exp_shift hb hbp hv.len hd hpos]
  rw [← hC]
  obtain ⟨w, hw⟩ : ∃ w, w = (waveVector Real.pi nmesh box k).getD d 0 * C := ⟨_, rfl⟩
  rw [← hw]
  have e1 : exp (((((1 : ℤ) : ℝ) * w : ℝ) : ℂ) * I) = Real.cos w + Real.sin w * I := by rw [exp_mul_I]; push_cast; ring_nf
  have e2 : exp (((((-1 : ℤ) : ℝ) * w : ℝ) : ℂ) * I) = Real.cos w - Real.sin w * I := by
    rw [exp_mul_I]; push_cast; rw [neg_one_mul, Complex.cos_neg, Complex.sin_neg]; ring
  have e3 : exp (((((2 : ℤ) : ℝ) * w : ℝ) : ℂ) * I) = Real.cos (2 * w) + Real.sin (2 * w) * I := by rw [exp_mul_I]; push_cast; ring_nf
  have e4 : exp (((((-2 : ℤ) : ℝ) * w : ℝ) : ℂ) * I) = Real.cos (2 * w) - Real.sin (2 * w) * I := by
    rw [exp_mul_I]; push_cast; rw [neg_mul, Complex.cos_neg, Complex.sin_neg]; ring
  rw [e1, e2, e3, e4]
  push_cast
  ring

theorem bmod_opposite_sq {n j : ℕ} (h : j < n) : (Int.bmod (((n - j) % n : ℕ) : ℤ) n) ^ 2 = (Int.bmod (j : ℤ) n) ^ 2 := by
  by_cases h0 : j = 0
  · subst h0; simp
  · rw [Nat.mod_eq_of_lt (by omega)]
    have : Int.bmod ((n - j : ℕ) : ℤ) n = -Int.bmod (j : ℤ) n ∨ Int.bmod ((n - j : ℕ) : ℤ) n = Int.bmod (j : ℤ) n := by
      simp only [Int.bmod_def]
      rw [Int.emod_eq_of_lt (by omega) (by omega), Int.emod_eq_of_lt (by omega) (by omega)]
      split_ifs <;> omega
    rcases this with e | e <;> rw [e]
    ring

theorem waveSq_opposite {nmesh : List ℕ} (box : List ℝ) {k : List ℕ} (h : ValidIndex nmesh k) : waveSq nmesh box (opposite nmesh k) = waveSq nmesh box k := by
  unfold waveSq waveVector opposite
  induction h generalizing box with
  | nil => simp
  | @cons n j ns js h _ ih =>
    cases box with
    | nil => rfl
    | cons b box =>
      simp only [List.zipWith_cons_cons, List.zip_cons_cons, List.map_cons, List.sum_cons]
      rw [ih box]
      congr 1
      have e := bmod_opposite_sq h
      have e' : ((Int.bmod (((n - j) % n : ℕ) : ℤ) n : ℤ) : ℝ) ^ 2 = ((Int.bmod (j : ℤ) n : ℤ) : ℝ) ^ 2 := by exact_mod_cast e
      rw [div_pow, div_pow, mul_pow, e', mul_pow (((Int.bmod (j : ℤ) n : ℤ) : ℝ))]

theorem nbK2_eq (nmesh : List ℕ) (box : List ℝ) (k : List ℕ) : nbK2 nmesh box k = if waveSq nmesh box k = 0 then 1 else waveSq nmesh box k := rfl

theorem nbK2_ne (nmesh : List ℕ) (box : List ℝ) (k : List ℕ) : nbK2 nmesh box k ≠ 0 := by
  rw [nbK2_eq]
  split_ifs with h
  · exact one_ne_zero
  · exact h

/-- **C92**, potential.  Every density has a potential. -/
theorem C92_potential (nmesh : List ℕ) (hne : nmesh ≠ []) (hpos : ∀ n ∈ nmesh, 0 < n) (box : List ℝ) (rho : List ℕ → ℝ) :
    ∃ φ, Potential nmesh box rho φ := by
  refine ⟨c2r nmesh nmesh fun k => r2c nmesh rho k / (nbK2 nmesh box k : ℝ), fun k hk h => ?_⟩
  rw [C29_r2c_c2r nmesh nmesh hne hpos (Or.inl rfl) _ (fun k hk _ => ?_) k hk]
  · rw [nbK2_eq, if_neg h]
    have : (waveSq nmesh box k : ℂ) ≠ 0 := by exact_mod_cast h
    field_simp
  · rw [r2c_opposite nmesh rho hk, map_div₀, conj_ofReal, nbK2_eq, nbK2_eq, waveSq_opposite box hk]

theorem waveSq_zero {nmesh : List ℕ} {box : List ℝ} {k : List ℕ} (h : waveSq nmesh box k = 0) (d : ℕ) : (waveVector Real.pi nmesh box k).getD d 0 = 0 := by
  unfold waveSq at h
  have : ∀ x ∈ waveVector Real.pi nmesh box k, x = 0 := by
    intro x hx
    have hle : x ^ 2 ≤ ((waveVector Real.pi nmesh box k).map (· ^ 2)).sum :=
      List.single_le_sum (by intro y hy; obtain ⟨z, -, rfl⟩ := List.mem_map.1 hy; positivity) _ (List.mem_map_of_mem hx)
    rw [h] at hle
    exact pow_eq_zero_iff (two_ne_zero) |>.1 (le_antisymm hle (sq_nonneg x))
  by_cases hd : d < (waveVector Real.pi nmesh box k).length
  · rw [List.getD_eq_getElem _ _ hd]
    exact this _ (List.getElem_mem hd)
  · rw [List.getD_eq_default _ _ (by omega)]

/-- The transfer function of the force takes the differences of the potential. -/
theorem c2r_force {nmesh cshape : List ℕ} {box : List ℝ} (hs : StoredShape nmesh cshape) (hne : nmesh ≠ []) (hpos : ∀ n ∈ nmesh, 0 < n)
    (hb : box.length = nmesh.length) (hbp : ∀ L ∈ box, 0 < L) {d : ℕ} (hd : d < nmesh.length) {rho φ : List ℕ → ℝ} (hφ : Potential nmesh box rho φ)
    {g : List ℕ} (hg : ValidIndex nmesh g) :
    c2r nmesh cshape (fun k => forceTransfer nmesh box d k * r2c nmesh rho k) g = diff4 nmesh (box.getD d 0 / (nmesh.getD d 0 : ℝ)) d φ g := by
  have hC : box.getD d 0 / (nmesh.getD d 0 : ℝ) ≠ 0 := by
    rw [List.getD_eq_getElem _ _ hd, List.getD_eq_getElem _ _ (by rw [hb]; exact hd)]
    have hn : (nmesh[d] : ℝ) ≠ 0 := by exact_mod_cast (hpos _ (List.getElem_mem hd)).ne'
    exact div_ne_zero (hbp _ (List.getElem_mem _)).ne' hn
  have key := c2r_diff4 hs hne hpos hb hbp hd (r2c nmesh φ) hg _ rfl (K := fun k =>
    I * ((8 * Real.sin ((waveVector Real.pi nmesh box k).getD d 0 * (box.getD d 0 / (nmesh.getD d 0 : ℝ))) -
      Real.sin (2 * ((waveVector Real.pi nmesh box k).getD d 0 * (box.getD d 0 / (nmesh.getD d 0 : ℝ))))) /
        (6 * (box.getD d 0 / (nmesh.getD d 0 : ℝ))) : ℝ)) fun _ _ => rfl
  have hback : ∀ z : ℤ, c2r nmesh cshape (r2c nmesh φ) (movedCell nmesh (axisShift nmesh.length d z) g) =
      φ (movedCell nmesh (axisShift nmesh.length d z) g) := fun z =>
    C29_c2r_r2c nmesh cshape hne hpos hs φ _ (fun _ _ => rfl) _ (movedCell_valid (by simp [axisShift]) hg)
  unfold diff4 at key ⊢
  simp only [hback] at key
  rw [← key]
  refine c2r_stored_congr hs hne hpos (fun k hk => ?_) g
  have hv := stored_valid hs hne hpos hk
  obtain ⟨C, hCe⟩ : ∃ C, C = box.getD d 0 / (nmesh.getD d 0 : ℝ) := ⟨_, rfl⟩
  obtain ⟨W, hW⟩ : ∃ W, W = (waveVector Real.pi nmesh box k).getD d 0 := ⟨_, rfl⟩
  have hf : forceTransfer nmesh box d k = I * ((1.0 / C * 1 / 6.0 * (8 * Real.sin (W * C) - Real.sin (2 * (W * C))) : ℝ) : ℂ) /
      (nbK2 nmesh box k : ℝ) := by rw [hCe, hW]; rfl
  rw [hf]
  simp only [← hCe, ← hW] at hC ⊢
  by_cases h0 : waveSq nmesh box k = 0
  · have hW0 : W = 0 := by rw [hW]; exact waveSq_zero h0 d
    simp [hW0]
  · rw [← hφ k hv h0, nbK2_eq, if_neg h0]
    have h0' : (waveSq nmesh box k : ℂ) ≠ 0 := by exact_mod_cast h0
    have e : (1.0 / C * 1 / 6.0 * (8 * Real.sin (W * C) - Real.sin (2 * (W * C))) : ℝ) = (8 * Real.sin (W * C) - Real.sin (2 * (W * C))) / (6 * C) := by
      norm_num
      field_simp
    rw [e]
    obtain ⟨Y, hY⟩ : ∃ Y, Y = (8 * Real.sin (W * C) - Real.sin (2 * (W * C))) / (6 * C) := ⟨_, rfl⟩
    rw [← hY]
    field_simp

/-- **C92**, force.  On any number of ranks `force` completes, and gives to each particle `3/2 Ω` times the gradient (by differences of four cells, read
with the window) of every potential of the density of the particles, in units of the mean density.
Partial: the restrictions of `C23_paint_partial` on the decomposition. -/
theorem C92_force_partial (w : Resampler ℝ) (hw : w.Valid) (om : ℝ) (a : Machine) (ha : a.OK w) (s : ℕ → List NBody)
    (hx : ∀ b ∈ a.all s, b.Sane a.m.nmesh.length) (rho φ : List ℕ → ℝ)
    (hrho : ∀ g, rho g = ((a.all s).map fun b => a.m.weightAt w b.x g).sum * (a.m.nmesh.prod / (a.all s).length)) (hφ : Potential a.m.nmesh a.m.box rho φ) :
    (∃ s', a.NbForce w om s s') ∧ ∀ s', a.NbForce w om s s' → ∀ r < a.m.nrank, s' r = (s r).map fun b =>
      { b with f := (List.range a.m.nmesh.length).map fun d => 3 / 2 * om * ((ndindex a.m.nmesh).map fun g =>
        a.m.weightAt w b.x g * diff4 a.m.nmesh (a.m.box.getD d 0 / (a.m.nmesh.getD d 0 : ℝ)) d φ g).sum } := by
  obtain ⟨h1, h2⟩ := nbForce_iff hw ha om s (sane_of_all hx) (naive ⟨id, id, id, id, id⟩)
  refine ⟨h1, fun s' hs' r hr => ?_⟩
  rw [h2 s' hs' r hr]
  apply List.map_congr_left
  intro b _
  simp only [nbOp, nbForceAt]
  congr 1
  apply List.map_congr_left
  intro d hd
  have hd := List.mem_range.1 hd
  have hs : StoredShape a.m.nmesh a.t.cshape := by rw [← ha.modes_mesh]; exact ha.storage
  have hpos := nmesh_pos' ha.mesh
  rw [show (1.5 : ℝ) = 3 / 2 by norm_num]
  congr 1
  unfold bodyRead
  apply sum_congr'
  intro g hg
  have hg := mem_ndindex.1 hg
  congr 1
  have hdens : densAt a.m w (nbSys (nbFac a.m (a.all s))) (a.all s) = rho := by
    funext g
    rw [hrho, ← List.sum_map_mul_right]
    unfold densAt nbSys nbFac
    congr 1
    apply List.map_congr_left
    intro b _
    norm_num
    ring
  rw [hdens]
  exact c2r_force hs ha.mesh.dim hpos ha.mesh.box_len ha.mesh.box_pos hd hφ hg

/-- **C92**, displacements.  The transfer functions of the displacements of `simulate`, applied to a density contrast: the displacement is a
gradient, its divergence is minus the density contrast, and its mean is 0. -/
theorem C92_displacement (nmesh : List ℕ) (box : List ℝ) (hb : box.length = nmesh.length) (k : List ℕ) (hk : ValidIndex nmesh k) :
    (waveSq nmesh box k ≠ 0 → ((List.range nmesh.length).map fun d => I * ((waveVector Real.pi nmesh box k).getD d 0 : ℝ) * dx1Transfer nmesh box d k).sum = -1) ∧
    (∀ d e, ((waveVector Real.pi nmesh box k).getD e 0 : ℝ) * dx1Transfer nmesh box d k = ((waveVector Real.pi nmesh box k).getD d 0 : ℝ) * dx1Transfer nmesh box e k) ∧
    (waveSq nmesh box k = 0 → ∀ d, dx1Transfer nmesh box d k = 0) := by
  refine ⟨fun h => ?_, fun d e => ?_, fun h d => ?_⟩
  · have hl : (waveVector Real.pi nmesh box k).length = nmesh.length := by
      unfold waveVector
      simp [hb, hk.len]
    have hsq : waveSq nmesh box k = ((List.range nmesh.length).map fun d => (waveVector Real.pi nmesh box k).getD d 0 ^ 2).sum := by
      unfold waveSq
      congr 1
      apply List.ext_getElem
      · simp [hl]
      · intro i h1 h2
        simp only [List.length_map] at h1
        simp [h1]
    have h' : (waveSq nmesh box k : ℂ) ≠ 0 := by exact_mod_cast h
    have : ((List.range nmesh.length).map fun d => I * ((waveVector Real.pi nmesh box k).getD d 0 : ℝ) * dx1Transfer nmesh box d k).sum =
        -((waveSq nmesh box k : ℂ))⁻¹ * ((List.range nmesh.length).map fun d => (((waveVector Real.pi nmesh box k).getD d 0 ^ 2 : ℝ) : ℂ)).sum := by
      rw [← sum_cmul]
      apply sum_congr'
      intro d _
      unfold dx1Transfer
      rw [nbK2_eq, if_neg h]
      push_cast
      rw [show ∀ x y : ℂ, I * x * (I * x / y) = (I * I) * (x ^ 2 / y) by intros; ring, I_mul_I]
      field_simp
    rw [this, show ((List.range nmesh.length).map fun d => (((waveVector Real.pi nmesh box k).getD d 0 ^ 2 : ℝ) : ℂ)).sum =
      ((((List.range nmesh.length).map fun d => (waveVector Real.pi nmesh box k).getD d 0 ^ 2).sum : ℝ) : ℂ) by
        induction List.range nmesh.length with
        | nil => simp
        | cons i l ih => rw [List.map_cons, List.sum_cons, ih, List.map_cons, List.sum_cons]; push_cast; ring, ← hsq]
    field_simp
  · unfold dx1Transfer
    ring
  · unfold dx1Transfer
    rw [waveSq_zero h]
    simp

/-- **C92**, initial conditions.  The displacements of `simulate`, of modes `η` of white noise, have divergence `-√(P(|k|) / V) η`: with the noise of
`unitary=True`, of size 1 (C42), the power per volume of the density is exactly `P(|k|)`, for every mode; the mean is not displaced. -/
theorem C92_spectrum (P : ℝ → ℝ) (hP : ∀ x, 0 ≤ P x) (nmesh : List ℕ) (box : List ℝ) (hb : box.length = nmesh.length) (hpos : ∀ L ∈ box, 0 < L) (k : List ℕ)
    (hk : ValidIndex nmesh k) (η : ℂ) :
    let div : ℂ := ((List.range nmesh.length).map fun d =>
      I * ((waveVector Real.pi nmesh box k).getD d 0 : ℝ) * ((nbKernels P nmesh box).getD d (fun _ => 0) k * η)).sum
    (waveSq nmesh box k ≠ 0 → div = -(√(P (√(waveSq nmesh box k)) / box.prod) : ℝ) * η ∧
      (‖η‖ = 1 → ‖div‖ ^ 2 * box.prod = P (√(waveSq nmesh box k)))) ∧
    (waveSq nmesh box k = 0 → ∀ d < nmesh.length, (nbKernels P nmesh box).getD d (fun _ => 0) k = 0) := by
  have hg : ∀ d < nmesh.length, (nbKernels P nmesh box).getD d (fun _ => 0) k = dx1Transfer nmesh box d k * (√(P (√(waveSq nmesh box k)) / box.prod) : ℝ) := by
    intro d hd
    simp [nbKernels, hd, waveSq]
  refine ⟨fun h => ?_, fun h d hd => by rw [hg d hd, (C92_displacement nmesh box hb k hk).2.2 h d, zero_mul]⟩
  have hdiv : ((List.range nmesh.length).map fun d =>
      I * ((waveVector Real.pi nmesh box k).getD d 0 : ℝ) * ((nbKernels P nmesh box).getD d (fun _ => 0) k * η)).sum =
      -(√(P (√(waveSq nmesh box k)) / box.prod) : ℝ) * η := by
    rw [show -(√(P (√(waveSq nmesh box k)) / box.prod) : ℂ) * η = ((√(P (√(waveSq nmesh box k)) / box.prod) : ℝ) * η) * (-1) by push_cast; ring,
      ← (C92_displacement nmesh box hb k hk).1 h, ← sum_cmul]
    apply sum_congr'
    intro d hd
    rw [hg d (List.mem_range.1 hd)]
    ring
  have hV : 0 < box.prod := List.prod_pos hpos
  refine ⟨hdiv, fun hη => ?_⟩
  rw [hdiv, norm_mul, hη, norm_neg, norm_real, Real.norm_of_nonneg (Real.sqrt_nonneg _), mul_one, Real.sq_sqrt (div_nonneg (hP _) hV.le)]
  field_simp

/-! ## Non-vacuity -/

section
variable (om : ℝ) (p q u : NBody) (hp : p.Sane 3) (hq : q.Sane 3) (hu : u.Sane 3)
include hp hq hu

example : ∃ s', exMachine2.NbForce exWinR om (fun r => if r = 0 then [p, q] else [u]) s' := by
  obtain ⟨φ, hφ⟩ := C92_potential exMachine2.m.nmesh exMachine2_ok.mesh.dim (nmesh_pos' exMachine2_ok.mesh) exMachine2.m.box _
  exact (C92_force_partial exWinR exWinR_valid om exMachine2 exMachine2_ok _ (exBodies_sane p q u hp hq hu) _ φ (fun _ => rfl) hφ).1

end

example : waveSq [4, 4] [1, 2] [1, 3] ≠ 0 := by
  have : (0 : ℝ) < Real.pi := Real.pi_pos
  have h1 : Int.bmod 1 4 = 1 := by decide
  have h3 : Int.bmod 3 4 = -1 := by decide
  simp only [waveSq, waveVector, List.zip_cons_cons, List.zip_nil_right, List.zipWith_cons_cons, List.zipWith_nil_right, List.map_cons, List.map_nil,
    List.sum_cons, List.sum_nil, Nat.cast_one, Nat.cast_ofNat, h1, h3]
  push_cast
  positivity

example : ValidIndex [4, 4] [1, 3] ∧ (∀ L ∈ ([1, 2] : List ℝ), 0 < L) ∧ ‖I‖ = 1 := by
  refine ⟨by simp [ValidIndex], by simp, by simp⟩

#print axioms C92_spectrum
#print axioms C92_potential
#print axioms C92_force_partial
#print axioms C92_displacement

end Pmesh
