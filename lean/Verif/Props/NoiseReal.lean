import Verif.Lemmas.NoiseReal
import Verif.Lemmas.Translate

/-! # C108: random fields in real space

White noise, multiplied with a transfer function and transformed to real space, is how initial conditions are made.  With an ideal generator the field is Gaussian and
statistically homogeneous, and its power spectrum is the square of the transfer function, but for the modes that are their own opposite.
-/

namespace Pmesh

open MeasureTheory ProbabilityTheory

section
variable {σ Ω : Type} [MeasurableSpace Ω] {P : Measure Ω} {r : Ω → Rng σ ℝ} {rnd : ℝ → ℝ} {N M seed : ℕ} {col : ℕ → ℕ}
  {cshape : List ℕ} {place : List ℕ → NoisePlace}

theorem modes_indep (hI : IdealNumbers P r rnd seed (N * N) col) (hN : 2 ≤ N) (hM : 2 ≤ M) (heN : N % 2 = 0) (heM : M % 2 = 0)
    {box : Fin 3 → ℝ} (hb : ∀ d, 0 < box d) (mean : ℝ) (hL : NoiseLayout N M cshape place) :
    iIndepFun (fun (k : halfModes [N, N, M]) ω => noiseAt (r ω) rnd N M box seed false mean (place (storedOne [N, N, M] cshape k))) P :=
  C103_independent_partial hI hN hM heN heM hb false mean _ (fun k => hL.ok _ (storedOne_valid hL (mem_halfModes.1 k.2).1))
    fun _ _ h => halfModes_apart hL h

theorem coef_self {T : List ℕ → ℂ} (hT : HermitianTransfer [N, N, M] T) (hL : NoiseLayout N M cshape place) {k : List ℕ} (hk : ValidIndex [N, N, M] k)
    (x : List ℕ) (h : (place (storedOne [N, N, M] cshape k)).mode = opposite [N, N, M] (place (storedOne [N, N, M] cshape k)).mode) :
    (modeCoef [N, N, M] cshape T x k).im = 0 := by
  have hst := storedOne_valid hL hk
  rw [hL.mode _ hst] at h
  have hv : ValidIndex [N, N, M] (storedOne [N, N, M] cshape k) := by
    rcases storedOne_cases (cshape := cshape) (nmesh := [N, N, M]) k with e | e <;> rw [e]
    · exact hk
    · exact opposite_valid hk
  unfold modeCoef
  set q := storedOne [N, N, M] cshape k
  have h1 := hT q hv
  have h2 := phase_opposite hv x
  rw [← h] at h1 h2
  have i1 : (T q).im = 0 := Complex.conj_eq_iff_im.1 h1.symm
  have i2 : (phase [N, N, M] q x).im = 0 := Complex.conj_eq_iff_im.1 h2.symm
  rw [Complex.im_ofReal_mul, Complex.mul_im, i1, i2]
  ring

/-- **C108**, the distribution (partial: even meshes, as in C103).  The values of the field in any cells are jointly normal. -/
theorem C108_gaussian_partial (hI : IdealNumbers P r rnd seed (N * N) col) (hN : 2 ≤ N) (hM : 2 ≤ M) (heN : N % 2 = 0) (heM : M % 2 = 0)
    {box : Fin 3 → ℝ} (hb : ∀ d, 0 < box d) (mean : ℝ) (hL : NoiseLayout N M cshape place) {T : List ℕ → ℂ} (hT : HermitianTransfer [N, N, M] T)
    {κ : Type} [Fintype κ] (x : κ → List ℕ) :
    HasGaussianLaw (fun ω j => randomField (r ω) rnd N M cshape box seed mean place T (x j)) P := by
  have h := combine_joint (modes_indep hI hN hM heN heM hb mean hL)
    (fun k => noiseAt_gauss hI hN hM heN heM hb mean (hL.ok _ (storedOne_valid hL (mem_halfModes.1 k.2).1)))
    (fun j (k : halfModes [N, N, M]) => modeCoef [N, N, M] cshape T (x j) k)
  refine h.congr (Filter.Eventually.of_forall fun ω => ?_)
  funext j
  exact (randomField_combine (r ω) rnd seed hL hN hM heM hb mean hT (x j)).symm

theorem phase_normal (nmesh k x y : List ℕ) (t : ℂ) :
    (t * phase nmesh k x).re * (t * phase nmesh k y).re + (t * phase nmesh k x).im * (t * phase nmesh k y).im =
      ‖t‖ ^ 2 * Real.cos (2 * Real.pi * (phaseArg nmesh k x - phaseArg nmesh k y)) := by
  have e : ∀ z, (phase nmesh k z).re = Real.cos (2 * Real.pi * phaseArg nmesh k z) ∧ (phase nmesh k z).im = Real.sin (2 * Real.pi * phaseArg nmesh k z) := by
    intro z
    unfold phase
    have : (2 * Real.pi * Complex.I * (phaseArg nmesh k z : ℂ)) = ((2 * Real.pi * phaseArg nmesh k z : ℝ) : ℂ) * Complex.I := by
      push_cast; ring
    rw [this, Complex.exp_ofReal_mul_I_re, Complex.exp_ofReal_mul_I_im]
    exact ⟨rfl, rfl⟩
  rw [mul_sub, Real.cos_sub, ← Complex.normSq_eq_norm_sq, Complex.normSq_apply]
  simp only [Complex.mul_re, Complex.mul_im, (e _).1, (e _).2]
  ring

theorem phaseArg_cos_opposite {nmesh k : List ℕ} (hk : ValidIndex nmesh k) (x y : List ℕ) :
    Real.cos (2 * Real.pi * (phaseArg nmesh (opposite nmesh k) x - phaseArg nmesh (opposite nmesh k) y)) =
      Real.cos (2 * Real.pi * (phaseArg nmesh k x - phaseArg nmesh k y)) := by
  have h1 := phase_normal nmesh (opposite nmesh k) x y 1
  have h2 := phase_normal nmesh k x y 1
  rw [phase_opposite hk, phase_opposite hk] at h1
  simp only [one_mul, Complex.conj_re, Complex.conj_im, norm_one, one_pow] at h1 h2
  rw [← h1, ← h2]
  ring

theorem modePower_opposite {nmesh k : List ℕ} (hk : ValidIndex nmesh k) : modePower nmesh (opposite nmesh k) = modePower nmesh k := by
  have hz : opposite nmesh (nmesh.map fun _ => 0) = nmesh.map fun _ => 0 := by
    unfold opposite
    clear hk
    induction nmesh with
    | nil => rfl
    | cons n ns ih =>
      simp only [List.map_cons, List.zipWith_cons_cons, ih]
      simp
  unfold modePower
  rw [opposite_opposite hk]
  have e1 : opposite nmesh k = nmesh.map (fun _ => 0) ↔ k = nmesh.map fun _ => 0 :=
    ⟨fun h => by rw [← opposite_opposite hk, h, hz], fun h => by rw [h, hz]⟩
  have e2 : opposite nmesh k = k ↔ k = opposite nmesh k := eq_comm
  simp only [e1, e2]

/-- **C108**, the power spectrum (partial: even meshes).  The covariance of two cells is the sum over all modes of the power of the mode, which is the square of the
transfer function (one half of it for modes that are their own opposite, nothing for the mean), times the cosine of the phase between the cells. -/
theorem C108_covariance_partial (hI : IdealNumbers P r rnd seed (N * N) col) (hN : 2 ≤ N) (hM : 2 ≤ M) (heN : N % 2 = 0) (heM : M % 2 = 0)
    {box : Fin 3 → ℝ} (hb : ∀ d, 0 < box d) (mean : ℝ) (hL : NoiseLayout N M cshape place) {T : List ℕ → ℂ} (hT : HermitianTransfer [N, N, M] T)
    (x y : List ℕ) :
    cov[fun ω => randomField (r ω) rnd N M cshape box seed mean place T x, fun ω => randomField (r ω) rnd N M cshape box seed mean place T y; P] =
      correlation [N, N, M] T x y := by
  have e : ∀ z, (fun ω => randomField (r ω) rnd N M cshape box seed mean place T z) =
      combine (fun (k : halfModes [N, N, M]) ω => noiseAt (r ω) rnd N M box seed false mean (place (storedOne [N, N, M] cshape k)))
        fun k => modeCoef [N, N, M] cshape T z k :=
    fun z => funext fun ω => randomField_combine (r ω) rnd seed hL hN hM heM hb mean hT z
  rw [e, e, combine_cov (modes_indep hI hN hM heN heM hb mean hL)
    (fun k => noiseAt_gauss hI hN hM heN heM hb mean (hL.ok _ (storedOne_valid hL (mem_halfModes.1 k.2).1)))]
  unfold correlation
  rw [sum_half]
  · refine Eq.trans ?_ (Finset.sum_coe_sort (halfModes [N, N, M]) _)
    apply Finset.sum_congr rfl
    rintro ⟨k, hk⟩ _
    have hkv := (mem_halfModes.1 hk).1
    have hst := storedOne_valid hL hkv
    have hc := (noiseAt_cov hI hN hM heN heM hb mean (hL.ok _ hst) (u := modeCoef [N, N, M] cshape T x k) (v := modeCoef [N, N, M] cshape T y k)
      fun h => ⟨coef_self hT hL hkv x h, coef_self hT hL hkv y h⟩).1
    simp only
    rw [hc, hL.mode _ hst]
    have hp : (modeCoef [N, N, M] cshape T x k).re * (modeCoef [N, N, M] cshape T y k).re +
        (modeCoef [N, N, M] cshape T x k).im * (modeCoef [N, N, M] cshape T y k).im =
        pairSize [N, N, M] k ^ 2 * (‖T (storedOne [N, N, M] cshape k)‖ ^ 2 *
          Real.cos (2 * Real.pi * (phaseArg [N, N, M] (storedOne [N, N, M] cshape k) x - phaseArg [N, N, M] (storedOne [N, N, M] cshape k) y))) := by
      rw [← phase_normal]
      unfold modeCoef
      rw [Complex.re_ofReal_mul, Complex.re_ofReal_mul, Complex.im_ofReal_mul, Complex.im_ofReal_mul]
      ring
    rw [hp]
    have hn : ‖T (storedOne [N, N, M] cshape k)‖ ^ 2 *
        Real.cos (2 * Real.pi * (phaseArg [N, N, M] (storedOne [N, N, M] cshape k) x - phaseArg [N, N, M] (storedOne [N, N, M] cshape k) y)) =
        ‖T k‖ ^ 2 * Real.cos (2 * Real.pi * (phaseArg [N, N, M] k x - phaseArg [N, N, M] k y)) := by
      rcases storedOne_cases (cshape := cshape) (nmesh := [N, N, M]) k with h | h <;> rw [h]
      rw [hT k hkv, Complex.norm_conj, phaseArg_cos_opposite hkv]
    rw [hn]
    have hpw : (if storedOne [N, N, M] cshape k = [0, 0, 0] then (0 : ℝ) else 1 / 2) * pairSize [N, N, M] k ^ 2 =
        pairSize [N, N, M] k * modePower [N, N, M] k := by
      have hm : modePower [N, N, M] (storedOne [N, N, M] cshape k) = modePower [N, N, M] k := by
        rcases storedOne_cases (cshape := cshape) (nmesh := [N, N, M]) k with h | h <;> rw [h]
        exact modePower_opposite hkv
      have h0 : storedOne [N, N, M] cshape k = [0, 0, 0] ↔ k = [0, 0, 0] := by
        rcases storedOne_cases (cshape := cshape) (nmesh := [N, N, M]) k with h | h <;> rw [h]
        have hz : opposite [N, N, M] [0, 0, 0] = [0, 0, 0] := by simp [opposite]
        exact ⟨fun e => by rw [← opposite_opposite hkv, e, hz], fun e => by rw [e, hz]⟩
      simp only [h0]
      unfold pairSize modePower
      simp only [List.map_cons, List.map_nil]
      split_ifs <;> norm_num
    linear_combination (‖T k‖ ^ 2 * Real.cos (2 * Real.pi * (phaseArg [N, N, M] k x - phaseArg [N, N, M] k y))) * hpw
  · intro k hk
    rw [modePower_opposite hk, hT k hk, Complex.norm_conj, phaseArg_cos_opposite hk]

/-- **C108**, the mean (partial: even meshes).  The expected value of every cell is `mean` times the transfer function at the zero mode. -/
theorem C108_mean_partial (hI : IdealNumbers P r rnd seed (N * N) col) (hN : 2 ≤ N) (hM : 2 ≤ M) (heN : N % 2 = 0) (heM : M % 2 = 0)
    {box : Fin 3 → ℝ} (hb : ∀ d, 0 < box d) (mean : ℝ) (hL : NoiseLayout N M cshape place) {T : List ℕ → ℂ} (hT : HermitianTransfer [N, N, M] T)
    (x : List ℕ) :
    ∫ ω, randomField (r ω) rnd N M cshape box seed mean place T x ∂P = (T [0, 0, 0]).re * mean := by
  have e : (fun ω => randomField (r ω) rnd N M cshape box seed mean place T x) =
      combine (fun (k : halfModes [N, N, M]) ω => noiseAt (r ω) rnd N M box seed false mean (place (storedOne [N, N, M] cshape k)))
        fun k => modeCoef [N, N, M] cshape T x k :=
    funext fun ω => randomField_combine (r ω) rnd seed hL hN hM heM hb mean hT x
  rw [e, combine_mean (modes_indep hI hN hM heN heM hb mean hL) (fun k => noiseAt_gauss hI hN hM heN heM hb mean (hL.ok _ (storedOne_valid hL (mem_halfModes.1 k.2).1)))]
  have hz : opposite [N, N, M] [0, 0, 0] = [0, 0, 0] := by simp [opposite]
  have hv0 : ValidIndex [N, N, M] [0, 0, 0] := by
    simp only [ValidIndex, List.forall₂_cons, List.forall₂_nil_left_iff, and_true]
    omega
  have h0 : [0, 0, 0] ∈ halfModes [N, N, M] := mem_halfModes.2 ⟨hv0, by rw [hz]⟩
  have hs0 : storedOne [N, N, M] cshape [0, 0, 0] = [0, 0, 0] := by
    rcases storedOne_cases (cshape := cshape) (nmesh := [N, N, M]) [0, 0, 0] with h | h
    · exact h
    · rw [h, hz]
  have hcv := fun (k : halfModes [N, N, M]) => (noiseAt_cov hI hN hM heN heM hb mean (hL.ok _ (storedOne_valid hL (mem_halfModes.1 k.2).1))
    (u := modeCoef [N, N, M] cshape T x k) (v := modeCoef [N, N, M] cshape T x k)
    fun h => ⟨coef_self hT hL (mem_halfModes.1 k.2).1 x h, coef_self hT hL (mem_halfModes.1 k.2).1 x h⟩).2
  rw [Finset.sum_congr rfl fun k _ => hcv k, Finset.sum_eq_single ⟨[0, 0, 0], h0⟩]
  · simp only [hs0]
    rw [if_pos (by rw [hL.mode _ (hs0 ▸ storedOne_valid hL hv0)])]
    unfold modeCoef pairSize
    rw [hs0, if_pos hz.symm]
    have : phase [N, N, M] [0, 0, 0] x = 1 := by
      have := phase_zero [N, N, M] x
      unfold phase at this ⊢
      rw [phaseArg_comm]
      exact this
    rw [this]
    simp
  · intro k _ hk
    have hkv := (mem_halfModes.1 k.2).1
    rw [if_neg]
    rw [hL.mode _ (storedOne_valid hL hkv)]
    intro e0
    apply hk
    apply Subtype.ext
    rcases storedOne_cases (cshape := cshape) (nmesh := [N, N, M]) k with h | h
    · rw [← h, e0]
    · rw [h] at e0
      rw [← opposite_opposite hkv, e0, hz]
  · intro h; exact absurd (Finset.mem_univ _) h

theorem correlation_moved {nmesh : List ℕ} (T : List ℕ → ℂ) {s : List ℤ} (hs : s.length = nmesh.length) {x y : List ℕ} (hx : ValidIndex nmesh x)
    (hy : ValidIndex nmesh y) : correlation nmesh T (movedCell nmesh s x) (movedCell nmesh s y) = correlation nmesh T x y := by
  unfold correlation
  refine congrArg List.sum (List.map_congr_left fun k _ => ?_)
  have h1 := phase_normal nmesh k (movedCell nmesh s x) (movedCell nmesh s y) 1
  have h2 := phase_normal nmesh k x y (Complex.exp (2 * Real.pi * Complex.I * shiftArg nmesh k s))
  have hn : ‖Complex.exp (2 * Real.pi * Complex.I * shiftArg nmesh k s)‖ = 1 := by
    have : (2 * Real.pi * Complex.I * (shiftArg nmesh k s : ℂ)) = ((2 * Real.pi * shiftArg nmesh k s : ℝ) : ℂ) * Complex.I := by
      push_cast; ring
    rw [this, Complex.norm_exp_ofReal_mul_I]
  rw [one_mul, one_mul, phase_moved hs hx, phase_moved hs hy, h2, hn, norm_one, one_pow, one_mul, one_mul] at h1
  rw [h1]

/-- **C108**, homogeneity (partial: even meshes).  The joint distribution of the values in any cells does not change if all of them are moved by the same number of
cells, around the periodic box. -/
theorem C108_homogeneous_partial (hI : IdealNumbers P r rnd seed (N * N) col) (hN : 2 ≤ N) (hM : 2 ≤ M) (heN : N % 2 = 0) (heM : M % 2 = 0)
    {box : Fin 3 → ℝ} (hb : ∀ d, 0 < box d) (mean : ℝ) (hL : NoiseLayout N M cshape place) {T : List ℕ → ℂ} (hT : HermitianTransfer [N, N, M] T)
    {κ : Type} [Fintype κ] (x : κ → List ℕ) (hx : ∀ j, ValidIndex [N, N, M] (x j)) {s : List ℤ} (hs : s.length = 3) :
    P.map (fun ω j => randomField (r ω) rnd N M cshape box seed mean place T (movedCell [N, N, M] s (x j))) =
      P.map fun ω j => randomField (r ω) rnd N M cshape box seed mean place T (x j) := by
  have e : ∀ z, (fun ω => randomField (r ω) rnd N M cshape box seed mean place T z) =
      combine (fun (k : halfModes [N, N, M]) ω => noiseAt (r ω) rnd N M box seed false mean (place (storedOne [N, N, M] cshape k)))
        fun k => modeCoef [N, N, M] cshape T z k :=
    fun z => funext fun ω => randomField_combine (r ω) rnd seed hL hN hM heM hb mean hT z
  have e' : ∀ z : κ → List ℕ, (fun ω j => randomField (r ω) rnd N M cshape box seed mean place T (z j)) =
      fun ω j => combine (fun (k : halfModes [N, N, M]) ω => noiseAt (r ω) rnd N M box seed false mean (place (storedOne [N, N, M] cshape k)))
        (fun k => modeCoef [N, N, M] cshape T (z j) k) ω :=
    fun z => funext fun ω => funext fun j => randomField_combine (r ω) rnd seed hL hN hM heM hb mean hT (z j)
  rw [e', e']
  refine combine_law (modes_indep hI hN hM heN heM hb mean hL)
    (fun k => noiseAt_gauss hI hN hM heN heM hb mean (hL.ok _ (storedOne_valid hL (mem_halfModes.1 k.2).1)))
    (fun j (k : halfModes [N, N, M]) => modeCoef [N, N, M] cshape T (movedCell [N, N, M] s (x j)) k)
    (fun j (k : halfModes [N, N, M]) => modeCoef [N, N, M] cshape T (x j) k) ?_ ?_
  · intro j
    rw [← e, ← e, C108_mean_partial hI hN hM heN heM hb mean hL hT, C108_mean_partial hI hN hM heN heM hb mean hL hT]
  · intro i j
    rw [← e, ← e, ← e, ← e, C108_covariance_partial hI hN hM heN heM hb mean hL hT, C108_covariance_partial hI hN hM heN heM hb mean hL hT]
    exact correlation_moved T (by simpa using hs) (hx i) (hx j)

theorem self_axis {n i : ℕ} (hi : i < n) (he : n % 2 = 0) : i = (n - i) % n ↔ i = 0 ∨ i = n / 2 := by
  by_cases h0 : i = 0
  · subst h0; simp
  · rw [Nat.mod_eq_of_lt (by omega)]
    omega

theorem self_count (hN : 2 ≤ N) (hM : 2 ≤ M) (heN : N % 2 = 0) (heM : M % 2 = 0) :
    ((ndindex [N, N, M]).map fun k => if k = opposite [N, N, M] k then (1 : ℝ) else 0).sum = 8 := by
  classical
  rw [← List.sum_toFinset _ (ndindex_nodup _), ← Finset.sum_filter]
  have e : (ndindex [N, N, M]).toFinset.filter (fun k => k = opposite [N, N, M] k) =
      {[0, 0, 0], [0, 0, M / 2], [0, N / 2, 0], [0, N / 2, M / 2], [N / 2, 0, 0], [N / 2, 0, M / 2], [N / 2, N / 2, 0], [N / 2, N / 2, M / 2]} := by
    ext k
    rw [Finset.mem_filter, List.mem_toFinset, mem_ndindex]
    constructor
    · rintro ⟨hv, h⟩
      match k, hv, h with
      | [a, b, c], hv, h =>
        simp only [ValidIndex, List.forall₂_cons, List.forall₂_nil_left_iff, and_true] at hv
        unfold opposite at h
        simp only [List.zipWith_cons_cons, List.zipWith_nil_left, List.cons.injEq, and_true] at h
        rw [self_axis hv.1 heN, self_axis hv.2.1 heN, self_axis hv.2.2 heM] at h
        obtain ⟨rfl | rfl, rfl | rfl, rfl | rfl⟩ := h <;> simp
    · intro h
      have z : ∀ {a b c : ℕ}, (a = 0 ∨ a = N / 2) → (b = 0 ∨ b = N / 2) → (c = 0 ∨ c = M / 2) →
          ValidIndex [N, N, M] [a, b, c] ∧ [a, b, c] = opposite [N, N, M] [a, b, c] := by
        intro a b c ha hb hc
        have h1 : a < N := by omega
        have h2 : b < N := by omega
        have h3 : c < M := by omega
        refine ⟨?_, ?_⟩
        · simp only [ValidIndex, List.forall₂_cons, List.forall₂_nil_left_iff, and_true]
          exact ⟨h1, h2, h3⟩
        · unfold opposite
          simp only [List.zipWith_cons_cons, List.zipWith_nil_left, List.cons.injEq, and_true]
          exact ⟨(self_axis h1 heN).2 ha, (self_axis h2 heN).2 hb, (self_axis h3 heM).2 hc⟩
      simp only [Finset.mem_insert, Finset.mem_singleton] at h
      rcases h with rfl | rfl | rfl | rfl | rfl | rfl | rfl | rfl <;> exact z (by simp) (by simp) (by simp)
  have n1 : N / 2 ≠ 0 := by omega
  have n2 : M / 2 ≠ 0 := by omega
  have n3 := n1.symm
  have n4 := n2.symm
  rw [Finset.sum_const, nsmul_eq_mul, mul_one, e]
  rw [Finset.card_insert_of_notMem, Finset.card_insert_of_notMem, Finset.card_insert_of_notMem, Finset.card_insert_of_notMem, Finset.card_insert_of_notMem,
    Finset.card_insert_of_notMem, Finset.card_insert_of_notMem, Finset.card_singleton]
  · norm_num
  all_goals
    simp only [Finset.mem_insert, Finset.mem_singleton, List.cons.injEq, and_true, not_or, not_and]
    simp only [n1, n2, n3, n4, not_false_eq_true, not_true_eq_false, implies_true, true_and, and_true, imp_false, and_self, IsEmpty.forall_iff, forall_const]

/-- **C108 violated** for modes that are their own opposite, seen in real space: the variance of white noise in every cell is `N N M - 9/2`, although all modes but the
mean are asked to have power one, which would make it `N N M - 1`. -/
theorem C108_violated_variance (hI : IdealNumbers P r rnd seed (N * N) col) (hN : 2 ≤ N) (hM : 2 ≤ M) (heN : N % 2 = 0) (heM : M % 2 = 0)
    {box : Fin 3 → ℝ} (hb : ∀ d, 0 < box d) (mean : ℝ) (hL : NoiseLayout N M cshape place) (x : List ℕ) :
    Var[fun ω => randomField (r ω) rnd N M cshape box seed mean place (fun _ => 1) x; P] = N * N * M - 9 / 2 := by
  have hT : HermitianTransfer [N, N, M] fun _ => 1 := fun k _ => by simp
  have hg := C108_gaussian_partial hI hN hM heN heM hb mean hL hT (fun _ : Unit => x)
  have hm : AEMeasurable (fun ω => randomField (r ω) rnd N M cshape box seed mean place (fun _ => 1) x) P :=
    (measurable_pi_apply ()).comp_aemeasurable hg.aemeasurable
  rw [← covariance_self hm, C108_covariance_partial hI hN hM heN heM hb mean hL hT]
  unfold correlation
  have e : ∀ k, modePower [N, N, M] k * ‖(1 : ℂ)‖ ^ 2 * Real.cos (2 * Real.pi * (phaseArg [N, N, M] k x - phaseArg [N, N, M] k x)) =
      1 + (-(1 / 2)) * (if k = opposite [N, N, M] k then (1 : ℝ) else 0) + (-(1 / 2)) * (if [0, 0, 0] = k then (1 : ℝ) else 0) := by
    intro k
    have hz : opposite [N, N, M] [0, 0, 0] = [0, 0, 0] := by simp [opposite]
    unfold modePower
    rw [norm_one, sub_self, mul_zero, Real.cos_zero]
    simp only [List.map_cons, List.map_nil, eq_comm (a := [0, 0, 0]) (b := k)]
    by_cases h0 : k = [0, 0, 0]
    · subst h0
      rw [if_pos rfl, if_pos hz.symm, if_pos rfl]
      norm_num
    · rw [if_neg h0, if_neg h0]
      split_ifs <;> norm_num
  rw [List.map_congr_left fun k _ => e k, List.sum_map_add, List.sum_map_add, List.sum_map_mul_left, List.sum_map_mul_left, self_count hN hM heN heM]
  have h0 := sum_single [N, N, M] (x := [0, 0, 0]) (by
    simp only [ValidIndex, List.forall₂_cons, List.forall₂_nil_left_iff, and_true]
    omega) (fun _ => (1 : ℝ))
  rw [h0]
  have h1 : ((ndindex [N, N, M]).map fun _ => (1 : ℝ)).sum = N * N * M := by
    rw [List.map_const', List.sum_replicate, ndindex_length]
    simp
    ring
  rw [h1]
  ring

end

/-! ### examples -/

section

/-- A compressed field of 4×4×4 cells on one rank. -/
def exLayoutPlace (k : List ℕ) : NoisePlace := exPlace (k.getD 0 0) (k.getD 1 0) (k.getD 2 0)

theorem exLayout : NoiseLayout 4 4 [4, 4, 3] exLayoutPlace where
  stored := .inr rfl
  ok := by
    intro k hk
    match k, hk with
    | [a, b, c], hk =>
      simp only [ValidIndex, List.forall₂_cons, List.forall₂_nil_left_iff, and_true] at hk
      exact exPlace_ok hk.1 hk.2.1 hk.2.2
  mode := by
    intro k hk
    match k, hk with
    | [a, b, c], hk => simp [exLayoutPlace, exPlace, NoisePlace.mode]

/-- A transfer function that is not real: one wave along the last axis. -/
noncomputable def exTransfer (k : List ℕ) : ℂ := if k = [0, 0, 1] then ⟨1, 2⟩ else if k = [0, 0, 3] then ⟨1, -2⟩ else 0

theorem exTransfer_hermitian : HermitianTransfer [4, 4, 4] exTransfer := by
  intro k hk
  match k, hk with
  | [a, b, c], hk =>
    simp only [ValidIndex, List.forall₂_cons, List.forall₂_nil_left_iff, and_true] at hk
    obtain ⟨ha, hb, hc⟩ := hk
    unfold exTransfer opposite
    interval_cases a <;> interval_cases b <;> interval_cases c <;> simp [Complex.ext_iff]

example := C108_gaussian_partial (ideal_exists 100 (n := 4 * 4) (by norm_num)) (by norm_num) (by norm_num) rfl rfl (box := fun _ => 1)
  (fun _ => one_pos) 5 exLayout exTransfer_hermitian (fun b : Bool => if b then [1, 2, 3] else [0, 0, 0])

example := C108_covariance_partial (ideal_exists 100 (n := 4 * 4) (by norm_num)) (by norm_num) (by norm_num) rfl rfl (box := fun _ => 1)
  (fun _ => one_pos) 5 exLayout exTransfer_hermitian [1, 2, 3] [1, 2, 0]

example := C108_mean_partial (ideal_exists 100 (n := 4 * 4) (by norm_num)) (by norm_num) (by norm_num) rfl rfl (box := fun _ => 1)
  (fun _ => one_pos) 5 exLayout exTransfer_hermitian [1, 2, 3]

example := C108_homogeneous_partial (ideal_exists 100 (n := 4 * 4) (by norm_num)) (by norm_num) (by norm_num) rfl rfl (box := fun _ => 1)
  (fun _ => one_pos) 5 exLayout exTransfer_hermitian (fun b : Bool => if b then [1, 2, 3] else [0, 0, 0])
  (fun b => by cases b <;> simp [ValidIndex]) (s := [1, -2, 7]) rfl

example := C108_violated_variance (ideal_exists 100 (n := 4 * 4) (by norm_num)) (by norm_num) (by norm_num) rfl rfl (box := fun _ => 1)
  (fun _ => one_pos) 5 exLayout [1, 2, 3]

end

#print axioms C108_gaussian_partial
#print axioms C108_covariance_partial
#print axioms C108_mean_partial
#print axioms C108_homogeneous_partial
#print axioms C108_violated_variance

end Pmesh
