import Verif.Lemmas.GaussField
import Verif.Spec.NoiseReal
import Verif.Props.NoiseLaw
import Verif.Props.NoiseLow
import Mathlib.Data.List.Lex

/-! # White noise in real space: lemmas -/

namespace Pmesh

open MeasureTheory ProbabilityTheory

section
variable {σ : Type} {rnd : ℝ → ℝ} {N M seed : ℕ}

theorem NoisePlace.gen_mirrored {p : NoisePlace} (hp : p.OK N M) (u : Bool) : (p.gen N M u).Mirrored := by
  intro k h1 h2 h3
  have := hp.whole
  simp only [NoisePlace.gen, noiseGen, List.getD_cons_succ, List.getD_cons_zero, Fin.isValue, Fin.val_two] at h1 h2 h3 ⊢
  have := hp.inside
  omega

theorem NoisePlace.gen_stores {p : NoisePlace} (hp : p.OK N M) (u : Bool) :
    (p.gen N M u).Stores ((p.start 0 + p.index 0 : ℕ) : ℤ) ((p.start 1 + p.index 1 : ℕ) : ℤ) ((p.start 2 + p.index 2 : ℕ) : ℤ) := by
  have hv : ValidIndex [p.shape 0, p.shape 1, p.shape 2] [p.index 0, p.index 1, p.index 2] := by
    have := hp.valid
    simp only [ValidIndex, List.forall₂_cons, List.forall₂_nil_left_iff, and_true]
    exact this
  unfold NoisePlace.gen
  rw [noiseGen_stores]
  exact ⟨_, _, _, hv, by push_cast; rfl, by push_cast; rfl, by push_cast; rfl⟩

theorem noiseAt_fill (s : Rng σ ℝ) {p : NoisePlace} (hp : p.OK N M) (hN : 2 ≤ N) (hM : 2 ≤ M) {box : Fin 3 → ℝ}
    (hb : ∀ d, 0 < box d) (unitary : Bool) (mean : ℝ) :
    noiseAt s rnd N M box seed unitary mean p = if p.mode = [0, 0, 0] then (mean, 0) else
      genericFill s polarIdeal rnd (p.gen N M unitary) seed p.mem (noiseAddr (p.gen N M unitary) ((p.start 0 + p.index 0 : ℕ) : ℤ)
        ((p.start 1 + p.index 1 : ℕ) : ℤ) ((p.start 2 + p.index 2 : ℕ) : ℤ)) := by
  have hv : ValidIndex [p.shape 0, p.shape 1, p.shape 2] [p.index 0, p.index 1, p.index 2] := by
    have := hp.valid
    simp only [ValidIndex, List.forall₂_cons, List.forall₂_nil_left_iff, and_true]
    exact this
  unfold noiseAt
  rw [C42_mean_partial s polarIdeal rnd Real.pi_ne_zero ⟨hN, hN, hM⟩ hp.inside hp.proper p.order hp.order
    ⟨(hb 0).ne', (hb 1).ne', (hb 2).ne'⟩ seed unitary mean p.mem _ _ _ hv]
  refine if_congr ?_ rfl ?_
  · unfold NoisePlace.mode
    simp only [List.cons.injEq, and_true]
  · rw [← noiseGen_addr N N M (p.start 0) (p.start 1) (p.start 2) (p.shape 0) (p.shape 1) (p.shape 2) (p.strides 0) (p.strides 1) (p.strides 2) unitary
      (p.index 0) (p.index 1) (p.index 2)]
    push_cast
    rfl

/-- Opposite modes are complex conjugates. -/
theorem noiseAt_opp (s : Rng σ ℝ) {p q : NoisePlace} (hp : p.OK N M) (hq : q.OK N M) (hN : 2 ≤ N) (hM : 2 ≤ M) (heM : M % 2 = 0)
    {box : Fin 3 → ℝ} (hb : ∀ d, 0 < box d) (unitary : Bool) (mean : ℝ) (h : q.mode = opposite [N, N, M] p.mode) :
    (noiseAt s rnd N M box seed unitary mean q).1 = (noiseAt s rnd N M box seed unitary mean p).1 ∧
      (noiseAt s rnd N M box seed unitary mean q).2 = -(noiseAt s rnd N M box seed unitary mean p).2 := by
  have hrp := p.ranges hp
  have hrq := q.ranges hq
  rw [noiseAt_fill s hp hN hM hb, noiseAt_fill s hq hN hM hb]
  have hm := h
  unfold NoisePlace.mode opposite at hm
  simp only [List.zipWith_cons_cons, List.zipWith_nil_left, List.cons.injEq, and_true] at hm
  have z : ∀ n i : ℕ, i < n → ((n - i) % n = 0 ↔ i = 0) := by
    intro n i hi
    constructor
    · intro e
      by_contra h0
      rw [Nat.mod_eq_of_lt (by omega)] at e
      omega
    · rintro rfl
      simp
  have h0 : q.mode = [0, 0, 0] ↔ p.mode = [0, 0, 0] := by
    unfold NoisePlace.mode
    simp only [List.cons.injEq, and_true]
    rw [hm.1, hm.2.1, hm.2.2, z _ _ hrp.1, z _ _ hrp.2.1, z _ _ hrp.2.2]
  by_cases hz : p.mode = [0, 0, 0]
  · rw [if_pos hz, if_pos (h0.2 hz)]
    simp
  · rw [if_neg hz, if_neg fun e => hz (h0.1 e)]
    have hg := noiseGen_plain unitary (N0 := N) (N1 := N) (N2 := M) (by omega) hp.inside hp.proper
    have hg' := noiseGen_plain unitary (N0 := N) (N1 := N) (N2 := M) (by omega) hq.inside hq.proper
    have e : ∀ n i j : ℕ, i < n → j = (n - i) % n → ((i : ℤ) + (j : ℤ)) % (n : ℤ) = 0 := by
      intro n i j hi hj
      subst hj
      by_cases h0 : i = 0
      · subst h0; simp
      · rw [Nat.mod_eq_of_lt (by omega)]
        have : ((i : ℤ) + ((n - i : ℕ) : ℤ)) = n := by omega
        rw [this, Int.emod_self]
    have := C39_hermitian s polarIdeal rnd seed (g := p.gen N M unitary) (g' := q.gen N M unitary) ⟨rfl, rfl⟩ hg hg' (p.gen_mirrored hp unitary)
      (q.gen_mirrored hq unitary) rfl (by rw [(p.gen_mesh N M unitary).2.2]; omega) p.mem q.mem (p.gen_stores hp unitary) (q.gen_stores hq unitary)
      (by rw [(p.gen_mesh N M unitary).1]; exact e _ _ _ hrp.1 hm.1) (by rw [(p.gen_mesh N M unitary).2.1]; exact e _ _ _ hrp.2.1 hm.2.1)
      (by rw [(p.gen_mesh N M unitary).2.2]; exact e _ _ _ hrp.2.2 hm.2.2)
    exact ⟨this.1, this.2.1⟩

end

/-! ### halves of the modes -/

section
variable {nmesh : List ℕ}

open Classical in
/-- One of each pair of opposite modes. -/
noncomputable def halfModes (nmesh : List ℕ) : Finset (List ℕ) := (ndindex nmesh).toFinset.filter fun k => k ≤ opposite nmesh k

theorem mem_halfModes {k : List ℕ} : k ∈ halfModes nmesh ↔ ValidIndex nmesh k ∧ k ≤ opposite nmesh k := by
  unfold halfModes
  rw [Finset.mem_filter, List.mem_toFinset, mem_ndindex]

open Classical in
/-- How many modes it stands for. -/
noncomputable def pairSize (nmesh k : List ℕ) : ℝ := if k = opposite nmesh k then 1 else 2

theorem sum_half {h : List ℕ → ℝ} (hh : ∀ k, ValidIndex nmesh k → h (opposite nmesh k) = h k) :
    ((ndindex nmesh).map h).sum = ∑ k ∈ halfModes nmesh, pairSize nmesh k * h k := by
  classical
  have e : ((ndindex nmesh).map h).sum = ∑ k ∈ (ndindex nmesh).toFinset, h k := (List.sum_toFinset h (ndindex_nodup nmesh)).symm
  rw [e, ← Finset.sum_filter_add_sum_filter_not (ndindex nmesh).toFinset (fun k => k ≤ opposite nmesh k)]
  have e2 : ∑ k ∈ (ndindex nmesh).toFinset.filter (fun k => ¬ k ≤ opposite nmesh k), h k =
      ∑ k ∈ (ndindex nmesh).toFinset.filter (fun k => k ≤ opposite nmesh k ∧ k ≠ opposite nmesh k), h k := by
    refine Finset.sum_bij' (fun k _ => opposite nmesh k) (fun k _ => opposite nmesh k) ?_ ?_ ?_ ?_ ?_
    · intro k hk
      simp only [Finset.mem_filter, List.mem_toFinset, mem_ndindex, not_le] at hk ⊢
      rw [opposite_opposite hk.1]
      exact ⟨opposite_valid hk.1, hk.2.le, hk.2.ne⟩
    · intro k hk
      simp only [Finset.mem_filter, List.mem_toFinset, mem_ndindex, not_le] at hk ⊢
      rw [opposite_opposite hk.1]
      exact ⟨opposite_valid hk.1, lt_of_le_of_ne hk.2.1 hk.2.2⟩
    · intro k hk
      simp only [Finset.mem_filter, List.mem_toFinset, mem_ndindex] at hk
      exact opposite_opposite hk.1
    · intro k hk
      simp only [Finset.mem_filter, List.mem_toFinset, mem_ndindex] at hk
      exact opposite_opposite hk.1
    · intro k hk
      simp only [Finset.mem_filter, List.mem_toFinset, mem_ndindex] at hk
      exact (hh k hk.1).symm
  rw [e2]
  unfold halfModes
  have e3 : ∑ k ∈ (ndindex nmesh).toFinset.filter (fun k => k ≤ opposite nmesh k ∧ k ≠ opposite nmesh k), h k =
      ∑ k ∈ (ndindex nmesh).toFinset.filter (fun k => k ≤ opposite nmesh k), if k = opposite nmesh k then 0 else h k := by
    rw [← Finset.filter_filter, Finset.sum_filter]
    apply Finset.sum_congr rfl
    intro k _
    by_cases hk : k = opposite nmesh k
    · rw [if_pos hk, if_neg (fun h => h hk)]
    · rw [if_neg hk, if_pos hk]
  rw [e3, ← Finset.sum_add_distrib]
  apply Finset.sum_congr rfl
  intro k _
  unfold pairSize
  split_ifs <;> ring

end

/-! ### single modes -/

section
variable {σ Ω : Type} [MeasurableSpace Ω] {P : Measure Ω} {r : Ω → Rng σ ℝ} {rnd : ℝ → ℝ} {N M seed : ℕ} {col : ℕ → ℕ}

theorem noiseAt_self (s : Rng σ ℝ) {p : NoisePlace} (hp : p.OK N M) (hN : 2 ≤ N) (hM : 2 ≤ M) (heM : M % 2 = 0)
    {box : Fin 3 → ℝ} (hb : ∀ d, 0 < box d) (mean : ℝ) (h : p.mode = opposite [N, N, M] p.mode) :
    noiseAt s rnd N M box seed false mean p = ((noiseAt s rnd N M box seed false mean p).1, 0) := by
  have := (noiseAt_opp s hp hp hN hM heM (rnd := rnd) (seed := seed) hb false mean h).2
  exact Prod.ext rfl (by simp only; linarith)

theorem noiseAt_zero (s : Rng σ ℝ) {p : NoisePlace} (hp : p.OK N M) (hN : 2 ≤ N) (hM : 2 ≤ M)
    {box : Fin 3 → ℝ} (hb : ∀ d, 0 < box d) (mean : ℝ) (h : p.mode = [0, 0, 0]) :
    noiseAt s rnd N M box seed false mean p = (mean, 0) := by
  rw [noiseAt_fill s hp hN hM hb, if_pos h]

theorem noiseAt_gauss (hI : IdealNumbers P r rnd seed (N * N) col) (hN : 2 ≤ N) (hM : 2 ≤ M) (heN : N % 2 = 0) (heM : M % 2 = 0)
    {box : Fin 3 → ℝ} (hb : ∀ d, 0 < box d) (mean : ℝ) {p : NoisePlace} (hp : p.OK N M) :
    HasGaussianLaw (fun ω => noiseAt (r ω) rnd N M box seed false mean p) P := by
  have := hI.independent.isProbabilityMeasure
  by_cases h0 : p.mode = [0, 0, 0]
  · have e : (fun ω => noiseAt (r ω) rnd N M box seed false mean p) = fun _ => (mean, 0) :=
      funext fun ω => noiseAt_zero (r ω) hp hN hM hb mean h0
    rw [e]
    exact ⟨by rw [Measure.map_const, measure_univ, one_smul]; infer_instance⟩
  · by_cases hs : p.mode = opposite [N, N, M] p.mode
    · have hl := (C103_violated_selfopposite hI hN hM heN hb mean p hp hs h0).1
      have hg : HasGaussianLaw (fun ω => (noiseAt (r ω) rnd N M box seed false mean p).1) P := ⟨by rw [hl]; infer_instance⟩
      have := hg.map_fun (ContinuousLinearMap.inl ℝ ℝ ℝ)
      refine this.congr (Filter.Eventually.of_forall fun ω => ?_)
      exact (noiseAt_self (r ω) hp hN hM heM hb mean hs).symm
    · exact ⟨by rw [C103_law_partial hI hN hM heN hb mean p hp hs]; infer_instance⟩

theorem noiseAt_cov (hI : IdealNumbers P r rnd seed (N * N) col) (hN : 2 ≤ N) (hM : 2 ≤ M) (heN : N % 2 = 0) (heM : M % 2 = 0)
    {box : Fin 3 → ℝ} (hb : ∀ d, 0 < box d) (mean : ℝ) {p : NoisePlace} (hp : p.OK N M) {u v : ℂ}
    (hs : p.mode = opposite [N, N, M] p.mode → u.im = 0 ∧ v.im = 0) :
    cov[fun ω => reMul u (noiseAt (r ω) rnd N M box seed false mean p), fun ω => reMul v (noiseAt (r ω) rnd N M box seed false mean p); P] =
      (if p.mode = [0, 0, 0] then 0 else 1 / 2) * (u.re * v.re + u.im * v.im) ∧
    ∫ ω, reMul u (noiseAt (r ω) rnd N M box seed false mean p) ∂P = if p.mode = [0, 0, 0] then u.re * mean else 0 := by
  have := hI.independent.isProbabilityMeasure
  by_cases h0 : p.mode = [0, 0, 0]
  · have e : ∀ w, (fun ω => reMul w (noiseAt (r ω) rnd N M box seed false mean p)) = fun _ => reMul w (mean, 0) :=
      fun w => funext fun ω => by rw [noiseAt_zero (r ω) hp hN hM hb mean h0]
    rw [e, e, if_pos h0, if_pos h0]
    constructor
    · simp
    · simp [reMul_apply]
  · rw [if_neg h0, if_neg h0]
    by_cases h : p.mode = opposite [N, N, M] p.mode
    · have ha : AEMeasurable (fun ω => (noiseAt (r ω) rnd N M box seed false mean p).1) P :=
        measurable_fst.comp_aemeasurable (noiseAt_aemeasurable hI hN hM heN hb false mean hp)
      have hl := (C103_violated_selfopposite hI hN hM heN hb mean p hp h h0).1
      have e : ∀ w, (fun ω => reMul w (noiseAt (r ω) rnd N M box seed false mean p)) =
          fun ω => reMul w ((noiseAt (r ω) rnd N M box seed false mean p).1, 0) :=
        fun w => funext fun ω => by rw [← noiseAt_self (r ω) hp hN hM heM hb mean h]
      have hc := real_cov ha hl u v
      rw [e, e, hc.1, hc.2, (hs h).1]
      simp
    · exact pair_cov (noiseAt_aemeasurable hI hN hM heN hb false mean hp) (C103_law_partial hI hN hM heN hb mean p hp h) u v

end

/-! ### the field as a combination of independent modes -/

section
variable {N M : ℕ} {cshape : List ℕ} {place : List ℕ → NoisePlace}

open Classical in
/-- The one of a mode and its opposite that is stored. -/
noncomputable def storedOne (nmesh cshape k : List ℕ) : List ℕ := if ValidIndex cshape k then k else opposite nmesh k

theorem storedOne_valid (hL : NoiseLayout N M cshape place) {k : List ℕ} (hk : ValidIndex [N, N, M] k) :
    ValidIndex cshape (storedOne [N, N, M] cshape k) := by
  unfold storedOne
  split_ifs with h
  · exact h
  · exact opposite_stored hL.stored (by simp) hk h

theorem storedOne_cases {nmesh : List ℕ} (k : List ℕ) : storedOne nmesh cshape k = k ∨ storedOne nmesh cshape k = opposite nmesh k := by
  unfold storedOne
  split_ifs
  · exact .inl rfl
  · exact .inr rfl

/-- Coefficient of the modes. -/
noncomputable def modeCoef (nmesh cshape : List ℕ) (T : List ℕ → ℂ) (x k : List ℕ) : ℂ :=
  pairSize nmesh k * (T (storedOne nmesh cshape k) * phase nmesh (storedOne nmesh cshape k) x)

theorem randomField_combine {σ : Type} (s : Rng σ ℝ) (rnd : ℝ → ℝ) (seed : ℕ) (hL : NoiseLayout N M cshape place) (hN : 2 ≤ N) (hM : 2 ≤ M)
    (heM : M % 2 = 0) {box : Fin 3 → ℝ} (hb : ∀ d, 0 < box d) (mean : ℝ) {T : List ℕ → ℂ} (hT : HermitianTransfer [N, N, M] T) (x : List ℕ) :
    randomField s rnd N M cshape box seed mean place T x =
      ∑ k : halfModes [N, N, M], reMul (modeCoef [N, N, M] cshape T x k)
        (noiseAt s rnd N M box seed false mean (place (storedOne [N, N, M] cshape k))) := by
  set F : List ℕ → ℂ := fun k => T k * ⟨(noiseAt s rnd N M box seed false mean (place k)).1, (noiseAt s rnd N M box seed false mean (place k)).2⟩ with hF
  have hpos : ∀ n ∈ [N, N, M], 0 < n := by
    intro n hn
    simp at hn
    omega
  have hH : ∀ k, ValidIndex cshape k → ValidIndex cshape (opposite [N, N, M] k) → F (opposite [N, N, M] k) = (starRingEnd ℂ) (F k) := by
    intro k hk hk'
    have ho := noiseAt_opp s (rnd := rnd) (seed := seed) (hL.ok k hk) (hL.ok _ hk') hN hM heM hb false mean (by rw [hL.mode k hk, hL.mode _ hk'])
    simp only [hF]
    rw [map_mul, hT k (stored_valid hL.stored (by simp) hpos hk), ho.1, ho.2]
    congr 1
  have hD : ∀ k, ValidIndex [N, N, M] k → decompress [N, N, M] cshape F (opposite [N, N, M] k) = (starRingEnd ℂ) (decompress [N, N, M] cshape F k) := by
    intro k hk
    rw [decompress_stored hL.stored (by simp) (opposite_valid hk), decompress_stored hL.stored (by simp) hk, opposite_opposite hk]
    by_cases h1 : ValidIndex cshape k <;> by_cases h2 : ValidIndex cshape (opposite [N, N, M] k)
    · rw [if_pos h1, if_pos h2, hH k h1 h2]
    · rw [if_pos h1, if_neg h2]
    · rw [if_neg h1, if_pos h2, Complex.conj_conj]
    · exact absurd (opposite_stored hL.stored (by simp) hk h1) h2
  have hh : ∀ k, ValidIndex [N, N, M] k → (decompress [N, N, M] cshape F (opposite [N, N, M] k) * phase [N, N, M] (opposite [N, N, M] k) x).re =
      (decompress [N, N, M] cshape F k * phase [N, N, M] k x).re := by
    intro k hk
    rw [hD k hk, phase_opposite hk, ← map_mul, Complex.conj_re]
  have e : randomField s rnd N M cshape box seed mean place T x =
      ((ndindex [N, N, M]).map fun k => (decompress [N, N, M] cshape F k * phase [N, N, M] k x).re).sum := by
    unfold randomField c2r
    rw [dftBackward_eq]
    have : ∀ l : List (List ℕ), ((l.map fun k => decompress [N, N, M] cshape F k * phase [N, N, M] k x).sum).re =
        (l.map fun k => (decompress [N, N, M] cshape F k * phase [N, N, M] k x).re).sum := by
      intro l
      induction l with
      | nil => simp
      | cons a l ih => simp only [List.map_cons, List.sum_cons, Complex.add_re, ih]
    exact this _
  rw [e, sum_half hh, ← Finset.sum_coe_sort]
  apply Finset.sum_congr rfl
  rintro ⟨k, hk⟩ _
  have hkv := (mem_halfModes.1 hk).1
  have hst := storedOne_valid hL hkv
  have e1 : (decompress [N, N, M] cshape F k * phase [N, N, M] k x).re =
      (F (storedOne [N, N, M] cshape k) * phase [N, N, M] (storedOne [N, N, M] cshape k) x).re := by
    have e2 : ∀ k', ValidIndex [N, N, M] k' → ValidIndex cshape k' → decompress [N, N, M] cshape F k' = F k' := by
      intro k' h h'
      rw [decompress_stored hL.stored (by simp) h, if_pos h']
    rcases storedOne_cases (cshape := cshape) (nmesh := [N, N, M]) k with h | h
    · rw [h] at hst ⊢
      rw [e2 k hkv hst]
    · rw [h] at hst ⊢
      rw [← hh k hkv, e2 _ (opposite_valid hkv) hst]
  simp only
  rw [e1, reMul_apply]
  unfold modeCoef
  simp only [hF, Complex.mul_re, Complex.mul_im, Complex.ofReal_re, Complex.ofReal_im]
  ring

theorem halfModes_apart (hL : NoiseLayout N M cshape place) {a b : halfModes [N, N, M]} (hab : a ≠ b) :
    (place (storedOne [N, N, M] cshape a)).mode ≠ (place (storedOne [N, N, M] cshape b)).mode ∧
    (place (storedOne [N, N, M] cshape a)).mode ≠ opposite [N, N, M] (place (storedOne [N, N, M] cshape b)).mode := by
  obtain ⟨a, ha⟩ := a
  obtain ⟨b, hb⟩ := b
  rw [mem_halfModes] at ha hb
  have hne : a ≠ b := fun e => hab (Subtype.ext e)
  have hne' : a ≠ opposite [N, N, M] b := by
    intro e
    apply hne
    have h1 := ha.2
    rw [e, opposite_opposite hb.1] at h1
    rw [e]
    exact le_antisymm h1 hb.2
  have hne2 : opposite [N, N, M] a ≠ b := fun e => hne' (by rw [← e, opposite_opposite ha.1])
  have hne3 : opposite [N, N, M] a ≠ opposite [N, N, M] b := fun e => hne (by rw [← opposite_opposite ha.1, e, opposite_opposite hb.1])
  simp only
  rw [hL.mode _ (storedOne_valid hL ha.1), hL.mode _ (storedOne_valid hL hb.1)]
  rcases storedOne_cases (cshape := cshape) (nmesh := [N, N, M]) a with h | h <;>
    rcases storedOne_cases (cshape := cshape) (nmesh := [N, N, M]) b with h' | h' <;> rw [h, h']
  · exact ⟨hne, hne'⟩
  · rw [opposite_opposite hb.1]; exact ⟨hne', hne⟩
  · exact ⟨hne2, hne3⟩
  · rw [opposite_opposite hb.1]; exact ⟨hne3, hne2⟩

end

end Pmesh
