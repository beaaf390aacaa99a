import Verif.Lemmas.NoiseLaw

/-!
# C103: white noise is white

For an ideal random generator (`IdealNumbers`) the modes of white noise are independent.  Real and imaginary part of a mode that is not its own opposite are
independent and normal with variance one half, so its expected power is one.  A mode that is its own opposite has an expected power of one half only.
-/

namespace Pmesh

open MeasureTheory ProbabilityTheory Measure

section
variable {Ω σ : Type} [MeasurableSpace Ω] {P : Measure Ω} {r : Ω → Rng σ ℝ} {rnd : ℝ → ℝ} {N M seed : ℕ} {col : ℕ → ℕ}

theorem pair_measurable (hI : IdealNumbers P r rnd seed (N * N) col) {k : ℕ} (hk : k < N * N) (m m' : ℕ) :
    Measurable fun ω => ((r ω).uniform (col k) m, (r ω).uniform (col k) m') :=
  (hI.measurable k hk m).prodMk (hI.measurable k hk m')

theorem pair_law (hI : IdealNumbers P r rnd seed (N * N) col) {k : ℕ} (hk : k < N * N) {m m' : ℕ} (hm : m ≠ m') :
    P.map (fun ω => ((r ω).uniform (col k) m, (r ω).uniform (col k) m')) = unif.prod unif := by
  have := hI.independent.isProbabilityMeasure
  have h := hI.independent.indepFun (i := (⟨k, hk⟩, m)) (j := (⟨k, hk⟩, m')) (fun e => hm (Prod.mk.inj e).2)
  have h2 := (indepFun_iff_map_prod_eq_prod_map_map (hI.measurable k hk m).aemeasurable (hI.measurable k hk m').aemeasurable).1 h
  rw [hI.uniform k hk, hI.uniform k hk] at h2
  exact h2

theorem noiseAt_aemeasurable (hI : IdealNumbers P r rnd seed (N * N) col) (hN : 2 ≤ N) (hM : 2 ≤ M) (heN : N % 2 = 0) {box : Fin 3 → ℝ}
    (hb : ∀ d, 0 < box d) (unitary : Bool) (mean : ℝ) {p : NoisePlace} (hp : p.OK N M) :
    AEMeasurable (fun ω => noiseAt (r ω) rnd N M box seed unitary mean p) P :=
  ⟨_, (p.value_measurable unitary mean).comp (pair_measurable hI (p.key_lt hp heN) _ _), noiseAt_ae hI hN hM heN hb unitary mean hp⟩

/-- **C103**, independence (partial: the mesh has the same even number of cells in the first two axes and an even number in the last).  The values of any modes,
on whatever ranks, of which no two are equal or opposite, are independent; with and without the option `unitary`. -/
theorem C103_independent_partial (hI : IdealNumbers P r rnd seed (N * N) col) (hN : 2 ≤ N) (hM : 2 ≤ M) (heN : N % 2 = 0) (heM : M % 2 = 0)
    {box : Fin 3 → ℝ} (hb : ∀ d, 0 < box d) (unitary : Bool) (mean : ℝ) {ι : Type} (p : ι → NoisePlace) (hp : ∀ a, (p a).OK N M)
    (hd : ∀ a b, a ≠ b → (p a).mode ≠ (p b).mode ∧ (p a).mode ≠ opposite [N, N, M] (p b).mode) :
    iIndepFun (fun a ω => noiseAt (r ω) rnd N M box seed unitary mean (p a)) P := by
  let key : ι → Fin (N * N) × ℕ := fun a => (⟨((p a).key N M).1, (p a).key_lt (hp a) heN⟩, ((p a).key N M).2)
  have hkey : Function.Injective key := by
    intro a b h
    by_contra hab
    simp only [key, Prod.mk.injEq, Fin.mk.injEq] at h
    rcases NoisePlace.key_inj (hp a) (hp b) heN heM (Prod.ext h.1 h.2) with e | e
    · exact (hd a b hab).1 e
    · exact (hd a b hab).2 e
  have h1 := pairs_indep hI.independent (fun x => hI.measurable x.1 x.1.2 x.2) key hkey
  have h2 := h1.comp (fun a => (p a).value N M unitary mean) fun a => (p a).value_measurable unitary mean
  exact h2.congr fun a => (noiseAt_ae hI hN hM heN hb unitary mean (hp a)).symm

theorem opposite_oppI {p : NoisePlace} (hp : p.OK N M) (u : Bool) : p.mode = opposite [N, N, M] p.mode ↔
    ((p.start 0 + p.index 0 : ℕ) : ℤ) = oppI ((p.gen N M u).nmesh 0) (p.start 0 + p.index 0 : ℕ) ∧
      ((p.start 1 + p.index 1 : ℕ) : ℤ) = oppI ((p.gen N M u).nmesh 1) (p.start 1 + p.index 1 : ℕ) ∧
      ((p.start 2 + p.index 2 : ℕ) : ℤ) = oppI ((p.gen N M u).nmesh 2) (p.start 2 + p.index 2 : ℕ) := by
  have hr := p.ranges hp
  have hg := p.gen_mesh N M u
  have mo : ∀ n i : ℕ, i < n → ((n - i) % n : ℕ) = oppI n i := by
    intro n i hi
    unfold oppI
    split_ifs with h
    · have : i = 0 := by omega
      subst this
      simp
    · rw [Nat.mod_eq_of_lt (by omega)]
      omega
  rw [hg.1, hg.2.1, hg.2.2, ← mo _ _ hr.1, ← mo _ _ hr.2.1, ← mo _ _ hr.2.2, Nat.cast_inj, Nat.cast_inj, Nat.cast_inj]
  unfold NoisePlace.mode opposite
  simp only [List.zipWith_cons_cons, List.zipWith_nil_left, List.cons.injEq, and_true]

theorem NoisePlace.value_pair {p : NoisePlace} (hp : p.OK N M) (h : p.mode ≠ opposite [N, N, M] p.mode) (unitary : Bool) (mean : ℝ) :
    (∀ x, p.value N M unitary mean x = polarIdeal unitary x.1 x.2) ∨
      ∀ x, p.value N M unitary mean x = ((polarIdeal unitary x.1 x.2).1, -(polarIdeal unitary x.1 x.2).2) := by
  have hr := p.ranges hp
  have hg := p.gen_mesh N M unitary
  have h0 : p.mode ≠ [0, 0, 0] := by
    intro e
    apply h
    rw [e]
    simp [opposite]
  unfold NoisePlace.value
  simp only [h0, if_false]
  exact noiseOf_pair polarIdeal (g := p.gen N M unitary) (by rw [hg.1]; omega) (by rw [hg.2.1]; omega) (by rw [hg.2.2]; omega)
    fun e => h ((opposite_oppI hp unitary).2 e)

theorem NoisePlace.value_self {p : NoisePlace} (hp : p.OK N M) (h : p.mode = opposite [N, N, M] p.mode) (h0 : p.mode ≠ [0, 0, 0]) (unitary : Bool)
    (mean : ℝ) (x : ℝ × ℝ) : p.value N M unitary mean x = (if unitary then 1 else (polarIdeal unitary x.1 x.2).1, 0) := by
  have hr := p.ranges hp
  have hg := p.gen_mesh N M unitary
  unfold NoisePlace.value
  simp only [h0, if_false]
  refine noiseOf_self polarIdeal (g := p.gen N M unitary) (by rw [hg.1]; omega) (by rw [hg.2.1]; omega) (by rw [hg.2.2]; omega)
    ((opposite_oppI hp unitary).1 h) (fun e => h0 ?_) x
  unfold NoisePlace.mode
  simp only [List.cons.injEq, and_true]
  omega

theorem gauss_conj : ((gaussianReal 0 (1 / 2)).prod (gaussianReal 0 (1 / 2))).map (fun z : ℝ × ℝ => (z.1, -z.2)) =
    (gaussianReal 0 (1 / 2)).prod (gaussianReal 0 (1 / 2)) := by
  have h := map_prod_map (gaussianReal 0 (1 / 2)) (gaussianReal 0 (1 / 2)) (f := id) (g := fun x : ℝ => -x) measurable_id measurable_neg
  rw [gaussianReal_map_neg, map_id, neg_zero] at h
  exact h.symm

/-- **C103**, the distribution (partial: even meshes, modes that are not their own opposite).  Real and imaginary part of a mode are independent and normal with
mean zero and variance one half. -/
theorem C103_law_partial (hI : IdealNumbers P r rnd seed (N * N) col) (hN : 2 ≤ N) (hM : 2 ≤ M) (heN : N % 2 = 0) {box : Fin 3 → ℝ}
    (hb : ∀ d, 0 < box d) (mean : ℝ) (p : NoisePlace) (hp : p.OK N M) (h : p.mode ≠ opposite [N, N, M] p.mode) :
    P.map (fun ω => noiseAt (r ω) rnd N M box seed false mean p) = (gaussianReal 0 (1 / 2)).prod (gaussianReal 0 (1 / 2)) := by
  have hk := p.key_lt hp heN
  have hm := pair_measurable hI hk (2 * (p.key N M).2 + 1) (2 * (p.key N M).2)
  rw [Measure.map_congr (noiseAt_ae hI hN hM heN hb false mean hp)]
  have e := Measure.map_map (μ := P) (p.value_measurable (N := N) (M := M) false mean) hm
  rw [Function.comp_def] at e
  rw [← e, pair_law hI hk (by omega)]
  have hpol : ∀ x : ℝ × ℝ, polarIdeal false x.1 x.2 = boxMuller x := by
    intro x
    unfold polarIdeal boxMuller
    simp
  rcases p.value_pair hp h false mean with hv | hv
  · have : p.value N M false mean = boxMuller := funext fun x => (hv x).trans (hpol x)
    rw [this, boxMuller_law]
  · have : p.value N M false mean = (fun z : ℝ × ℝ => (z.1, -z.2)) ∘ boxMuller := funext fun x => by
      rw [hv x, hpol x]
      rfl
    rw [this, ← Measure.map_map (by fun_prop) measurable_boxMuller, boxMuller_law, gauss_conj]

theorem gauss_power {X : Ω → ℝ} (hX : AEMeasurable X P) (h : P.map X = gaussianReal 0 (1 / 2)) :
    Integrable (fun ω => X ω ^ 2) P ∧ ∫ ω, X ω ^ 2 ∂P = 1 / 2 ∧ ∫ ω, X ω ∂P = 0 := by
  have h2 : Integrable (fun x : ℝ => x ^ 2) (gaussianReal 0 (1 / 2)) := (memLp_id_gaussianReal 2).integrable_sq
  refine ⟨?_, ?_, ?_⟩
  · rw [← h] at h2
    exact h2.comp_aemeasurable hX
  · have := integral_map hX (f := fun x : ℝ => x ^ 2) (by fun_prop)
    rw [h] at this
    rw [← this]
    have hv := variance_id_gaussianReal (μ := 0) (v := 1 / 2)
    rw [variance_of_integral_eq_zero (by fun_prop) (by simp)] at hv
    simp only [id] at hv
    rw [hv]
    norm_num
  · have := integral_map hX (f := fun x : ℝ => x) (by fun_prop)
    rw [h, integral_id_gaussianReal] at this
    exact this.symm

/-- **C103**, the power (partial: even meshes, modes that are not their own opposite): the mean of a mode is zero and its expected power is one. -/
theorem C103_power_partial (hI : IdealNumbers P r rnd seed (N * N) col) (hN : 2 ≤ N) (hM : 2 ≤ M) (heN : N % 2 = 0) {box : Fin 3 → ℝ}
    (hb : ∀ d, 0 < box d) (mean : ℝ) (p : NoisePlace) (hp : p.OK N M) (h : p.mode ≠ opposite [N, N, M] p.mode) :
    ∫ ω, (noiseAt (r ω) rnd N M box seed false mean p).1 ∂P = 0 ∧ ∫ ω, (noiseAt (r ω) rnd N M box seed false mean p).2 ∂P = 0 ∧
    ∫ ω, ((noiseAt (r ω) rnd N M box seed false mean p).1 ^ 2 + (noiseAt (r ω) rnd N M box seed false mean p).2 ^ 2) ∂P = 1 := by
  have hl := C103_law_partial hI hN hM heN hb mean p hp h
  have ha := noiseAt_aemeasurable hI hN hM heN hb false mean hp
  have h1 : P.map (fun ω => (noiseAt (r ω) rnd N M box seed false mean p).1) = gaussianReal 0 (1 / 2) := by
    have := AEMeasurable.map_map_of_aemeasurable (μ := P) (g := Prod.fst) (measurable_fst.aemeasurable) ha
    rw [hl] at this
    have e := this.symm
    rw [map_fst_prod, measure_univ, one_smul] at e
    exact e
  have h2 : P.map (fun ω => (noiseAt (r ω) rnd N M box seed false mean p).2) = gaussianReal 0 (1 / 2) := by
    have := AEMeasurable.map_map_of_aemeasurable (μ := P) (g := Prod.snd) (measurable_snd.aemeasurable) ha
    rw [hl] at this
    have e := this.symm
    rw [map_snd_prod, measure_univ, one_smul] at e
    exact e
  obtain ⟨i1, p1, m1⟩ := gauss_power (measurable_fst.comp_aemeasurable ha) h1
  obtain ⟨i2, p2, m2⟩ := gauss_power (measurable_snd.comp_aemeasurable ha) h2
  refine ⟨m1, m2, ?_⟩
  have := integral_add i1 i2
  simp only [Function.comp_apply] at this p1 p2
  rw [p1, p2] at this
  rw [this]
  norm_num

/-- **C103 violated** for the modes that are their own opposite (seven of them besides the mean, in three dimensions): they are real with variance one half, so
their expected power is one half and not one. -/
theorem C103_violated_selfopposite (hI : IdealNumbers P r rnd seed (N * N) col) (hN : 2 ≤ N) (hM : 2 ≤ M) (heN : N % 2 = 0) {box : Fin 3 → ℝ}
    (hb : ∀ d, 0 < box d) (mean : ℝ) (p : NoisePlace) (hp : p.OK N M) (h : p.mode = opposite [N, N, M] p.mode) (h0 : p.mode ≠ [0, 0, 0]) :
    P.map (fun ω => (noiseAt (r ω) rnd N M box seed false mean p).1) = gaussianReal 0 (1 / 2) ∧
    ∫ ω, ((noiseAt (r ω) rnd N M box seed false mean p).1 ^ 2 + (noiseAt (r ω) rnd N M box seed false mean p).2 ^ 2) ∂P = 1 / 2 := by
  have hk := p.key_lt hp heN
  have hm := pair_measurable hI hk (2 * (p.key N M).2 + 1) (2 * (p.key N M).2)
  have hae := noiseAt_ae hI hN hM heN hb false mean hp
  have ha := noiseAt_aemeasurable hI hN hM heN hb false mean hp
  have hv : ∀ x : ℝ × ℝ, p.value N M false mean x = ((boxMuller x).1, 0) := by
    intro x
    rw [p.value_self hp h h0 false mean x]
    unfold polarIdeal boxMuller
    simp
  have h1 : P.map (fun ω => (noiseAt (r ω) rnd N M box seed false mean p).1) = gaussianReal 0 (1 / 2) := by
    have hae1 : (fun ω => (noiseAt (r ω) rnd N M box seed false mean p).1) =ᵐ[P] fun ω => (boxMuller
        ((r ω).uniform (col (p.key N M).1) (2 * (p.key N M).2 + 1), (r ω).uniform (col (p.key N M).1) (2 * (p.key N M).2))).1 := by
      filter_upwards [hae] with ω hω
      rw [hω, hv]
    rw [Measure.map_congr hae1]
    have e := Measure.map_map (μ := P) (measurable_fst.comp measurable_boxMuller) hm
    rw [Function.comp_def (Prod.fst ∘ boxMuller)] at e
    simp only [Function.comp_apply] at e
    rw [← e, pair_law hI hk (by omega), ← Measure.map_map measurable_fst measurable_boxMuller, boxMuller_law, map_fst_prod, measure_univ, one_smul]
  refine ⟨h1, ?_⟩
  obtain ⟨_, p1, _⟩ := gauss_power (measurable_fst.comp_aemeasurable ha) h1
  rw [← p1]
  refine integral_congr_ae ?_
  filter_upwards [hae] with ω hω
  simp only [Function.comp_apply]
  rw [hω, hv]
  ring

theorem unif_flip : unif.map (fun t : ℝ => 1 - t) = unif := by
  unfold unif
  have h := (measurePreserving_sub_left (volume : Measure ℝ) 1).restrict_preimage (s := Set.Ioo 0 1) measurableSet_Ioo
  have e : (fun t : ℝ => 1 - t) ⁻¹' Set.Ioo 0 1 = Set.Ioo 0 1 := by
    ext t
    simp only [Set.mem_preimage, Set.mem_Ioo]
    constructor <;> rintro ⟨a, b⟩ <;> constructor <;> linarith
  rw [e] at h
  exact h.map_eq

/-- **C103**, unitary noise (partial: even meshes, modes that are not their own opposite): the mode is on the unit circle and its phase is uniformly distributed. -/
theorem C103_unitary_partial (hI : IdealNumbers P r rnd seed (N * N) col) (hN : 2 ≤ N) (hM : 2 ≤ M) (heN : N % 2 = 0) {box : Fin 3 → ℝ}
    (hb : ∀ d, 0 < box d) (mean : ℝ) (p : NoisePlace) (hp : p.OK N M) (h : p.mode ≠ opposite [N, N, M] p.mode) :
    P.map (fun ω => noiseAt (r ω) rnd N M box seed true mean p) =
      unif.map fun t => (Real.cos (2 * Real.pi * t), Real.sin (2 * Real.pi * t)) := by
  have hk := p.key_lt hp heN
  have hm := pair_measurable hI hk (2 * (p.key N M).2 + 1) (2 * (p.key N M).2)
  rw [Measure.map_congr (noiseAt_ae hI hN hM heN hb true mean hp)]
  have e := Measure.map_map (μ := P) (p.value_measurable (N := N) (M := M) true mean) hm
  rw [Function.comp_def] at e
  rw [← e, pair_law hI hk (by omega)]
  have hpol : ∀ x : ℝ × ℝ, polarIdeal true x.1 x.2 = (Real.cos (2 * Real.pi * x.2), Real.sin (2 * Real.pi * x.2)) := by
    intro x
    unfold polarIdeal
    simp only [if_true, one_mul]
    rw [show x.2 * 2 * Real.pi = 2 * Real.pi * x.2 by ring]
  have hfm : Measurable fun t : ℝ => (Real.cos (2 * Real.pi * t), Real.sin (2 * Real.pi * t)) := by fun_prop
  have hsnd : (unif.prod unif).map Prod.snd = unif := by
    rw [map_snd_prod, measure_univ, one_smul]
  rcases p.value_pair hp h true mean with hv | hv
  · have : p.value N M true mean = (fun t : ℝ => (Real.cos (2 * Real.pi * t), Real.sin (2 * Real.pi * t))) ∘ Prod.snd :=
      funext fun x => (hv x).trans (hpol x)
    rw [this, ← Measure.map_map hfm measurable_snd, hsnd]
  · have : p.value N M true mean = (fun t : ℝ => (Real.cos (2 * Real.pi * t), Real.sin (2 * Real.pi * t))) ∘ (fun t => 1 - t) ∘ Prod.snd :=
      funext fun x => by
        rw [hv x, hpol x]
        simp only [Function.comp_apply, mul_sub, mul_one, Real.cos_two_pi_sub, Real.sin_two_pi_sub]
    rw [this, ← Measure.map_map hfm (by fun_prop), ← Measure.map_map (by fun_prop) measurable_snd, hsnd, unif_flip]

end

/-! ## Too many columns -/

section
variable {σ R : Type} (r : Rng σ) [Ring R] (polar : Bool → ℚ → ℚ → R × R) (rnd : ℚ → ℚ)

/-- **C41 violated** on every large mesh: the seeds of the columns have 31 bits, so if there are more than `2³¹` columns two of them have the same seed, whatever
the generator and the seed of the field, and the values of their modes are equal. -/
theorem C41_violated_large (hu : ∀ s, 0 ≤ (r.next s).1 ∧ (r.next s).1 < 1)
    (hrnd : ∀ x, 0 ≤ x → x < 2147483647 → rnd x ≤ 2147483647) (seed N : ℕ) (heven : N % 2 = 0) (hN : 2147483648 < N * N) :
    ∃ i j i' j' : ℤ, (0 ≤ i ∧ i < N ∧ 0 ≤ j ∧ j < N) ∧ (0 ≤ i' ∧ i' < N ∧ 0 ≤ j' ∧ j' < N) ∧ ¬(i = i' ∧ j = j') ∧
      ∀ g g' : NoiseGen, g.SameField g' → g.nmesh 0 = N → g.nmesh 1 = N → g.Plain → g.Mirrored → g'.Plain → g'.Mirrored →
        ∀ k, 0 < k → 2 * k + 1 < g.nmesh 2 → g.Stores i j k → g'.Stores i' j' k → ∀ mem mem' : ℤ → R × R,
          genericFill r polar rnd g seed mem (noiseAddr g i j k) = genericFill r polar rnd g' seed mem' (noiseAddr g' i' j' k) := by
  let f : Fin N × Fin N → Fin 2147483648 := fun c => ⟨noiseSeed r rnd N seed (c.1, c.2), by
    unfold noiseSeed toSeed
    have h1 := hu ((fun s => (r.next s).2)^[drawOf N (c.1, c.2)] (r.set seed))
    have h2 : r.uniform seed (drawOf N (c.1, c.2)) = (r.next ((fun s => (r.next s).2)^[drawOf N (c.1, c.2)] (r.set seed))).1 := rfl
    rw [← h2] at h1
    have h3 := hrnd (2147483647 * r.uniform seed (drawOf N (c.1, c.2))) (by linarith [h1.1]) (by linarith [h1.2])
    have h4 : ⌊rnd (2147483647 * r.uniform seed (drawOf N (c.1, c.2)))⌋ ≤ ⌊(2147483647 : ℚ)⌋ := Int.floor_le_floor h3
    have h5 : ⌊(2147483647 : ℚ)⌋ = 2147483647 := by
      rw [show (2147483647 : ℚ) = ((2147483647 : ℤ) : ℚ) by norm_num, Int.floor_intCast]
    omega⟩
  obtain ⟨⟨i, j⟩, ⟨i', j'⟩, hne, hf⟩ := Fintype.exists_ne_map_eq_of_card_lt f (by simpa using hN)
  simp only [f, Fin.mk.injEq] at hf
  refine ⟨i, j, i', j', by omega, by omega, ?_, ?_⟩
  · rintro ⟨a, b⟩
    exact hne (Prod.ext (Fin.ext (by exact_mod_cast a)) (Fin.ext (by exact_mod_cast b)))
  · intro g g' hs h0 h1 hg hm hg' hm' k hk hk2 hst hst' mem mem'
    have n0 := hs.1
    rw [genericFill_key r polar rnd hg hm h0 h1 (by omega) seed mem hst,
      genericFill_key r polar rnd hg' hm' (N := N) (by rw [← n0]; exact h0) (by rw [← n0]; exact h1) (by omega) seed mem' hst']
    have u : ∀ (g : NoiseGen) (i j : ℤ), 2 * k + 1 < g.nmesh 2 → useConj g i j k = false := by
      intro g i j hk2
      unfold useConj
      rw [Int.tdiv_eq_ediv_of_nonneg (by omega)]
      have a : ¬k = 0 := by omega
      have b : ¬k = g.nmesh 2 / 2 := by omega
      simp [a, b]
    have hle : k ≤ g.nmesh 2 / 2 := by omega
    have hk2' : 2 * k + 1 < g'.nmesh 2 := by rw [← n0]; exact hk2
    have hle' : k ≤ g'.nmesh 2 / 2 := by omega
    unfold noiseOf noiseKey
    simp only [hle, hle', if_true, u g i j hk2, u g' i' j' hk2', Bool.false_eq_true, if_false]
    rw [hf]
    unfold modeValue
    have e : ∀ g : NoiseGen, 2 * k + 1 < g.nmesh 2 → ¬((g.nmesh 2 - k).tmod (g.nmesh 2) = k) := by
      intro g hk2
      rw [conjIndex_self (by omega) (by omega)]
      omega
    have e' : ¬k = 0 := by omega
    simp [e g hk2, e g' hk2', e', hs.2]

end

/-! ## Non-vacuity -/

section
variable {n : ℕ} (seed : ℕ)

/-- A generator that looks its numbers up in a table `ω`. -/
noncomputable def tableRng (seed : ℕ) (ω : Fin n × ℕ → ℝ) : Rng (ℕ × ℕ) ℝ where
  set s := (s, 0)
  next := fun s => (if s.1 = seed then ((s.2 : ℝ) + 1 / 2) / 2147483647 else if h : s.1 < n then ω (⟨s.1, h⟩, s.2) else 0, (s.1, s.2 + 1))

theorem tableRng_uniform (ω : Fin n × ℕ → ℝ) (s m : ℕ) : (tableRng seed ω).uniform s m =
    if s = seed then ((m : ℝ) + 1 / 2) / 2147483647 else if h : s < n then ω (⟨s, h⟩, m) else 0 := by
  have it : ∀ m, (fun t => ((tableRng seed ω).next t).2)^[m] ((tableRng seed ω).set s) = (s, m) := by
    intro m
    induction m with
    | zero => rfl
    | succ m ih => rw [Function.iterate_succ_apply', ih]; rfl
  unfold Rng.uniform
  rw [it]
  rfl

/-- Such generators with random tables are ideal. -/
theorem ideal_exists (hs : n ≤ seed) :
    IdealNumbers (infinitePi fun _ : Fin n × ℕ => unif) (tableRng seed) id seed n id := by
  have hu : ∀ k < n, ∀ m, (fun ω : Fin n × ℕ → ℝ => (tableRng seed ω).uniform (id k) m) = if h : k < n then fun ω => ω (⟨k, h⟩, m) else fun _ => 0 := by
    intro k hk m
    funext ω
    rw [tableRng_uniform, id, if_neg (by omega), dif_pos hk, dif_pos hk]
  refine ⟨?_, fun _ _ _ _ h => h, ?_, ?_, ?_⟩
  · intro ω k hk
    rw [tableRng_uniform, if_pos rfl]
    unfold toSeed
    simp only [id]
    rw [mul_div_cancel₀ _ (by norm_num)]
    have : ⌊(k : ℝ) + 1 / 2⌋ = k := by
      rw [Int.floor_eq_iff]
      push_cast
      constructor <;> linarith
    rw [this]
    rfl
  · intro k hk m
    rw [hu k hk, dif_pos hk]
    fun_prop
  · intro k hk m
    rw [hu k hk, dif_pos hk]
    exact infinitePi_map_eval _ _
  · have h := iIndepFun_infinitePi (P := fun _ : Fin n × ℕ => unif) (X := fun _ x => x) (fun _ => measurable_id)
    have e : (fun (x : Fin n × ℕ) (ω : Fin n × ℕ → ℝ) => (tableRng seed ω).uniform (id ↑x.1) x.2) = fun x ω => ω x := by
      funext x ω
      have := congrFun (hu x.1 x.1.2 x.2) ω
      rw [dif_pos x.1.2] at this
      exact this
    rw [e]
    exact h

/-- Element `i, j, k` of the only rank of a compressed field. -/
def exPlace (i j k : ℕ) : NoisePlace :=
  ⟨fun _ => 0, fun d => if d = 2 then 3 else 4, fun d => if d = 0 then 12 else if d = 1 then 3 else 1, [0, 1, 2], fun _ => (0, 0), fun d =>
    if d = 0 then i else if d = 1 then j else k⟩

theorem exPlace_ok {i j k : ℕ} (hi : i < 4) (hj : j < 4) (hk : k < 3) : (exPlace i j k).OK 4 4 := by
  have hp : Proper [4, 4, 3] [12, 3, 1] := by
    refine ⟨rfl, fun c c' hc hc' h => ?_⟩
    match c, c', hc, hc' with
    | [a, b, d], [a', b', d'], hc, hc' =>
      simp only [ValidIndex, List.forall₂_cons, List.forall₂_nil_left_iff, and_true] at hc hc'
      simp only [elementAddr, List.zipWith_cons_cons, List.zipWith_nil_left, List.sum_cons, List.sum_nil, add_zero, mul_one] at h
      simp only [List.cons.injEq, and_true]
      omega
  refine ⟨by simp [exPlace], ?_, List.Perm.refl _, ?_, Or.inl (by simp [exPlace])⟩
  · simpa [exPlace] using hp
  · simp [exPlace, hi, hj, hk]

/-- Modes `1, 2, 1` and `3, 0, 0` on 4×4×4 cells are independent; the first has power one. -/
example := C103_independent_partial (ideal_exists 100 (n := 4 * 4) (by norm_num)) (M := 4) (by norm_num) (by norm_num) rfl rfl (box := fun _ => 1)
  (fun _ => one_pos) false 0 (fun b : Bool => if b then exPlace 1 2 1 else exPlace 3 0 0)
  (fun b => by cases b <;> exact exPlace_ok (by norm_num) (by norm_num) (by norm_num))
  (fun a b h => by cases a <;> cases b <;> simp [exPlace, NoisePlace.mode, opposite] at h ⊢)

example := C103_law_partial (ideal_exists 100 (n := 4 * 4) (by norm_num)) (M := 4) (by norm_num) (by norm_num) rfl (box := fun _ => 1)
  (fun _ => one_pos) 0 (exPlace 1 2 1) (exPlace_ok (by norm_num) (by norm_num) (by norm_num)) (by simp [exPlace, NoisePlace.mode, opposite])

example := C103_power_partial (ideal_exists 100 (n := 4 * 4) (by norm_num)) (M := 4) (by norm_num) (by norm_num) rfl (box := fun _ => 1)
  (fun _ => one_pos) 0 (exPlace 1 2 1) (exPlace_ok (by norm_num) (by norm_num) (by norm_num)) (by simp [exPlace, NoisePlace.mode, opposite])

example := C103_unitary_partial (ideal_exists 100 (n := 4 * 4) (by norm_num)) (M := 4) (by norm_num) (by norm_num) rfl (box := fun _ => 1)
  (fun _ => one_pos) 0 (exPlace 1 2 1) (exPlace_ok (by norm_num) (by norm_num) (by norm_num)) (by simp [exPlace, NoisePlace.mode, opposite])

/-- Mode `2, 0, 2` is its own opposite. -/
example := C103_violated_selfopposite (ideal_exists 100 (n := 4 * 4) (by norm_num)) (M := 4) (by norm_num) (by norm_num) rfl (box := fun _ => 1)
  (fun _ => one_pos) 0 (exPlace 2 0 2) (exPlace_ok (by norm_num) (by norm_num) (by norm_num)) (by simp [exPlace, NoisePlace.mode, opposite])
  (by simp [exPlace, NoisePlace.mode])

/-- A generator of constant numbers on a mesh of 46342 cells per side. -/
example := C41_violated_large (σ := Unit) (R := ℚ) ⟨fun _ => (), fun _ => (1 / 2, ())⟩ (fun _ a p => (a, p)) id (fun _ => by norm_num)
  (fun x _ h => h.le) 7 46342 rfl (by norm_num)

end

#print axioms C103_independent_partial
#print axioms C103_law_partial
#print axioms C103_power_partial
#print axioms C103_unitary_partial
#print axioms C103_violated_selfopposite
#print axioms C41_violated_large

end Pmesh
