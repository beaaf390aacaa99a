import Verif.Lemmas.BoxMuller
import Verif.Lemmas.NoiseKey
import Verif.Props.NoiseField
import Mathlib.Probability.Independence.InfinitePi

/-! # Independence of the samples -/

namespace Pmesh

open MeasureTheory ProbabilityTheory Measure

/-- Pairs of independent variables, no variable in two pairs, are independent. -/
theorem pairs_indep {ι κ Ω : Type} [MeasurableSpace Ω] {P : Measure Ω} {X : κ × ℕ → Ω → ℝ} (hX : iIndepFun X P)
    (hm : ∀ x, Measurable (X x)) (key : ι → κ × ℕ) (hk : Function.Injective key) :
    iIndepFun (fun a ω => (X ((key a).1, 2 * (key a).2 + 1) ω, X ((key a).1, 2 * (key a).2) ω)) P := by
  have := hX.isProbabilityMeasure
  let e : ι × Bool → κ × ℕ := fun p => ((key p.1).1, 2 * (key p.1).2 + if p.2 then 1 else 0)
  have he : Function.Injective e := by
    rintro ⟨a, b⟩ ⟨a', b'⟩ h
    simp only [e, Prod.mk.injEq] at h
    have hb : b = b' := by
      cases b <;> cases b' <;> simp at h ⊢ <;> omega
    subst hb
    rw [Prod.mk.injEq]
    exact ⟨hk (Prod.ext h.1 (by omega)), rfl⟩
  have h1 := hX.precomp he
  have h2 := h1.map_fun_eq_infinitePi_map (fun p => hm (e p))
  have hP : ∀ p : ι × Bool, IsProbabilityMeasure (P.map (X (e p))) := fun p => isProbabilityMeasure_map (hm _).aemeasurable
  have h3 : iIndepFun (fun (a : ι) ω (b : Bool) => X (e (a, b)) ω) P := by
    rw [iIndepFun_iff_map_fun_eq_infinitePi_map (fun a => measurable_pi_lambda _ fun b => hm _)]
    have h4 : ∀ a, P.map (fun ω (b : Bool) => X (e (a, b)) ω) = infinitePi fun b => P.map (X (e (a, b))) := fun a =>
      (h1.precomp (Prod.mk_right_injective a)).map_fun_eq_infinitePi_map (fun b => hm _)
    simp only [h4]
    have h5 := infinitePi_map_curry (fun (a : ι) (b : Bool) => P.map (X (e (a, b))))
    rw [← h5, ← h2, map_map (by fun_prop) (measurable_pi_lambda _ fun p => hm _)]
    rfl
  exact h3.comp (fun a f => (f true, f false)) fun a => by fun_prop

section
variable {Ω σ : Type} [MeasurableSpace Ω] {P : Measure Ω} {r : Ω → Rng σ ℝ} {rnd : ℝ → ℝ} {N M seed : ℕ} {col : ℕ → ℕ}

/-- The generator that the rank of the element has. -/
def NoisePlace.gen (p : NoisePlace) (N M : ℕ) (unitary : Bool) : NoiseGen :=
  noiseGen [N, N, M] [p.start 0, p.start 1, p.start 2] [p.shape 0, p.shape 1, p.shape 2] [p.strides 0, p.strides 1, p.strides 2] unitary

/-- The sample of the element. -/
def NoisePlace.key (p : NoisePlace) (N M : ℕ) : ℕ × ℕ :=
  let k := noiseKey (p.gen N M false) (p.start 0 + p.index 0 : ℕ) (p.start 1 + p.index 1 : ℕ) (p.start 2 + p.index 2 : ℕ)
  (drawOf N k.1, k.2)

/-- The value as a function of the sample. -/
noncomputable def NoisePlace.value (p : NoisePlace) (N M : ℕ) (unitary : Bool) (mean : ℝ) (x : ℝ × ℝ) : ℝ × ℝ :=
  if p.mode = [0, 0, 0] then (mean, 0)
  else noiseOf polarIdeal (p.gen N M unitary) (p.start 0 + p.index 0 : ℕ) (p.start 1 + p.index 1 : ℕ) (p.start 2 + p.index 2 : ℕ) x

theorem NoisePlace.gen_mesh (p : NoisePlace) (N M : ℕ) (u : Bool) :
    (p.gen N M u).nmesh 0 = N ∧ (p.gen N M u).nmesh 1 = N ∧ (p.gen N M u).nmesh 2 = M := by
  unfold NoisePlace.gen noiseGen
  exact ⟨rfl, rfl, rfl⟩

theorem NoisePlace.ranges {p : NoisePlace} (hp : p.OK N M) :
    p.start 0 + p.index 0 < N ∧ p.start 1 + p.index 1 < N ∧ p.start 2 + p.index 2 < M := by
  have := hp.inside
  have := hp.valid
  omega

theorem noiseAt_eq (s : Rng σ ℝ) {p : NoisePlace} (hp : p.OK N M) (hN : 2 ≤ N) (hM : 2 ≤ M) (heN : N % 2 = 0) {box : Fin 3 → ℝ}
    (hb : ∀ d, 0 < box d) (unitary : Bool) (mean : ℝ) :
    noiseAt s rnd N M box seed unitary mean p =
      p.value N M unitary mean (sampleAt s (toSeed rnd (s.uniform seed (p.key N M).1)) (p.key N M).2) := by
  have hv : ValidIndex [p.shape 0, p.shape 1, p.shape 2] [p.index 0, p.index 1, p.index 2] := by
    have := hp.valid
    simp only [ValidIndex, List.forall₂_cons, List.forall₂_nil_left_iff, and_true]
    exact this
  unfold noiseAt
  rw [C42_mean_partial s polarIdeal rnd Real.pi_ne_zero ⟨hN, hN, hM⟩ hp.inside hp.proper p.order hp.order
    ⟨(hb 0).ne', (hb 1).ne', (hb 2).ne'⟩ seed unitary mean p.mem _ _ _ hv]
  unfold NoisePlace.value
  refine if_congr ?_ rfl ?_
  · unfold NoisePlace.mode
    simp only [List.cons.injEq, and_true]
  · rw [← noiseGen_addr N N M (p.start 0) (p.start 1) (p.start 2) (p.shape 0) (p.shape 1) (p.shape 2) (p.strides 0) (p.strides 1) (p.strides 2) unitary
      (p.index 0) (p.index 1) (p.index 2)]
    have hg := noiseGen_plain unitary (by omega) hp.inside hp.proper
    have h := genericFill_key s polarIdeal rnd (g := p.gen N M unitary) hg (by
        intro k h1 h2 h3
        have := hp.whole
        simp only [NoisePlace.gen, noiseGen, List.getD_cons_succ, List.getD_cons_zero, Fin.isValue, Fin.val_two] at h1 h2 h3 ⊢
        have := hp.inside
        omega) (N := N) (p.gen_mesh N M unitary).1 (p.gen_mesh N M unitary).2.1 (by omega) seed p.mem
        (i := ((p.start 0 + p.index 0 : ℕ) : ℤ)) (j := ((p.start 1 + p.index 1 : ℕ) : ℤ)) (z := ((p.start 2 + p.index 2 : ℕ) : ℤ)) (by
        have := hp.valid
        unfold NoisePlace.gen
        rw [noiseGen_stores]
        exact ⟨_, _, _, hv, by push_cast; rfl, by push_cast; rfl, by push_cast; rfl⟩)
    push_cast at h ⊢
    exact h

theorem NoisePlace.key_lt {p : NoisePlace} (hp : p.OK N M) (heN : N % 2 = 0) : (p.key N M).1 < N * N := by
  have hr := p.ranges hp
  have hg := p.gen_mesh N M false
  unfold NoisePlace.key noiseKey
  have ho : ∀ i : ℕ, i < N → 0 ≤ oppI N i ∧ oppI N i < N := by
    intro i hi
    unfold oppI
    split_ifs <;> omega
  have h1 := drawOf_lt (N := N) (by omega) (by omega) (i := (p.start 0 + p.index 0 : ℕ)) (j := (p.start 1 + p.index 1 : ℕ)) (by omega) (by omega)
  have h2 := drawOf_lt (N := N) (by omega) (by omega) (ho _ hr.1) (ho _ hr.2.1)
  rw [hg.1, hg.2.1]
  zify
  split_ifs
  · exact h2
  · exact h1
  · exact h2

theorem NoisePlace.key_inj {p q : NoisePlace} (hp : p.OK N M) (hq : q.OK N M) (heN : N % 2 = 0) (heM : M % 2 = 0) (h : p.key N M = q.key N M) :
    p.mode = q.mode ∨ p.mode = opposite [N, N, M] q.mode := by
  have hr := p.ranges hp
  have hr' := q.ranges hq
  have hg := p.gen_mesh N M false
  have hg' := q.gen_mesh N M false
  have hnm : (q.gen N M false).nmesh = (p.gen N M false).nmesh := rfl
  have ho : ∀ i : ℕ, i < N → 0 ≤ oppI N i ∧ oppI N i < N := by
    intro i hi
    unfold oppI
    split_ifs <;> omega
  have h' := h
  unfold NoisePlace.key at h'
  simp only [Prod.mk.injEq] at h'
  have e1 : noiseKey (p.gen N M false) (p.start 0 + p.index 0 : ℕ) (p.start 1 + p.index 1 : ℕ) (p.start 2 + p.index 2 : ℕ) =
      noiseKey (q.gen N M false) (q.start 0 + q.index 0 : ℕ) (q.start 1 + q.index 1 : ℕ) (q.start 2 + q.index 2 : ℕ) := by
    refine Prod.ext ?_ h'.2
    refine drawOf_inj (N := N) (by omega) (by omega) ?_ ?_ h'.1
    · unfold noiseKey
      rw [hg.1]
      split_ifs
      · exact ho _ hr.1
      · show 0 ≤ ((p.start 0 + p.index 0 : ℕ) : ℤ) ∧ ((p.start 0 + p.index 0 : ℕ) : ℤ) < N
        omega
      · exact ho _ hr.1
    · unfold noiseKey
      rw [hg.2.1]
      split_ifs
      · exact ho _ hr.2.1
      · show 0 ≤ ((p.start 1 + p.index 1 : ℕ) : ℤ) ∧ ((p.start 1 + p.index 1 : ℕ) : ℤ) < N
        omega
      · exact ho _ hr.2.1
  have := noiseKey_inj hnm (by rw [hg.2.2]; omega) (by rw [hg.1]; omega) (by rw [hg.2.1]; omega) (by rw [hg.2.2]; omega) (by rw [hg.1]; omega)
    (by rw [hg.2.1]; omega) (by rw [hg.2.2]; omega) e1
  rw [hg.1, hg.2.1, hg.2.2] at this
  have mo : ∀ n i : ℕ, i < n → ((n - i) % n : ℕ) = oppI n i := by
    intro n i hi
    unfold oppI
    split_ifs with h
    · have : i = 0 := by omega
      subst this
      simp
    · rw [Nat.mod_eq_of_lt (by omega)]
      omega
  unfold NoisePlace.mode opposite
  simp only [List.zipWith_cons_cons, List.zipWith_nil_left, List.cons.injEq, and_true]
  rcases this with ⟨a, b, c⟩ | ⟨a, b, c⟩
  · exact Or.inl ⟨by exact_mod_cast a, by exact_mod_cast b, by exact_mod_cast c⟩
  · exact Or.inr ⟨Nat.cast_injective (R := ℤ) (a.trans (mo _ _ hr'.1).symm), Nat.cast_injective (R := ℤ) (b.trans (mo _ _ hr'.2.1).symm),
      Nat.cast_injective (R := ℤ) (c.trans (mo _ _ hr'.2.2).symm)⟩

theorem measurable_polarIdeal (u : Bool) : Measurable fun x : ℝ × ℝ => polarIdeal u x.1 x.2 := by
  unfold polarIdeal
  cases u
  · simp only [Bool.false_eq_true, if_false]
    fun_prop
  · simp only [if_true]
    fun_prop

theorem NoisePlace.value_measurable {p : NoisePlace} (unitary : Bool) (mean : ℝ) : Measurable (p.value N M unitary mean) := by
  unfold NoisePlace.value noiseOf modeValue
  have h := measurable_polarIdeal (p.gen N M unitary).unitary
  by_cases h0 : p.mode = [0, 0, 0]
  · simp only [h0, if_true]
    exact measurable_const
  · simp only [h0, if_false]
    split_ifs <;> fun_prop

/-- Almost surely every value is made from a pair of numbers. -/
theorem noiseAt_ae (hI : IdealNumbers P r rnd seed (N * N) col) (hN : 2 ≤ N) (hM : 2 ≤ M) (heN : N % 2 = 0) {box : Fin 3 → ℝ}
    (hb : ∀ d, 0 < box d) (unitary : Bool) (mean : ℝ) {p : NoisePlace} (hp : p.OK N M) :
    (fun ω => noiseAt (r ω) rnd N M box seed unitary mean p) =ᵐ[P] fun ω => p.value N M unitary mean
      ((r ω).uniform (col (p.key N M).1) (2 * (p.key N M).2 + 1), (r ω).uniform (col (p.key N M).1) (2 * (p.key N M).2)) := by
  have hk := p.key_lt hp heN
  have hne : ∀ᵐ ω ∂P, ∀ m, (r ω).uniform (col (p.key N M).1) m ≠ 0 := by
    rw [ae_all_iff]
    intro m
    have h0 : unif {0} = 0 := by
      unfold unif
      rw [Measure.restrict_apply (measurableSet_singleton 0)]
      simp
    rw [← hI.uniform _ hk m, Measure.map_apply (hI.measurable _ hk m) (measurableSet_singleton 0)] at h0
    rw [ae_iff]
    simpa [Set.preimage] using h0
  filter_upwards [hne] with ω hω
  rw [noiseAt_eq (r ω) hp hN hM heN hb, hI.seeds ω _ hk, sampleAt_eq (r ω) hω]

end

end Pmesh
