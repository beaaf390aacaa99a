import Verif.Lemmas.NoiseModes
import Verif.Props.Ranlxd
import Mathlib.Data.List.ProdSigma
import Mathlib.Data.Fin.VecNotation

/-!
# C38, C39, C40, C41: white noise

The theorems hold for every random generator, every function that makes a complex number of two uniform numbers, and every
rounding of the seeds.
-/

namespace Pmesh
section
variable {σ D R : Type} [Field D] [LinearOrder D] [FloorRing D] (r : Rng σ D) [Ring R] (polar : Bool → D → D → R × R) (rnd : D → D)

theorem mirror_written {g : NoiseGen} (hg : g.Plain) (hm : g.Mirrored) {i j k : ℤ} (hs : g.Stores i j k) :
    g.nmesh 2 / 2 < k → hasMode g (g.nmesh 2 - k) := by
  intro h
  have := hm k hs.2.2.1 hs.2.2.2 (by omega)
  have := hg.hi 2
  rw [hasMode_iff]
  have := hs.2.2
  omega

/-- **C38** (partial: full fields must not be split along the last axis).  The value of a mode depends on the seed, the mesh and
the mode only: two local boxes, of any size and place, stored in any order in memory, on arrays with any content before, have the
same value in every mode that both store.  So every stored mode is written, and nothing outside the array is. -/
theorem C38_partition_partial (seed : ℕ) {g g' : NoiseGen} (hs : g.SameField g') (hg : g.Plain) (hg' : g'.Plain) (hm : g.Mirrored)
    (hm' : g'.Mirrored) (mem mem' : ℤ → R × R) :
    (∀ i j k, g.Stores i j k → g'.Stores i j k →
      genericFill r polar rnd g seed mem (noiseAddr g i j k) = genericFill r polar rnd g' seed mem' (noiseAddr g' i j k)) ∧
    ∀ a, (∀ i j k, g.Stores i j k → a ≠ noiseAddr g i j k) → genericFill r polar rnd g seed mem a = mem a := by
  refine ⟨fun i j k h h' => ?_, fun a ha => (genericFill_eq r polar hg rnd seed mem).2 a fun i j k h _ => ha i j k h⟩
  rw [(genericFill_eq r polar hg rnd seed mem).1 i j k h (mirror_written hg hm h),
    (genericFill_eq r polar hg' rnd seed mem').1 i j k h' (mirror_written hg' hm' h'), modeAt_same polar r hs, hs.1]

/-- **C38 violated** for a full (not compressed) field that is split along the last axis: a mode of negative last index is not
written on a rank that does not have the opposite last index, whatever the seed. -/
theorem C38_violated_split (seed : ℕ) {g : NoiseGen} (hg : g.Plain) {i j k : ℤ} (hs : g.Stores i j k) (hk : g.nmesh 2 < 2 * k)
    (hsplit : g.nmesh 2 - k < g.start 2) (mem : ℤ → R × R) :
    genericFill r polar rnd g seed mem (noiseAddr g i j k) = mem (noiseAddr g i j k) := by
  refine (genericFill_eq r polar hg rnd seed mem).2 _ fun i' j' k' h' hm e => ?_
  obtain ⟨rfl, rfl, rfl⟩ := hg.inj _ _ _ _ _ _ hs h' e
  have := hasMode_iff.1 (hm (by omega))
  omega

theorem stores_range {g : NoiseGen} (hg : g.Plain) {i j k : ℤ} (h : g.Stores i j k) :
    (0 ≤ i ∧ i < g.nmesh 0) ∧ (0 ≤ j ∧ j < g.nmesh 1) ∧ 0 ≤ k ∧ k < g.nmesh 2 := by
  have a := hg.lo 0
  have b := hg.lo 1
  have c := hg.lo 2
  have a' := hg.hi 0
  have b' := hg.hi 1
  have c' := hg.hi 2
  unfold NoiseGen.Stores at h
  omega

/-- **C39**: the noise is Hermitian.  If two modes are opposite (their indices add up to 0 modulo the mesh size) their values are
complex conjugates, and a mode that is its own opposite is real; also if they are on different ranks.  The mesh is square in the
first two axes and even in the last. -/
theorem C39_hermitian (seed : ℕ) {g g' : NoiseGen} (hs : g.SameField g') (hg : g.Plain) (hg' : g'.Plain) (hm : g.Mirrored)
    (hm' : g'.Mirrored) (hsq : g.nmesh 1 = g.nmesh 0) (heven : g.nmesh 2 % 2 = 0) (mem mem' : ℤ → R × R) {i j k i' j' k' : ℤ}
    (h : g.Stores i j k) (h' : g'.Stores i' j' k') (hi : (i + i') % g.nmesh 0 = 0) (hj : (j + j') % g.nmesh 1 = 0)
    (hk : (k + k') % g.nmesh 2 = 0) :
    (genericFill r polar rnd g' seed mem' (noiseAddr g' i' j' k')).1 = (genericFill r polar rnd g seed mem (noiseAddr g i j k)).1 ∧
    (genericFill r polar rnd g' seed mem' (noiseAddr g' i' j' k')).2 = -(genericFill r polar rnd g seed mem (noiseAddr g i j k)).2 ∧
    (i = i' → j = j' → k = k' → (genericFill r polar rnd g seed mem (noiseAddr g i j k)).2 = 0) := by
  rw [(genericFill_eq r polar hg rnd seed mem).1 i j k h (mirror_written hg hm h),
    (genericFill_eq r polar hg' rnd seed mem').1 i' j' k' h' (mirror_written hg' hm' h'), ← modeAt_same polar r hs, ← hs.1]
  obtain ⟨ri, rj, rk⟩ := stores_range hg h
  obtain ⟨ri', rj', rk'⟩ := stores_range hg' h'
  rw [← hs.1] at ri' rj' rk'
  have ei := opposite_eq ri.1 ri.2 ri'.1 ri'.2 hi
  have ej := opposite_eq rj.1 rj.2 rj'.1 rj'.2 hj
  have ek := opposite_eq rk.1 rk.2 rk'.1 rk'.2 hk
  set l := seedCalls r rnd (g.nmesh 0) (g.nmesh 1) seed with hl
  have hlr : ∀ v ∈ l, (0 ≤ v.1.1 ∧ v.1.1 < g.nmesh 0) ∧ 0 ≤ v.1.2 ∧ v.1.2 < g.nmesh 1 := by
    rw [hl, hsq]
    exact seedCalls_range r rnd (hg.pos 0).le seed
  have e11 : colSeed (g.nmesh 0) (g.nmesh 1) 1 1 i j l = colSeed (g.nmesh 0) (g.nmesh 1) 0 0 i' j' l := by
    rw [colSeed_conj l hlr ri rj, conjIndex_one ri.1 ri.2, conjIndex_one rj.1 rj.2, ← ei, ← ej]
  have e11' : colSeed (g.nmesh 0) (g.nmesh 1) 1 1 i' j' l = colSeed (g.nmesh 0) (g.nmesh 1) 0 0 i j l := by
    rw [colSeed_conj l hlr ri' rj', conjIndex_one ri'.1 ri'.2, conjIndex_one rj'.1 rj'.2]
    have e1 : (if i' = 0 then 0 else g.nmesh 0 - i') = i := by rw [ei]; split_ifs <;> omega
    have e2 : (if j' = 0 then 0 else g.nmesh 1 - j') = j := by rw [ej]; split_ifs <;> omega
    rw [e1, e2]
  have hss : i = i' → j = j' → colSeed (g.nmesh 0) (g.nmesh 1) 0 0 i' j' l = colSeed (g.nmesh 0) (g.nmesh 1) 0 0 i j l := by
    rintro rfl rfl
    rfl
  rw [e11, e11']
  generalize colSeed (g.nmesh 0) (g.nmesh 1) 0 0 i j l = s at hss ⊢
  generalize colSeed (g.nmesh 0) (g.nmesh 1) 0 0 i' j' l = s' at hss ⊢
  have hN := hg.pos 2
  have self : i = i' → j = j' → k = k' → (modeAt r polar g s s' i j k).2 = 0 := by
    intro a b c
    have : (i = 0 ∨ 2 * i = g.nmesh 0) ∧ (j = 0 ∨ 2 * j = g.nmesh 1) ∧ (k = 0 ∨ 2 * k = g.nmesh 2) := by
      refine ⟨?_, ?_, ?_⟩
      · rw [← a] at ei; split_ifs at ei <;> omega
      · rw [← b] at ej; split_ifs at ej <;> omega
      · rw [← c] at ek; split_ifs at ek <;> omega
    unfold modeAt
    split_ifs
    all_goals exact modeValue_self polar _ _ _ ri rj rk this
  suffices hmain : (modeAt r polar g s' s i' j' k').1 = (modeAt r polar g s s' i j k).1 ∧
      (modeAt r polar g s' s i' j' k').2 = -(modeAt r polar g s s' i j k).2 from ⟨hmain.1, hmain.2, self⟩
  have htd : (g.nmesh 2).tdiv 2 = g.nmesh 2 / 2 := Int.tdiv_eq_ediv_of_nonneg hN.le
  by_cases hplane : k = 0 ∨ k = g.nmesh 2 / 2
  · have hkk : k' = k := by rw [ek]; split_ifs <;> omega
    have hle : k ≤ g.nmesh 2 / 2 := by omega
    rw [hkk] at ek ⊢
    unfold modeAt
    rw [if_pos hle, if_pos hle]
    have u : ∀ i j, useConj g i j k = upperHalf g i j := by
      intro i j
      unfold useConj
      rw [htd]
      rcases hplane with rfl | hp
      · simp
      · simp [hp]
    rw [u, u]
    by_cases hself : i = i' ∧ j = j'
    · obtain ⟨rfl, rfl⟩ := hself
      have hu : upperHalf g i j = false := by
        rw [Bool.eq_false_iff, Ne, upperHalf_iff, mirrorIndex_eq ri.1, mirrorIndex_eq rj.1, ← ei, ← ej]
        omega
      rw [hu, hss rfl rfl]
      exact modeValue_conj polar _ _ _ _ _ ri rj rk ei ej ek (.inl ⟨rfl, rfl, rfl⟩)
    · have hx : upperHalf g i' j' = !upperHalf g i j := by
        have hiff : upperHalf g i' j' = true ↔ ¬upperHalf g i j = true := by
          rw [upperHalf_iff, upperHalf_iff, mirrorIndex_eq ri.1, mirrorIndex_eq rj.1, mirrorIndex_eq ri'.1, mirrorIndex_eq rj'.1]
          rw [← ei, ← ej]
          have e1 : (if i' = 0 then 0 else g.nmesh 0 - i') = i := by rw [ei]; split_ifs <;> omega
          have e2 : (if j' = 0 then 0 else g.nmesh 1 - j') = j := by rw [ej]; split_ifs <;> omega
          rw [e1, e2]
          omega
        cases h1 : upperHalf g i j <;> cases h2 : upperHalf g i' j' <;> simp [h1, h2] at hiff ⊢
      rw [hx]
      cases upperHalf g i j
      · exact modeValue_conj polar _ _ _ _ _ ri rj rk ei ej ek (.inr (by simp))
      · exact modeValue_conj polar _ _ _ _ _ ri rj rk ei ej ek (.inr (by simp))
  · have u : ∀ i j, useConj g i j k = false := by
      intro i j
      unfold useConj
      rw [htd]
      simp [not_or.1 hplane]
    have u' : ∀ i j, useConj g i j k' = false := by
      intro i j
      unfold useConj
      rw [htd, ek]
      have : ¬((if k = 0 then 0 else g.nmesh 2 - k) = 0) := by split_ifs <;> omega
      have h2 : ¬((if k = 0 then 0 else g.nmesh 2 - k) = g.nmesh 2 / 2) := by split_ifs <;> omega
      simp [this, h2]
    have ekk : k' = g.nmesh 2 - k := by rw [ek, if_neg (by omega)]
    have ekk' : g.nmesh 2 - k' = k := by omega
    unfold modeAt
    by_cases hle : k ≤ g.nmesh 2 / 2
    · rw [if_pos hle, if_neg (by omega), ekk', u, u]
      simp only [Bool.false_eq_true, if_false]
      exact modeValue_conj polar _ _ _ _ _ ri rj rk ei ej ek (.inr (by simp))
    · rw [if_neg hle, if_pos (by omega), ← ekk, u', u']
      simp only [Bool.false_eq_true, if_false]
      exact modeValue_conj polar _ _ _ _ _ ri rj rk ei ej ek (.inr (by simp))

/-- **C40**: the noise does not depend on the resolution.  On two even cubic meshes, a mode number below the Nyquist frequency of
both has the same value. -/
theorem C40_resolution (seed h h' : ℕ) {g g' : NoiseGen} (hu : g.unitary = g'.unitary) (hN : ∀ d, g.nmesh d = 2 * h)
    (hN' : ∀ d, g'.nmesh d = 2 * h') (hg : g.Plain) (hg' : g'.Plain) (hm : g.Mirrored) (hm' : g'.Mirrored)
    (mem mem' : ℤ → R × R) {a b c : ℤ} (ha : |a| < h ∧ |a| < h') (hb : |b| < h ∧ |b| < h') (hc : |c| < h ∧ |c| < h')
    (hs : g.Stores (modeIndex (2 * h) a) (modeIndex (2 * h) b) (modeIndex (2 * h) c))
    (hs' : g'.Stores (modeIndex (2 * h') a) (modeIndex (2 * h') b) (modeIndex (2 * h') c)) :
    genericFill r polar rnd g seed mem (noiseAddr g (modeIndex (2 * h) a) (modeIndex (2 * h) b) (modeIndex (2 * h) c)) =
      genericFill r polar rnd g' seed mem' (noiseAddr g' (modeIndex (2 * h') a) (modeIndex (2 * h') b) (modeIndex (2 * h') c)) := by
  rw [(genericFill_eq r polar hg rnd seed mem).1 _ _ _ hs (mirror_written hg hm hs),
    (genericFill_eq r polar hg' rnd seed mem').1 _ _ _ hs' (mirror_written hg' hm' hs'), hN, hN, hN', hN']
  have bounds : ∀ {x : ℤ} {n : ℕ}, |x| < n → -(n : ℤ) < x ∧ x < n := fun h => abs_lt.1 h
  obtain ⟨ha1, ha2⟩ := bounds ha.1
  obtain ⟨ha1', ha2'⟩ := bounds ha.2
  obtain ⟨hb1, hb2⟩ := bounds hb.1
  obtain ⟨hb1', hb2'⟩ := bounds hb.2
  obtain ⟨hc1, hc2⟩ := bounds hc.1
  obtain ⟨hc1', hc2'⟩ := bounds hc.2
  -- the seeds
  have m1 : (a, b) ∈ shells h := mem_shells.2 (by omega)
  have m1' : (a, b) ∈ shells h' := mem_shells.2 (by omega)
  have m2 : (-a, -b) ∈ shells h := mem_shells.2 (by omega)
  have m2' : (-a, -b) ∈ shells h' := mem_shells.2 (by omega)
  have opp : ∀ (n : ℕ) (x : ℤ), -(n : ℤ) < x → x < n → conjIndex (2 * n) (modeIndex (2 * n) x) 1 = modeIndex (2 * n) (-x) := by
    intro n x h1 h2
    rw [conjIndex_one (by unfold modeIndex; split_ifs <;> omega) (by unfold modeIndex; split_ifs <;> omega)]
    unfold modeIndex
    split_ifs <;> omega
  have rng : ∀ (n : ℕ) (x : ℤ), -(n : ℤ) < x → x < n → 0 ≤ modeIndex (2 * n) x ∧ modeIndex (2 * n) x < 2 * n := by
    intro n x h1 h2
    unfold modeIndex
    split_ifs <;> omega
  rw [colSeed_conj _ (seedCalls_range r rnd (by omega) seed) (rng h a ha1 ha2) (rng h b hb1 hb2), opp h a ha1 ha2, opp h b hb1 hb2,
    colSeed_conj _ (seedCalls_range r rnd (by omega) seed) (rng h' a ha1' ha2') (rng h' b hb1' hb2'), opp h' a ha1' ha2',
    opp h' b hb1' hb2', colSeed_shell r rnd h seed m1, colSeed_shell r rnd h seed m2, colSeed_shell r rnd h' seed m1',
    colSeed_shell r rnd h' seed m2', idxOf_shells m1 m1', idxOf_shells m2 m2']
  generalize toSeed rnd (r.uniform seed ((shells h').idxOf (a, b))) = s
  generalize toSeed rnd (r.uniform seed ((shells h').idxOf (-a, -b))) = s'
  -- the half plane
  have up : ∀ (G : NoiseGen) (n : ℕ), (∀ d, G.nmesh d = 2 * n) → -(n : ℤ) < a → a < n → -(n : ℤ) < b → b < n →
      upperHalf G (modeIndex (2 * n) a) (modeIndex (2 * n) b) = (decide (a < 0) || (decide (a = 0) && decide (b < 0))) := by
    intro G n hG h1 h2 h3 h4
    have hiff : upperHalf G (modeIndex (2 * n) a) (modeIndex (2 * n) b) = true ↔ a < 0 ∨ (a = 0 ∧ b < 0) := by
      rw [upperHalf_iff, mirrorIndex_eq (rng n a h1 h2).1, mirrorIndex_eq (rng n b h3 h4).1, hG, hG]
      unfold modeIndex
      split_ifs <;> omega
    rw [Bool.eq_iff_iff, hiff]
    simp
  have uc : ∀ (G : NoiseGen) (n : ℕ), (∀ d, G.nmesh d = 2 * n) → -(n : ℤ) < a → a < n → -(n : ℤ) < b → b < n →
      ∀ k : ℤ, k < n → useConj G (modeIndex (2 * n) a) (modeIndex (2 * n) b) k =
        ((decide (a < 0) || (decide (a = 0) && decide (b < 0))) && decide (k = 0)) := by
    intro G n hG h1 h2 h3 h4 k hk
    unfold useConj
    rw [up G n hG h1 h2 h3 h4, hG, Int.tdiv_eq_ediv_of_nonneg (by omega), show 2 * (n : ℤ) / 2 = n by omega]
    have : ¬k = (n : ℤ) := by omega
    simp [this]
  have mv : ∀ x sg e, modeValue polar g x sg e (modeIndex (2 * h) a) (modeIndex (2 * h) b) (modeIndex (2 * h) c) =
      modeValue polar g' x sg e (modeIndex (2 * h') a) (modeIndex (2 * h') b) (modeIndex (2 * h') c) := by
    intro x sg e
    have := modeValue_mesh polar hu x sg e (g := g) (g' := g') (a := a) (b := b) (c := c)
      ⟨by rw [hN]; omega, by rw [hN]; omega, by rw [hN]; omega⟩ ⟨by rw [hN']; omega, by rw [hN']; omega, by rw [hN']; omega⟩
    rw [hN, hN, hN, hN', hN', hN'] at this
    exact this
  unfold modeAt
  rw [hN, hN']
  by_cases hc0 : c < 0
  · have e1 : modeIndex (2 * h) c = c + 2 * h := if_pos hc0
    have e2 : modeIndex (2 * h') c = c + 2 * h' := if_pos hc0
    have l1 : ¬modeIndex (2 * h) c ≤ 2 * (h : ℤ) / 2 := by omega
    have l2 : ¬modeIndex (2 * h') c ≤ 2 * (h' : ℤ) / 2 := by omega
    rw [if_neg l1, if_neg l2, mv]
    rw [e1, e2, show 2 * (h : ℤ) - (c + 2 * h) = -c by ring, show 2 * (h' : ℤ) - (c + 2 * h') = -c by ring,
      uc g h hN ha1 ha2 hb1 hb2 (-c) (by omega), uc g' h' hN' ha1' ha2' hb1' hb2' (-c) (by omega)]
  · have e1 : modeIndex (2 * h) c = c := if_neg hc0
    have e2 : modeIndex (2 * h') c = c := if_neg hc0
    have l1 : modeIndex (2 * h) c ≤ 2 * (h : ℤ) / 2 := by omega
    have l2 : modeIndex (2 * h') c ≤ 2 * (h' : ℤ) / 2 := by omega
    rw [if_pos l1, if_pos l2, mv]
    rw [e1, e2, uc g h hN ha1 ha2 hb1 hb2 c hc2, uc g' h' hN' ha1' ha2' hb1' hb2' c hc2']

/-- **C41** (partial: even square meshes).  Every column `i, j` of the mesh gets its seed from one number of the random generator
and different columns from different numbers: `draw` is a bijection from the columns to the first `N²` numbers, the same on all
ranks.  The table of the conjugates has for each column the seed of the opposite column. -/
theorem C41_columns_partial (N : ℤ) (hN : 0 ≤ N) (heven : N % 2 = 0) :
    ∃ draw : ℤ → ℤ → ℕ,
      (∀ i j, 0 ≤ i → i < N → 0 ≤ j → j < N → (draw i j : ℤ) < N * N) ∧
      (∀ i j i' j', 0 ≤ i → i < N → 0 ≤ j → j < N → 0 ≤ i' → i' < N → 0 ≤ j' → j' < N → draw i j = draw i' j' → i = i' ∧ j = j') ∧
      (∀ n : ℕ, (n : ℤ) < N * N → ∃ i j, 0 ≤ i ∧ i < N ∧ 0 ≤ j ∧ j < N ∧ draw i j = n) ∧
      ∀ (σ : Type) (r : Rng σ) (rnd : ℚ → ℚ) (seed : ℕ) (g : NoiseGen), g.nmesh 0 = N → g.nmesh 1 = N →
        ∀ i j, 0 ≤ i → i < N → 0 ≤ j → j < N → (g.start 0 ≤ i ∧ i < g.start 0 + g.size 0) →
          (g.start 1 ≤ j ∧ j < g.start 1 + g.size 1) →
          getSeed g (seedTables r rnd g seed) i j 0 0 = toSeed rnd (r.uniform seed (draw i j)) ∧
          getSeed g (seedTables r rnd g seed) i j 1 1 = toSeed rnd (r.uniform seed (draw ((N - i) % N) ((N - j) % N))) := by
  have hmem : ∀ {i j}, (i, j) ∈ seedVisits N N ↔ (0 ≤ i ∧ i < N) ∧ 0 ≤ j ∧ j < N := by
    intro i j
    rw [mem_seedVisits hN]
    omega
  have hnd := seedVisits_nodup hN
  have hlen : ((seedVisits N N).length : ℤ) = N * N := by
    have : (seedVisits N N).Perm (intRange 0 N ×ˢ intRange 0 N) := by
      refine (List.perm_ext_iff_of_nodup hnd ((intRange_nodup _ _).product (intRange_nodup _ _))).2 fun v => ?_
      obtain ⟨i, j⟩ := v
      rw [hmem, List.mem_product, mem_intRange, mem_intRange]
    rw [this.length_eq, List.length_product]
    unfold intRange
    rw [List.length_map, List.length_range]
    push_cast
    rw [sub_zero, Int.toNat_of_nonneg hN]
  refine ⟨fun i j => (seedVisits N N).idxOf (i, j), ?_, ?_, ?_, ?_⟩
  · intro i j h1 h2 h3 h4
    have := List.idxOf_lt_length_of_mem (hmem.2 ⟨⟨h1, h2⟩, h3, h4⟩)
    simp only
    omega
  · intro i j i' j' h1 h2 h3 h4 h1' h2' h3' h4' e
    have := (List.idxOf_inj (hmem.2 ⟨⟨h1, h2⟩, h3, h4⟩)).1 e
    simpa using this
  · intro n hn
    have hlt : n < (seedVisits N N).length := by omega
    have hm := hmem.1 (show ((seedVisits N N)[n].1, (seedVisits N N)[n].2) ∈ seedVisits N N from List.getElem_mem hlt)
    exact ⟨_, _, hm.1.1, hm.1.2, hm.2.1, hm.2.2, hnd.idxOf_getElem n hlt⟩
  · intro σ r rnd seed g h0 h1 i j hi hiN hj hjN hbi hbj
    rw [getSeed_eq r rnd g seed i j hbi hbj (by omega) (by omega), getSeed_eq r rnd g seed i j hbi hbj (by omega) (by omega), h0, h1]
    have key : ∀ i j, 0 ≤ i → i < N → 0 ≤ j → j < N → colSeed N N 0 0 i j (seedCalls r rnd N N seed) =
        toSeed rnd (r.uniform seed ((seedVisits N N).idxOf (i, j))) := fun i j a b c d =>
      colSeed_draw r rnd hN seed _ (List.getElem?_idxOf (hmem.2 ⟨⟨a, b⟩, c, d⟩))
    refine ⟨key i j hi hiN hj hjN, ?_⟩
    have hc : ∀ x, 0 ≤ x → x < N → conjIndex N x 1 = (N - x) % N := by
      intro x a b
      unfold conjIndex
      rw [if_neg (by omega), Int.tmod_eq_emod_of_nonneg (by omega)]
    rw [colSeed_conj _ (seedCalls_range r rnd hN seed) ⟨hi, hiN⟩ ⟨hj, hjN⟩, hc i hi hiN, hc j hj hjN]
    exact key _ _ (Int.emod_nonneg _ (by omega)) (Int.emod_lt_of_pos _ (by omega)) (Int.emod_nonneg _ (by omega))
      (Int.emod_lt_of_pos _ (by omega))

/-- **C41 violated** for every odd mesh size: the columns with first index `(N - 1) / 2` get no seed at all (zero), whatever the
seed of the field. -/
theorem C41_violated_odd (m : ℕ) (seed : ℕ) {g : NoiseGen} (h0 : g.nmesh 0 = 2 * m + 1) (h1 : g.nmesh 1 = 2 * m + 1) {j : ℤ}
    (hi : g.start 0 ≤ m ∧ (m : ℤ) < g.start 0 + g.size 0) (hj : g.start 1 ≤ j ∧ j < g.start 1 + g.size 1) :
    getSeed g (seedTables r rnd g seed) m j 0 0 = 0 := by
  rw [getSeed_eq r rnd g seed _ _ hi hj (by omega) (by omega), h0, h1]
  refine colSeed_none _ ?_
  rintro v hv ⟨e, _⟩
  have : v.1 ∈ seedVisits (2 * m + 1) (2 * m + 1) := by
    rw [← seedCalls_fst r rnd _ _ seed]
    exact List.mem_map.2 ⟨v, hv, rfl⟩
  have := (mem_seedVisits (by omega)).1 (show (v.1.1, v.1.2) ∈ _ from this)
  simp only [conjIndex, if_true] at e
  omega

/-- **C41 violated**, seen in the field: on a mesh of odd size two modes of different columns have the same value. -/
theorem C41_violated_equal (m : ℕ) (seed : ℕ) {g : NoiseGen} (hg : g.Plain) (hm : g.Mirrored) (h0 : g.nmesh 0 = 2 * m + 1)
    (h1 : g.nmesh 1 = 2 * m + 1) {j j' k : ℤ} (hk : 0 < k) (hk2 : 2 * k + 1 < g.nmesh 2) (h : g.Stores m j k) (h' : g.Stores m j' k)
    (mem : ℤ → R × R) :
    genericFill r polar rnd g seed mem (noiseAddr g m j k) = genericFill r polar rnd g seed mem (noiseAddr g m j' k) := by
  rw [(genericFill_eq r polar hg rnd seed mem).1 _ _ _ h (mirror_written hg hm h),
    (genericFill_eq r polar hg rnd seed mem).1 _ _ _ h' (mirror_written hg hm h'),
    ← getSeed_eq r rnd g seed _ _ h.1 h.2.1 (by omega) (by omega), ← getSeed_eq r rnd g seed _ _ h'.1 h'.2.1 (by omega) (by omega),
    C41_violated_odd r rnd m seed h0 h1 h.1 h.2.1, C41_violated_odd r rnd m seed h0 h1 h'.1 h'.2.1]
  obtain ⟨_, _, rk⟩ := stores_range hg h
  unfold modeAt
  have u : ∀ i j, useConj g i j k = false := by
    intro i j
    unfold useConj
    rw [Int.tdiv_eq_ediv_of_nonneg (by omega)]
    have a : ¬k = 0 := by omega
    have b : ¬k = g.nmesh 2 / 2 := by omega
    simp [a, b]
  have hle : k ≤ g.nmesh 2 / 2 := by omega
  rw [if_pos hle, if_pos hle, u, u]
  unfold modeValue
  have e : ¬((g.nmesh 2 - k).tmod (g.nmesh 2) = k) := by
    rw [conjIndex_self rk.1 rk.2]
    omega
  have e' : ¬k = 0 := by omega
  simp [e, e']

/-- **C41 violated** for a mesh that is not square: on 4×8 cells the column `(0, 4)` gets no seed. -/
theorem C41_violated_oblong (seed : ℕ) {g : NoiseGen} (h0 : g.nmesh 0 = 4) (h1 : g.nmesh 1 = 8)
    (hi : g.start 0 ≤ 0 ∧ 0 < g.start 0 + g.size 0) (hj : g.start 1 ≤ 4 ∧ 4 < g.start 1 + g.size 1) :
    getSeed g (seedTables r rnd g seed) 0 4 0 0 = 0 := by
  rw [getSeed_eq r rnd g seed _ _ hi hj (by omega) (by omega), h0, h1]
  refine colSeed_none _ ?_
  rintro v hv ⟨e, e'⟩
  have hmem : v.1 ∈ seedVisits 4 8 := by
    rw [← seedCalls_fst r rnd _ _ seed]
    exact List.mem_map.2 ⟨v, hv, rfl⟩
  simp only [conjIndex, if_true] at e e'
  have : ((0, 4) : ℤ × ℤ) ∈ seedVisits 4 8 := by
    have : v.1 = (0, 4) := Prod.ext e e'
    rwa [← this]
  revert this
  decide +kernel

/-- **C39 violated** for an odd last axis if all modes are stored: opposite modes have the same value, not the conjugate. -/
theorem C39_violated_odd (seed m : ℕ) (hm0 : 0 < m) {g : NoiseGen} (hg : g.Plain) (hm : g.Mirrored) (hsq : g.nmesh 1 = g.nmesh 0)
    (hN : 2 < g.nmesh 0) (hodd : g.nmesh 2 = 2 * m + 1) (h : g.Stores 1 0 m) (h' : g.Stores (g.nmesh 0 - 1) 0 (m + 1))
    (mem : ℤ → R × R) :
    genericFill r polar rnd g seed mem (noiseAddr g (g.nmesh 0 - 1) 0 (m + 1)) =
      genericFill r polar rnd g seed mem (noiseAddr g 1 0 m) := by
  rw [(genericFill_eq r polar hg rnd seed mem).1 _ _ _ h (mirror_written hg hm h),
    (genericFill_eq r polar hg rnd seed mem).1 _ _ _ h' (mirror_written hg hm h'), hsq,
    colSeed_conj (i := g.nmesh 0 - 1) _ (seedCalls_range r rnd (by omega) seed) (by omega) (by omega),
    conjIndex_one (by omega) (by omega), conjIndex_one (i := 0) (by omega) (by omega), if_neg (by omega), if_pos rfl,
    show g.nmesh 0 - (g.nmesh 0 - 1) = 1 by ring]
  unfold modeAt
  have u1 : upperHalf g 1 0 = false := by
    rw [Bool.eq_false_iff, Ne, upperHalf_iff, mirrorIndex_eq (by omega), mirrorIndex_eq (by omega)]
    simp
    omega
  have u2 : upperHalf g (g.nmesh 0 - 1) 0 = true := by
    rw [upperHalf_iff, mirrorIndex_eq (by omega), mirrorIndex_eq (by omega), if_neg (by omega)]
    omega
  have c1 : ∀ k, useConj g 1 0 k = false := fun k => by unfold useConj; rw [u1]; rfl
  have c2 : useConj g (g.nmesh 0 - 1) 0 m = true := by
    unfold useConj
    rw [u2, hodd, Int.tdiv_eq_ediv_of_nonneg (by omega), show (2 * (m : ℤ) + 1) / 2 = m by omega]
    simp
  rw [if_neg (by omega), if_pos (by omega), hodd, show 2 * (m : ℤ) + 1 - (m + 1) = m by ring, c1, c2]
  simp only [Bool.false_eq_true, if_false]
  unfold modeValue
  have e1 : ¬((g.nmesh 2 - m).tmod (g.nmesh 2) = m) := by rw [conjIndex_self (by omega) (by omega)]; omega
  have e2 : ¬((g.nmesh 2 - (m + 1)).tmod (g.nmesh 2) = m + 1) := by rw [conjIndex_self (by omega) (by omega)]; omega
  have e3 : ¬((m : ℤ) + 1 = 0) := by omega
  simp [e1, e2, e3]

end

/-! ## Non-vacuity -/

/-- A rank of a compressed 4×4×4 field that is split in the second axis and stored transposed. -/
def exNoise : NoiseGen := ⟨fun _ => 4, ![0, 2, 0], ![4, 2, 3], ![3, 12, 1], false⟩

/-- The whole full field in C order. -/
def exNoiseFull : NoiseGen := ⟨fun _ => 4, ![0, 0, 0], ![4, 4, 4], ![16, 4, 1], false⟩

theorem exNoise_plain : exNoise.Plain := by
  refine ⟨by decide, by decide, by decide, ?_⟩
  intro i j k i' j' k' h h' e
  simp only [NoiseGen.Stores, noiseAddr, exNoise, Matrix.cons_val_zero, Matrix.cons_val_one, Matrix.cons_val] at h h' e
  omega

theorem exNoiseFull_plain : exNoiseFull.Plain := by
  refine ⟨by decide, by decide, by decide, ?_⟩
  intro i j k i' j' k' h h' e
  simp only [NoiseGen.Stores, noiseAddr, exNoiseFull, Matrix.cons_val_zero, Matrix.cons_val_one, Matrix.cons_val] at h h' e
  omega

theorem exNoise_mirrored : exNoise.Mirrored ∧ exNoiseFull.Mirrored := by
  constructor <;> intro k h1 h2 h3 <;> simp [exNoise, exNoiseFull] at h1 h2 h3 ⊢ <;> omega

/-- A rank of a compressed 6×6×6 field. -/
def exNoise6 : NoiseGen := ⟨fun _ => 6, ![0, 0, 0], ![3, 6, 4], ![24, 4, 1], false⟩

theorem exNoise6_plain : exNoise6.Plain := by
  refine ⟨by decide, by decide, by decide, ?_⟩
  intro i j k i' j' k' h h' e
  simp only [NoiseGen.Stores, noiseAddr, exNoise6, Matrix.cons_val_zero, Matrix.cons_val_one, Matrix.cons_val] at h h' e
  omega

theorem exNoise6_mirrored : exNoise6.Mirrored := by
  intro k h1 h2 h3
  simp [exNoise6] at h1 h2 h3 ⊢
  omega

section
variable {σ : Type} (r : Rng σ) (polar : Bool → ℚ → ℚ → ℚ × ℚ) (rnd : ℚ → ℚ) (mem : ℤ → ℚ × ℚ)

/-- Mode `1, 2, 1` is stored by both. -/
example := (C38_partition_partial r polar rnd 7 (g := exNoise) (g' := exNoiseFull) ⟨rfl, rfl⟩ exNoise_plain exNoiseFull_plain
  exNoise_mirrored.1 exNoise_mirrored.2 mem mem).1 1 2 1 (by simp [NoiseGen.Stores, exNoise])
  (by simp [NoiseGen.Stores, exNoiseFull])

/-- Modes `1, 2, 1` and `3, 2, 3` are opposite. -/
example := C39_hermitian r polar rnd 7 (g := exNoise) (g' := exNoiseFull) ⟨rfl, rfl⟩ exNoise_plain exNoiseFull_plain
  exNoise_mirrored.1 exNoise_mirrored.2 rfl rfl mem mem (i := 1) (j := 2) (k := 1) (i' := 3) (j' := 2) (k' := 3)
  (by simp [NoiseGen.Stores, exNoise]) (by simp [NoiseGen.Stores, exNoiseFull]) rfl rfl rfl

/-- Mode `1, -1, 1` on 4 and on 6 cells per side. -/
example := C40_resolution r polar rnd 7 2 3 (g := exNoise) (g' := exNoise6) rfl (fun _ => rfl) (fun _ => rfl) exNoise_plain
  exNoise6_plain exNoise_mirrored.1 exNoise6_mirrored mem mem (a := 1) (b := -1) (c := 1) (by decide) (by decide) (by decide)
  (by simp [NoiseGen.Stores, exNoise, modeIndex]) (by simp [NoiseGen.Stores, exNoise6, modeIndex])

example := C41_columns_partial 4 (by decide) (by decide)

/-- The upper half of a full 4×4×4 field. -/
def exNoiseUpper : NoiseGen := ⟨fun _ => 4, ![0, 0, 2], ![4, 4, 2], ![8, 2, 1], false⟩

/-- Non-vacuity of the violation of C38: mode `0, 0, 3` keeps what was in memory. -/
example : genericFill r polar rnd exNoiseUpper 7 mem 1 = mem 1 :=
  C38_violated_split r polar rnd 7 (g := exNoiseUpper) (i := 0) (j := 0) (k := 3)
    ⟨by decide, by decide, by decide, by
      intro i j k i' j' k' h h' e
      simp only [NoiseGen.Stores, noiseAddr, exNoiseUpper, Matrix.cons_val_zero, Matrix.cons_val_one, Matrix.cons_val] at h h' e
      omega⟩
    (by simp [NoiseGen.Stores, exNoiseUpper]) (by decide) (by decide) mem

/-- The whole full field on 3×3×5 cells. -/
def exNoiseOdd : NoiseGen := ⟨![3, 3, 5], ![0, 0, 0], ![3, 3, 5], ![15, 5, 1], false⟩

theorem exNoiseOdd_plain : exNoiseOdd.Plain := by
  refine ⟨by decide, by decide, by decide, ?_⟩
  intro i j k i' j' k' h h' e
  simp only [NoiseGen.Stores, noiseAddr, exNoiseOdd, Matrix.cons_val_zero, Matrix.cons_val_one, Matrix.cons_val] at h h' e
  omega

theorem exNoiseOdd_mirrored : exNoiseOdd.Mirrored := by
  intro k h1 h2 h3
  simp [exNoiseOdd] at h1 h2 h3 ⊢
  omega

/-- Non-vacuity of the violation of C41: modes `1, 0, 1` and `1, 2, 1` are equal. -/
example := C41_violated_equal r polar rnd 1 7 (g := exNoiseOdd) exNoiseOdd_plain exNoiseOdd_mirrored rfl rfl (j := 0) (j' := 2) (k := 1)
  (by decide) (by decide) (by simp [NoiseGen.Stores, exNoiseOdd]) (by simp [NoiseGen.Stores, exNoiseOdd]) mem

/-- Non-vacuity of the violation of C39: modes `1, 0, 2` and `2, 0, 3`, which are opposite, are equal. -/
example := C39_violated_odd r polar rnd 7 2 (by decide) (g := exNoiseOdd) exNoiseOdd_plain exNoiseOdd_mirrored rfl (by decide) rfl
  (by simp [NoiseGen.Stores, exNoiseOdd]) (by simp [NoiseGen.Stores, exNoiseOdd]) mem

end

#print axioms C38_partition_partial
#print axioms C38_violated_split
#print axioms C39_hermitian
#print axioms C39_violated_odd
#print axioms C40_resolution
#print axioms C41_columns_partial
#print axioms C41_violated_odd
#print axioms C41_violated_equal
#print axioms C41_violated_oblong

end Pmesh
