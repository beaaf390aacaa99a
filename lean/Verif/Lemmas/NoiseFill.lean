import Verif.Lemmas.WhiteNoise

/-! # What the loops of the white noise generator write -/

set_option linter.unusedSectionVars false

namespace Pmesh

/-- A loop whose rounds write to different places. -/
theorem foldl_rows {ι V : Type} (f : (ℤ → V) → ι → ℤ → V) (A : ι → ℤ → Prop) (l : List ι) (hn : l.Nodup)
    (hf : ∀ x ∈ l, ∀ mem a, ¬A x a → f mem x a = mem a) (hd : ∀ x ∈ l, ∀ y ∈ l, ∀ a, A x a → A y a → x = y) (mem : ℤ → V) :
    (∀ x ∈ l, ∀ a, A x a → ∃ mem', l.foldl f mem a = f mem' x a) ∧
    ∀ a, (∀ x ∈ l, ¬A x a) → l.foldl f mem a = mem a := by
  induction l generalizing mem with
  | nil => exact ⟨fun x hx => absurd hx (by simp), fun a _ => rfl⟩
  | cons y l ih =>
    rw [List.nodup_cons] at hn
    obtain ⟨h1, h2⟩ := ih hn.2 (fun x hx => hf x (by simp [hx])) (fun x hx z hz => hd x (by simp [hx]) z (by simp [hz])) (f mem y)
    constructor
    · intro x hx a ha
      rcases List.mem_cons.1 hx with rfl | hx
      · refine ⟨mem, h2 a fun z hz hza => ?_⟩
        have := hd x (by simp) z (by simp [hz]) a ha hza
        exact hn.1 (this ▸ hz)
      · exact h1 x hx a ha
    · intro a ha
      rw [List.foldl_cons, h2 a fun x hx => ha x (by simp [hx]), hf y (by simp) mem a (ha y (by simp))]

theorem hasMode_iff {g : NoiseGen} {k : ℤ} : hasMode g k = true ↔ g.start 2 ≤ k ∧ k < g.start 2 + g.size 2 := by
  unfold hasMode
  rw [Bool.and_eq_true, decide_eq_true_iff, decide_eq_true_iff]
  omega

section
variable {σ D R : Type} [Field D] [LinearOrder D] [FloorRing D] (r : Rng σ D) [Ring R] (polar : Bool → D → D → R × R)

/-- Sample number `k` after `gsl_rng_set(rng, seed)`. -/
def sampleAt (seed k : ℕ) : D × D := (noiseSample r ((fun s => (noiseSample r s).2)^[k] (r.set seed))).1

/-- `use_conj`. -/
def useConj (g : NoiseGen) (i j k : ℤ) : Bool := upperHalf g i j && (decide (k = 0) || decide (k = (g.nmesh 2).tdiv 2))

theorem noiseLoop (g : NoiseGen) (i j sign : ℤ) (sl st : ℕ) (mem : ℤ → R × R)
    (hinj : ∀ z z', hasMode g z → hasMode g z' → noiseAddr g i j z = noiseAddr g i j z' → z = z') (m : ℕ) :
    ∃ mem', ((List.range m).map fun k : ℕ => (k : ℤ)).foldl (noiseStep r polar g i j sign) (r.set sl, r.set st, mem) =
        ((fun s => (noiseSample r s).2)^[m] (r.set sl), (fun s => (noiseSample r s).2)^[m] (r.set st), mem') ∧
      (∀ k : ℕ, k < m → hasMode g k → hasMode g (signedZ g sign k) → mem' (noiseAddr g i j (signedZ g sign k)) =
        modeValue polar g (sampleAt r (if useConj g i j k then sl else st) k) sign (useConj g i j k) i j (signedZ g sign k)) ∧
      ∀ a, (∀ k : ℕ, k < m → hasMode g k → hasMode g (signedZ g sign k) → a ≠ noiseAddr g i j (signedZ g sign k)) →
        mem' a = mem a := by
  induction m with
  | zero => exact ⟨mem, rfl, fun k hk => by omega, fun a _ => rfl⟩
  | succ m ih =>
    obtain ⟨mem', h1, h2, h3⟩ := ih
    rw [List.range_succ, List.map_append, List.foldl_append, h1]
    simp only [List.map_cons, List.map_nil, List.foldl_cons, List.foldl_nil]
    rw [Function.iterate_succ_apply', Function.iterate_succ_apply']
    have hs : ∀ k : ℕ, signedZ g sign k = signedZ g sign m → k = m := by
      intro k h
      unfold signedZ at h
      split_ifs at h <;> omega
    by_cases hm : hasMode g m
    · by_cases hz : hasMode g (signedZ g sign m)
      · refine ⟨fun a => if a = noiseAddr g i j (signedZ g sign m) then
          modeValue polar g (sampleAt r (if useConj g i j m then sl else st) m) sign (useConj g i j m) i j (signedZ g sign m)
          else mem' a, ?_, ?_, ?_⟩
        · unfold noiseStep
          simp only [hm, hz, Bool.not_true, Bool.false_eq_true, if_false, if_true]
          refine Prod.ext rfl (Prod.ext rfl ?_)
          funext a
          simp only
          refine if_congr Iff.rfl ?_ rfl
          change modeValue polar g (if useConj g i j m then _ else _) sign (useConj g i j m) i j _ = _
          congr 1
          cases useConj g i j m <;> rfl
        · intro k hk hmk hzk
          by_cases hkm : k = m
          · subst hkm
            simp only [if_true]
          · simp only
            rw [if_neg, h2 k (by omega) hmk hzk]
            intro h
            exact hkm (hs k (hinj _ _ hzk hz h))
        · intro a ha
          simp only
          rw [if_neg (ha m (by omega) hm hz), h3 a fun k hk => ha k (by omega)]
      · refine ⟨mem', ?_, ?_, fun a ha => h3 a fun k hk => ha k (by omega)⟩
        · unfold noiseStep
          simp only [hm, hz, Bool.not_true, Bool.false_eq_true, if_false]
        · intro k hk hmk hzk
          by_cases hkm : k = m
          · subst hkm; exact absurd hzk hz
          · exact h2 k (by omega) hmk hzk
    · refine ⟨mem', ?_, ?_, fun a ha => h3 a fun k hk => ha k (by omega)⟩
      · unfold noiseStep
        simp only [hm, Bool.not_false, if_true]
      · intro k hk hmk hzk
        by_cases hkm : k = m
        · subst hkm; exact absurd hmk hm
        · exact h2 k (by omega) hmk hzk

/-- The value of mode `i, j, z`, from the seeds of its column and of the opposite column. -/
def modeAt (g : NoiseGen) (s00 s11 : ℕ) (i j z : ℤ) : R × R :=
  if z ≤ g.nmesh 2 / 2 then
    modeValue polar g (sampleAt r (if useConj g i j z then s11 else s00) z.toNat) 1 (useConj g i j z) i j z
  else
    modeValue polar g (sampleAt r s11 (g.nmesh 2 - z).toNat) (-1) (useConj g i j (g.nmesh 2 - z)) i j z

theorem noiseSigns_eq {g : NoiseGen} (hg : g.Plain) :
    (noiseSigns g = [1] ∧ ∀ z, hasMode g z → z ≤ g.nmesh 2 / 2) ∨ noiseSigns g = [-1, 1] := by
  unfold noiseSigns
  split_ifs with h
  · exact .inr rfl
  · refine .inl ⟨rfl, fun z hz => ?_⟩
    by_contra hlt
    refine h (List.any_eq_true.2 ⟨z, ?_, hz⟩)
    rw [mem_intRange, Int.tdiv_eq_ediv_of_nonneg (hg.pos 2).le]
    have := hasMode_iff.1 hz
    have := hg.hi 2
    omega

theorem noiseColumn_eq {g : NoiseGen} (hg : g.Plain) (t : SeedTables) (i j : ℤ) (mem : ℤ → R × R)
    (hinj : ∀ z z', hasMode g z → hasMode g z' → noiseAddr g i j z = noiseAddr g i j z' → z = z') :
    (∀ z, hasMode g z → (g.nmesh 2 / 2 < z → hasMode g (g.nmesh 2 - z)) →
      noiseColumn r polar g t mem i j (noiseAddr g i j z) =
        modeAt r polar g (getSeed g t i j 0 0) (getSeed g t i j 1 1) i j z) ∧
    ∀ a, (∀ z, hasMode g z → (g.nmesh 2 / 2 < z → hasMode g (g.nmesh 2 - z)) → a ≠ noiseAddr g i j z) →
      noiseColumn r polar g t mem i j a = mem a := by
  have hN := hg.pos 2
  have hr : intRange 0 ((g.nmesh 2).tdiv 2 + 1) = (List.range ((g.nmesh 2) / 2 + 1).toNat).map fun k : ℕ => (k : ℤ) := by
    unfold intRange
    rw [Int.tdiv_eq_ediv_of_nonneg hN.le, sub_zero]
    simp
  have hpos : ∀ k, signedZ g 1 k = k := fun k => by unfold signedZ; rw [if_neg (by omega)]
  have hneg : ∀ k, signedZ g (-1) k = g.nmesh 2 - k := fun k => by unfold signedZ; rw [if_pos rfl]
  -- the positive half
  have hp : ∀ mem : ℤ → R × R, ∃ mem', ((intRange 0 ((g.nmesh 2).tdiv 2 + 1)).foldl (noiseStep r polar g i j 1)
      (r.set (getSeed g t i j (if upperHalf g i j then 1 else 0) (if upperHalf g i j then 1 else 0)),
        r.set (getSeed g t i j 0 0), mem)).2.2 = mem' ∧
      (∀ z, z ≤ g.nmesh 2 / 2 → hasMode g z → mem' (noiseAddr g i j z) =
        modeAt r polar g (getSeed g t i j 0 0) (getSeed g t i j 1 1) i j z) ∧
      ∀ a, (∀ z, z ≤ g.nmesh 2 / 2 → hasMode g z → a ≠ noiseAddr g i j z) → mem' a = mem a := by
    intro mem
    rw [hr]
    obtain ⟨mem', h1, h2, h3⟩ := noiseLoop r polar g i j 1
      (getSeed g t i j (if upperHalf g i j then 1 else 0) (if upperHalf g i j then 1 else 0)) (getSeed g t i j 0 0) mem hinj
      ((g.nmesh 2) / 2 + 1).toNat
    refine ⟨mem', by rw [h1], ?_, ?_⟩
    · intro z hz hm
      have h0 : 0 ≤ z := by have := hasMode_iff.1 hm; have := hg.lo 2; omega
      obtain ⟨k, rfl⟩ : ∃ k : ℕ, z = k := ⟨z.toNat, by omega⟩
      have := h2 k (by omega) hm (by rw [hpos]; exact hm)
      rw [hpos] at this
      rw [this]
      unfold modeAt
      rw [if_pos hz, Int.toNat_natCast]
      congr 2
      by_cases hu : useConj g i j k
      · have : upperHalf g i j = true := by
          unfold useConj at hu
          exact (Bool.and_eq_true _ _ ▸ hu).1
        rw [if_pos hu, if_pos hu, if_pos this]
      · rw [if_neg hu, if_neg hu]
    · intro a ha
      refine h3 a fun k hk _ hm => ?_
      rw [hpos] at hm ⊢
      exact ha k (by omega) hm
  rcases noiseSigns_eq hg with ⟨hs, hz⟩ | hs
  · unfold noiseColumn
    rw [hs]
    simp only [List.foldl_cons, List.foldl_nil, if_true]
    obtain ⟨mem', h1, h2, h3⟩ := hp mem
    rw [h1]
    exact ⟨fun z hm _ => h2 z (hz z hm) hm, fun a ha => h3 a fun z hz hm => ha z hm fun h => absurd h (by omega)⟩
  · unfold noiseColumn
    rw [hs]
    simp only [List.foldl_cons, List.foldl_nil, if_true]
    rw [if_neg (show ¬((-1 : ℤ) = 1) by omega)]
    obtain ⟨memn, n1, n2, n3⟩ := noiseLoop r polar g i j (-1)
      (getSeed g t i j (if upperHalf g i j then 1 else 0) (if upperHalf g i j then 1 else 0)) (getSeed g t i j 1 1) mem hinj
      ((g.nmesh 2) / 2 + 1).toNat
    rw [← hr] at n1
    rw [n1]
    simp only
    obtain ⟨mem', h1, h2, h3⟩ := hp memn
    rw [h1]
    constructor
    · intro z hm hmir
      by_cases hz : z ≤ g.nmesh 2 / 2
      · exact h2 z hz hm
      · have hb := hasMode_iff.1 hm
        have hhi := hg.hi 2
        rw [h3 _ fun z' hz' hm' e => hz (by rw [hinj _ _ hm hm' e]; exact hz')]
        obtain ⟨k, hk⟩ : ∃ k : ℕ, g.nmesh 2 - z = k := ⟨(g.nmesh 2 - z).toNat, by omega⟩
        have hzk : g.nmesh 2 - (k : ℤ) = z := by omega
        have := n2 k (by omega) (by rw [← hk]; exact hmir (by omega)) (by rw [hneg, hzk]; exact hm)
        rw [hneg, hzk] at this
        rw [this]
        unfold modeAt
        rw [if_neg hz, hk, Int.toNat_natCast]
        congr 2
        by_cases hu : useConj g i j k
        · have : upperHalf g i j = true := by
            unfold useConj at hu
            exact (Bool.and_eq_true _ _ ▸ hu).1
          rw [if_pos hu, if_pos this]
        · rw [if_neg hu]
    · intro a ha
      rw [h3 a fun z hz hm => ha z hm fun h => absurd h (by omega)]
      refine n3 a fun k _ hk hm => ha _ hm fun _ => ?_
      rw [hneg, sub_sub_cancel]
      exact hk

/-- Everything that `_generic_fill` writes. -/
theorem genericFill_eq {g : NoiseGen} (hg : g.Plain) (rnd : D → D) (seed : ℕ) (mem : ℤ → R × R) :
    (∀ i j z, g.Stores i j z → (g.nmesh 2 / 2 < z → hasMode g (g.nmesh 2 - z)) →
      genericFill r polar rnd g seed mem (noiseAddr g i j z) =
        modeAt r polar g (colSeed (g.nmesh 0) (g.nmesh 1) 0 0 i j (seedCalls r rnd (g.nmesh 0) (g.nmesh 1) seed))
          (colSeed (g.nmesh 0) (g.nmesh 1) 1 1 i j (seedCalls r rnd (g.nmesh 0) (g.nmesh 1) seed)) i j z) ∧
    ∀ a, (∀ i j z, g.Stores i j z → (g.nmesh 2 / 2 < z → hasMode g (g.nmesh 2 - z)) → a ≠ noiseAddr g i j z) → genericFill r polar rnd g seed mem a = mem a := by
  set t := seedTables r rnd g seed with ht
  have hcol : ∀ i j, (g.start 0 ≤ i ∧ i < g.start 0 + g.size 0) → (g.start 1 ≤ j ∧ j < g.start 1 + g.size 1) → ∀ mem : ℤ → R × R, _ :=
    fun i j hi hj mem => noiseColumn_eq r polar hg t i j mem fun z z' hz hz' h =>
      (hg.inj i j z i j z' ⟨hi, hj, hasMode_iff.1 hz⟩ ⟨hi, hj, hasMode_iff.1 hz'⟩ h).2.2
  have hrow : ∀ i, (g.start 0 ≤ i ∧ i < g.start 0 + g.size 0) → ∀ mem : ℤ → R × R, _ := fun i hi mem =>
    foldl_rows (fun mem j => noiseColumn r polar g t mem i j) (fun j a => ∃ z, hasMode g z ∧ (g.nmesh 2 / 2 < z → hasMode g (g.nmesh 2 - z)) ∧ a = noiseAddr g i j z)
      (intRange (g.start 1) (g.start 1 + g.size 1)) (intRange_nodup _ _)
      (by
        intro j hj mem a ha
        refine (hcol i j hi (mem_intRange.1 hj) mem).2 a fun z hz hm e => ha ⟨z, hz, hm, e⟩)
      (by
        rintro j hj j' hj' a ⟨z, hz, _, e⟩ ⟨z', hz', _, e'⟩
        exact (hg.inj i j z i j' z' ⟨hi, mem_intRange.1 hj, hasMode_iff.1 hz⟩ ⟨hi, mem_intRange.1 hj', hasMode_iff.1 hz'⟩
          (e.symm.trans e')).2.1) mem
  obtain ⟨h1, h2⟩ := foldl_rows (fun mem i => (intRange (g.start 1) (g.start 1 + g.size 1)).foldl
      (fun mem j => noiseColumn r polar g t mem i j) mem) (fun i a => ∃ j z, g.Stores i j z ∧ (g.nmesh 2 / 2 < z → hasMode g (g.nmesh 2 - z)) ∧ a = noiseAddr g i j z)
      (intRange (g.start 0) (g.start 0 + g.size 0)) (intRange_nodup _ _)
      (by
        intro i hi mem a ha
        refine (hrow i (mem_intRange.1 hi) mem).2 a ?_
        rintro j hj ⟨z, hz, hm, e⟩
        exact ha ⟨j, z, ⟨mem_intRange.1 hi, mem_intRange.1 hj, hasMode_iff.1 hz⟩, hm, e⟩)
      (by
        rintro i hi i' hi' a ⟨j, z, hz, _, e⟩ ⟨j', z', hz', _, e'⟩
        exact (hg.inj i j z i' j' z' hz hz' (e.symm.trans e')).1) mem
  constructor
  · intro i j z hs hm
    obtain ⟨mem', e⟩ := h1 i (mem_intRange.2 hs.1) _ ⟨j, z, hs, hm, rfl⟩
    obtain ⟨mem'', e'⟩ := (hrow i hs.1 mem').1 j (mem_intRange.2 hs.2.1) _ ⟨z, hasMode_iff.2 hs.2.2, hm, rfl⟩
    have e'' := (hcol i j hs.1 hs.2.1 mem'').1 z (hasMode_iff.2 hs.2.2) hm
    rw [getSeed_eq r rnd g seed i j hs.1 hs.2.1 (by omega) (by omega), getSeed_eq r rnd g seed i j hs.1 hs.2.1 (by omega) (by omega)] at e''
    exact e.trans (e'.trans e'')
  · intro a ha
    refine h2 a ?_
    rintro i hi ⟨j, z, hs, hm, e⟩
    exact ha i j z hs hm e

end
end Pmesh
