import Verif.Props.WhiteNoise

/-! # Which sample of the random generator a mode is made of -/

namespace Pmesh

/-- The opposite index. -/
def oppI (n i : ℤ) : ℤ := if i = 0 then 0 else n - i

/-- The column whose random stream makes the mode, and the number of the sample in that stream. -/
def noiseKey (g : NoiseGen) (i j z : ℤ) : (ℤ × ℤ) × ℕ :=
  if z ≤ g.nmesh 2 / 2 then (if useConj g i j z then (oppI (g.nmesh 0) i, oppI (g.nmesh 1) j) else (i, j), z.toNat)
  else ((oppI (g.nmesh 0) i, oppI (g.nmesh 1) j), (g.nmesh 2 - z).toNat)

theorem noiseKey_inj {g g' : NoiseGen} (hn : g'.nmesh = g.nmesh) (heven : g.nmesh 2 % 2 = 0) {i j z i' j' z' : ℤ}
    (hi : 0 ≤ i ∧ i < g.nmesh 0) (hj : 0 ≤ j ∧ j < g.nmesh 1) (hz : 0 ≤ z ∧ z < g.nmesh 2)
    (hi' : 0 ≤ i' ∧ i' < g.nmesh 0) (hj' : 0 ≤ j' ∧ j' < g.nmesh 1) (hz' : 0 ≤ z' ∧ z' < g.nmesh 2)
    (h : noiseKey g i j z = noiseKey g' i' j' z') :
    (i = i' ∧ j = j' ∧ z = z') ∨ (i = oppI (g.nmesh 0) i' ∧ j = oppI (g.nmesh 1) j' ∧ z = oppI (g.nmesh 2) z') := by
  have u : ∀ i j z, useConj g' i j z = useConj g i j z := by
    intro i j z
    unfold useConj upperHalf
    rw [hn]
  have hc : ∀ i j z, useConj g i j z = true → z = 0 ∨ z = g.nmesh 2 / 2 := by
    intro i j z h
    unfold useConj at h
    rw [Bool.and_eq_true, Bool.or_eq_true, decide_eq_true_iff, decide_eq_true_iff, Int.tdiv_eq_ediv_of_nonneg (by omega)] at h
    exact h.2
  unfold noiseKey at h
  simp only [hn, u] at h
  unfold oppI at h ⊢
  have a1 := hc i j z
  have a2 := hc i' j' z'
  by_cases h1 : z ≤ g.nmesh 2 / 2 <;> by_cases h2 : z' ≤ g.nmesh 2 / 2 <;> simp only [h1, h2, if_true, if_false] at h <;>
    by_cases c1 : useConj g i j z = true <;> by_cases c2 : useConj g i' j' z' = true <;>
    simp only [c1, c2, if_true, if_false, Prod.mk.injEq, forall_true_left, Bool.false_eq_true] at h a1 a2 <;>
    (obtain ⟨⟨e1, e2⟩, e3⟩ := h; split_ifs at e1 e2 ⊢ <;> omega)

/-- Number of the column in the order in which they get their seeds. -/
def drawOf (N : ℤ) (c : ℤ × ℤ) : ℕ := (seedVisits N N).idxOf c

theorem mem_visits {N : ℤ} (hN : 0 ≤ N) (heven : N % 2 = 0) {i j : ℤ} : (i, j) ∈ seedVisits N N ↔ (0 ≤ i ∧ i < N) ∧ 0 ≤ j ∧ j < N := by
  rw [mem_seedVisits hN]
  omega

theorem drawOf_lt {N : ℤ} (hN : 0 ≤ N) (heven : N % 2 = 0) {i j : ℤ} (hi : 0 ≤ i ∧ i < N) (hj : 0 ≤ j ∧ j < N) :
    (drawOf N (i, j) : ℤ) < N * N := by
  have hlen : ((seedVisits N N).length : ℤ) = N * N := by
    have : (seedVisits N N).Perm (intRange 0 N ×ˢ intRange 0 N) := by
      refine (List.perm_ext_iff_of_nodup (seedVisits_nodup hN) ((intRange_nodup _ _).product (intRange_nodup _ _))).2 fun v => ?_
      obtain ⟨i, j⟩ := v
      rw [mem_visits hN heven, List.mem_product, mem_intRange, mem_intRange]
    rw [this.length_eq, List.length_product]
    unfold intRange
    rw [List.length_map, List.length_range]
    push_cast
    rw [sub_zero, Int.toNat_of_nonneg hN]
  have := List.idxOf_lt_length_of_mem ((mem_visits hN heven).2 ⟨hi, hj⟩)
  unfold drawOf
  omega

theorem drawOf_inj {N : ℤ} (hN : 0 ≤ N) (heven : N % 2 = 0) {i j i' j' : ℤ} (hi : 0 ≤ i ∧ i < N) (hj : 0 ≤ j ∧ j < N)
    (h : drawOf N (i, j) = drawOf N (i', j')) : (i, j) = (i', j') :=
  (List.idxOf_inj ((mem_visits hN heven).2 ⟨hi, hj⟩)).1 h

section
variable {σ D R : Type} [Field D] [LinearOrder D] [FloorRing D] (r : Rng σ D) [Ring R] (polar : Bool → D → D → R × R) (rnd : D → D)

/-- The seed of the stream that makes the mode. -/
def noiseSeed (N : ℤ) (seed : ℕ) (c : ℤ × ℤ) : ℕ := toSeed rnd (r.uniform seed (drawOf N c))

/-- The value of a mode, as a function of its sample. -/
def noiseOf (g : NoiseGen) (i j z : ℤ) (x : D × D) : R × R :=
  if z ≤ g.nmesh 2 / 2 then modeValue polar g x 1 (useConj g i j z) i j z
  else modeValue polar g x (-1) (useConj g i j (g.nmesh 2 - z)) i j z

theorem genericFill_key {g : NoiseGen} (hg : g.Plain) (hm : g.Mirrored) {N : ℤ} (h0 : g.nmesh 0 = N) (h1 : g.nmesh 1 = N)
    (heven : N % 2 = 0) (seed : ℕ) (mem : ℤ → R × R) {i j z : ℤ} (h : g.Stores i j z) :
    genericFill r polar rnd g seed mem (noiseAddr g i j z) =
      noiseOf polar g i j z (sampleAt r (noiseSeed r rnd N seed (noiseKey g i j z).1) (noiseKey g i j z).2) := by
  obtain ⟨ri, rj, rk⟩ : (0 ≤ i ∧ i < g.nmesh 0) ∧ (0 ≤ j ∧ j < g.nmesh 1) ∧ 0 ≤ z ∧ z < g.nmesh 2 := by
    have a := hg.lo 0
    have b := hg.lo 1
    have c := hg.lo 2
    have a' := hg.hi 0
    have b' := hg.hi 1
    have c' := hg.hi 2
    unfold NoiseGen.Stores at h
    omega
  rw [(genericFill_eq r polar hg rnd seed mem).1 i j z h (mirror_written hg hm h)]
  have hN : 0 ≤ N := by omega
  have key : ∀ i j, (0 ≤ i ∧ i < N) → (0 ≤ j ∧ j < N) → colSeed N N 0 0 i j (seedCalls r rnd N N seed) =
      noiseSeed r rnd N seed (i, j) := fun i j a b =>
    colSeed_draw r rnd hN seed _ (List.getElem?_idxOf ((mem_visits hN heven).2 ⟨a, b⟩))
  have opp : colSeed N N 1 1 i j (seedCalls r rnd N N seed) = noiseSeed r rnd N seed (oppI N i, oppI N j) := by
    rw [colSeed_conj _ (seedCalls_range r rnd hN seed) (by omega) (by omega), conjIndex_one (by omega) (by omega),
      conjIndex_one (by omega) (by omega)]
    exact key _ _ (by split_ifs <;> omega) (by split_ifs <;> omega)
  rw [h0, h1, key i j (by omega) (by omega), opp]
  unfold modeAt noiseOf noiseKey
  rw [h0, h1]
  by_cases hz : z ≤ g.nmesh 2 / 2
  · simp only [hz, if_true]
    congr 2
    by_cases hu : useConj g i j z = true <;> simp only [hu, if_true, if_false, Bool.false_eq_true]
  · simp only [hz, if_false]

/-- A mode that is not its own opposite. -/
theorem noiseOf_pair {g : NoiseGen} {i j z : ℤ} (hi : 0 ≤ i ∧ i < g.nmesh 0) (hj : 0 ≤ j ∧ j < g.nmesh 1) (hz : 0 ≤ z ∧ z < g.nmesh 2)
    (h : ¬(i = oppI (g.nmesh 0) i ∧ j = oppI (g.nmesh 1) j ∧ z = oppI (g.nmesh 2) z)) :
    (∀ x, noiseOf polar g i j z x = polar g.unitary x.1 x.2) ∨
      ∀ x, noiseOf polar g i j z x = ((polar g.unitary x.1 x.2).1, -(polar g.unitary x.1 x.2).2) := by
  have hs : ¬((i = 0 ∨ 2 * i = g.nmesh 0) ∧ (j = 0 ∨ 2 * j = g.nmesh 1) ∧ (z = 0 ∨ 2 * z = g.nmesh 2)) := by
    unfold oppI at h
    rintro ⟨a, b, c⟩
    apply h
    refine ⟨?_, ?_, ?_⟩ <;> split_ifs <;> omega
  have h0 : ¬(i = 0 ∧ j = 0 ∧ z = 0) := fun ⟨a, b, c⟩ => hs ⟨Or.inl a, Or.inl b, Or.inl c⟩
  unfold noiseOf modeValue
  simp only [conjIndex_self hi.1 hi.2, conjIndex_self hj.1 hj.2, conjIndex_self hz.1 hz.2, hs, h0, if_false]
  by_cases c : z ≤ g.nmesh 2 / 2 <;> simp only [c, if_true, if_false]
  · cases useConj g i j z
    · exact Or.inl fun x => by simp
    · exact Or.inr fun x => by simp
  · cases useConj g i j (g.nmesh 2 - z)
    · exact Or.inr fun x => by simp
    · exact Or.inl fun x => by simp

/-- A mode that is its own opposite. -/
theorem noiseOf_self {g : NoiseGen} {i j z : ℤ} (hi : 0 ≤ i ∧ i < g.nmesh 0) (hj : 0 ≤ j ∧ j < g.nmesh 1) (hz : 0 ≤ z ∧ z < g.nmesh 2)
    (h : i = oppI (g.nmesh 0) i ∧ j = oppI (g.nmesh 1) j ∧ z = oppI (g.nmesh 2) z) (h0 : ¬(i = 0 ∧ j = 0 ∧ z = 0)) (x : D × D) :
    noiseOf polar g i j z x = (if g.unitary then 1 else (polar g.unitary x.1 x.2).1, 0) := by
  have hs : (i = 0 ∨ 2 * i = g.nmesh 0) ∧ (j = 0 ∨ 2 * j = g.nmesh 1) ∧ (z = 0 ∨ 2 * z = g.nmesh 2) := by
    unfold oppI at h
    obtain ⟨a, b, c⟩ := h
    refine ⟨?_, ?_, ?_⟩
    · split_ifs at a <;> omega
    · split_ifs at b <;> omega
    · split_ifs at c <;> omega
  unfold noiseOf modeValue
  simp only [conjIndex_self hi.1 hi.2, conjIndex_self hj.1 hj.2, conjIndex_self hz.1 hz.2, if_pos hs, h0, if_false]
  split_ifs <;> rfl

/-- If no number is zero the samples are made of consecutive pairs. -/
theorem sampleAt_eq {s : ℕ} (h : ∀ m, r.uniform s m ≠ 0) (k : ℕ) :
    sampleAt r s k = (r.uniform s (2 * k + 1), r.uniform s (2 * k)) := by
  have one : ∀ m, noiseSample r ((fun s => (r.next s).2)^[m] (r.set s)) =
      ((r.uniform s (m + 1), r.uniform s m), (fun s => (r.next s).2)^[m + 2] (r.set s)) := by
    intro m
    have h1 := h (m + 1)
    unfold Rng.uniform at h1 ⊢
    unfold noiseSample
    rw [Function.iterate_succ_apply'] at h1 ⊢
    simp only [waitNonzero]
    rw [if_neg h1, Function.iterate_succ_apply' _ (m + 1), Function.iterate_succ_apply' _ m]
  have it : ∀ k, (fun s => (noiseSample r s).2)^[k] (r.set s) = (fun s => (r.next s).2)^[2 * k] (r.set s) := by
    intro k
    induction k with
    | zero => rfl
    | succ k ih => rw [Function.iterate_succ_apply', ih, one, Nat.mul_succ]
  unfold sampleAt
  rw [it, one]

end
end Pmesh
