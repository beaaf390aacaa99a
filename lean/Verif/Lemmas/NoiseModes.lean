import Verif.Lemmas.NoiseFill

/-! # Symmetries of the values that the white noise generator writes -/

set_option linter.unusedSectionVars false

namespace Pmesh

theorem conjIndex_self {n i : ℤ} (h0 : 0 ≤ i) (hi : i < n) : (n - i).tmod n = i ↔ i = 0 ∨ 2 * i = n := by
  have := conjIndex_one h0 hi
  unfold conjIndex at this
  rw [if_neg (by omega)] at this
  rw [this]
  split_ifs <;> omega

theorem opposite_eq {n i i' : ℤ} (h0 : 0 ≤ i) (hi : i < n) (h0' : 0 ≤ i') (hi' : i' < n) (h : (i + i') % n = 0) :
    i' = if i = 0 then 0 else n - i := by
  obtain ⟨q, hq⟩ := Int.dvd_of_emod_eq_zero h
  have hq0 : -1 < q := by
    by_contra hc
    have : n * q ≤ n * (-1) := mul_le_mul_of_nonneg_left (by omega) (by omega)
    omega
  have hq2 : q < 2 := by
    by_contra hc
    have : n * 2 ≤ n * q := mul_le_mul_of_nonneg_left (by omega) (by omega)
    omega
  obtain rfl | rfl : q = 0 ∨ q = 1 := by omega
  · split_ifs <;> omega
  · split_ifs <;> omega

theorem mirrorIndex_eq {n i : ℤ} (h0 : 0 ≤ i) : mirrorIndex n i = if i = 0 then 0 else n - i := by
  unfold mirrorIndex
  split_ifs <;> omega

theorem upperHalf_iff {g : NoiseGen} {i j : ℤ} : upperHalf g i j = true ↔
    mirrorIndex (g.nmesh 0) i < i ∨ (mirrorIndex (g.nmesh 0) i = i ∧ mirrorIndex (g.nmesh 1) j < j) := by
  unfold upperHalf
  simp only [Bool.or_eq_true, Bool.and_eq_true, decide_eq_true_iff]
  omega

section
variable {D R : Type} [Field D] [LinearOrder D] [FloorRing D] [Ring R] (polar : Bool → D → D → R × R)

theorem modeValue_same {g g' : NoiseGen} (hs : g.SameField g') (x : D × D) (sign : ℤ) (c : Bool) (i j z : ℤ) :
    modeValue polar g x sign c i j z = modeValue polar g' x sign c i j z := by
  unfold modeValue
  rw [hs.1, hs.2]

theorem useConj_same {g g' : NoiseGen} (hs : g.SameField g') (i j k : ℤ) : useConj g i j k = useConj g' i j k := by
  unfold useConj upperHalf
  rw [hs.1]

theorem modeAt_same {σ : Type} (r : Rng σ D) {g g' : NoiseGen} (hs : g.SameField g') (a b : ℕ) (i j z : ℤ) :
    modeAt r polar g a b i j z = modeAt r polar g' a b i j z := by
  unfold modeAt
  simp only [useConj_same hs, modeValue_same polar hs]
  rw [hs.1]

/-- Opposite modes with the same sample and one sign change are conjugate. -/
theorem modeValue_conj {g : NoiseGen} (x : D × D) (s s' : ℤ) (c c' : Bool) {i j z i' j' z' : ℤ}
    (hi : 0 ≤ i ∧ i < g.nmesh 0) (hj : 0 ≤ j ∧ j < g.nmesh 1) (hz : 0 ≤ z ∧ z < g.nmesh 2)
    (ei : i' = if i = 0 then 0 else g.nmesh 0 - i) (ej : j' = if j = 0 then 0 else g.nmesh 1 - j)
    (ez : z' = if z = 0 then 0 else g.nmesh 2 - z) (hsc : (i = i' ∧ j = j' ∧ z = z') ∨ (xor (decide (s = -1)) c ≠ xor (decide (s' = -1)) c')) :
    (modeValue polar g x s' c' i' j' z').1 = (modeValue polar g x s c i j z).1 ∧
    (modeValue polar g x s' c' i' j' z').2 = -(modeValue polar g x s c i j z).2 := by
  have hi' : 0 ≤ i' ∧ i' < g.nmesh 0 := by rw [ei]; split_ifs <;> omega
  have hj' : 0 ≤ j' ∧ j' < g.nmesh 1 := by rw [ej]; split_ifs <;> omega
  have hz' : 0 ≤ z' ∧ z' < g.nmesh 2 := by rw [ez]; split_ifs <;> omega
  unfold modeValue
  simp only [conjIndex_self hi.1 hi.2, conjIndex_self hj.1 hj.2, conjIndex_self hz.1 hz.2, conjIndex_self hi'.1 hi'.2,
    conjIndex_self hj'.1 hj'.2, conjIndex_self hz'.1 hz'.2]
  have q1 : (i' = 0 ∨ 2 * i' = g.nmesh 0) ↔ (i = 0 ∨ 2 * i = g.nmesh 0) := by rw [ei]; split_ifs <;> omega
  have q2 : (j' = 0 ∨ 2 * j' = g.nmesh 1) ↔ (j = 0 ∨ 2 * j = g.nmesh 1) := by rw [ej]; split_ifs <;> omega
  have q3 : (z' = 0 ∨ 2 * z' = g.nmesh 2) ↔ (z = 0 ∨ 2 * z = g.nmesh 2) := by rw [ez]; split_ifs <;> omega
  have q4 : (i' = 0 ∧ j' = 0 ∧ z' = 0) ↔ (i = 0 ∧ j = 0 ∧ z = 0) := by rw [ei, ej, ez]; split_ifs <;> omega
  have q5 : (i = i' ∧ j = j' ∧ z = z') ↔ (i = 0 ∨ 2 * i = g.nmesh 0) ∧ (j = 0 ∨ 2 * j = g.nmesh 1) ∧ (z = 0 ∨ 2 * z = g.nmesh 2) := by
    rw [ei, ej, ez]; split_ifs <;> omega
  simp only [q1, q2, q3, q4]
  rw [q5] at hsc
  by_cases h0 : i = 0 ∧ j = 0 ∧ z = 0
  · simp [h0]
  · simp only [h0, if_false]
    by_cases hself : (i = 0 ∨ 2 * i = g.nmesh 0) ∧ (j = 0 ∨ 2 * j = g.nmesh 1) ∧ (z = 0 ∨ 2 * z = g.nmesh 2)
    · simp [hself]
    · have hsc := hsc.resolve_left hself
      simp only [hself, if_false]
      refine ⟨trivial, ?_⟩
      clear q1 q2 q3 q4 q5 hself h0 ei ej ez hi hj hz hi' hj' hz'
      by_cases h1 : s = -1 <;> by_cases h2 : s' = -1 <;> cases c <;> cases c' <;> simp [h1, h2] at hsc ⊢

/-- A mode that is its own opposite is real. -/
theorem modeValue_self {g : NoiseGen} (x : D × D) (s : ℤ) (c : Bool) {i j z : ℤ}
    (hi : 0 ≤ i ∧ i < g.nmesh 0) (hj : 0 ≤ j ∧ j < g.nmesh 1) (hz : 0 ≤ z ∧ z < g.nmesh 2)
    (h : (i = 0 ∨ 2 * i = g.nmesh 0) ∧ (j = 0 ∨ 2 * j = g.nmesh 1) ∧ (z = 0 ∨ 2 * z = g.nmesh 2)) :
    (modeValue polar g x s c i j z).2 = 0 := by
  unfold modeValue
  simp only [conjIndex_self hi.1 hi.2, conjIndex_self hj.1 hj.2, conjIndex_self hz.1 hz.2]
  rw [if_pos h]
  split_ifs <;> rfl

/-- The mesh does not matter below the Nyquist frequency. -/
theorem modeValue_mesh {g g' : NoiseGen} (hu : g.unitary = g'.unitary) (x : D × D) (s : ℤ) (e : Bool) {a b c : ℤ}
    (h : 2 * |a| < g.nmesh 0 ∧ 2 * |b| < g.nmesh 1 ∧ 2 * |c| < g.nmesh 2)
    (h' : 2 * |a| < g'.nmesh 0 ∧ 2 * |b| < g'.nmesh 1 ∧ 2 * |c| < g'.nmesh 2) :
    modeValue polar g x s e (modeIndex (g.nmesh 0) a) (modeIndex (g.nmesh 1) b) (modeIndex (g.nmesh 2) c) =
    modeValue polar g' x s e (modeIndex (g'.nmesh 0) a) (modeIndex (g'.nmesh 1) b) (modeIndex (g'.nmesh 2) c) := by
  have key : ∀ n a : ℤ, 2 * |a| < n → ((n - modeIndex n a).tmod n = modeIndex n a ↔ a = 0) ∧ (modeIndex n a = 0 ↔ a = 0) := by
    intro n a h
    have h1 := neg_abs_le a
    have h2 := le_abs_self a
    have h0 : 0 ≤ modeIndex n a ∧ modeIndex n a < n := by unfold modeIndex; split_ifs <;> omega
    rw [conjIndex_self h0.1 h0.2]
    unfold modeIndex
    constructor <;> split_ifs <;> omega
  unfold modeValue
  simp only [(key _ _ h.1).1, (key _ _ h.1).2, (key _ _ h.2.1).1, (key _ _ h.2.1).2, (key _ _ h.2.2).1, (key _ _ h.2.2).2,
    (key _ _ h'.1).1, (key _ _ h'.1).2, (key _ _ h'.2.1).1, (key _ _ h'.2.1).2, (key _ _ h'.2.2).1, (key _ _ h'.2.2).2, hu]

/-- The seed of a mode number, on every even square mesh that has it. -/
theorem colSeed_shell {σ : Type} (r : Rng σ D) (rnd : D → D) (h : ℕ) (seed : ℕ) {a b : ℤ} (hab : (a, b) ∈ shells h) :
    colSeed (2 * h) (2 * h) 0 0 (modeIndex (2 * h) a) (modeIndex (2 * h) b) (seedCalls r rnd (2 * h) (2 * h) seed) =
      toSeed rnd (r.uniform seed ((shells h).idxOf (a, b))) := by
  have e : ((2 * h : ℤ) / 2).toNat = h := by omega
  refine colSeed_draw r rnd (by omega) seed _ ?_
  rw [seedVisits_eq (by omega), e, List.getElem?_map, List.getElem?_idxOf hab]
  rfl

theorem idxOf_shells {h h' : ℕ} {a b : ℤ} (hab : (a, b) ∈ shells h) (hab' : (a, b) ∈ shells h') :
    (shells h).idxOf (a, b) = (shells h').idxOf (a, b) := by
  rcases le_total h h' with hh | hh
  · obtain ⟨l, e⟩ := shells_prefix hh
    rw [e, List.idxOf_append_of_mem hab]
  · obtain ⟨l, e⟩ := shells_prefix hh
    rw [e, List.idxOf_append_of_mem hab']

end
end Pmesh
