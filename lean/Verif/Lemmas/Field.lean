import Verif.Spec.Field
import Verif.Lemmas.Index
import Verif.Lemmas.Mesh
import Verif.Lemmas.Spmd

set_option linter.unusedSectionVars false

namespace Pmesh

theorem ValidIndex.len {shape c : List ℕ} (h : ValidIndex shape c) : c.length = shape.length := (validIndex_iff.1 h).1

section Tiles
variable {t : Tiling}

theorem Tiling.OK.cshape_len (ht : t.OK) : t.cshape.length = t.nmesh.length := ht.stored_le.length_eq

/-- The test and the subtraction of `_ctol`, on lists. -/
theorem ctol_lists (s l g : List ℕ) (hs : s.length = g.length) (hl : l.length = g.length) :
    (((List.zipWith (fun (i : ℤ) (s : ℕ) => decide (i ≥ s)) (g.map (Nat.cast : ℕ → ℤ)) s).all id &&
      (List.zipWith (fun (i : ℤ) (e : ℕ) => decide (i < e)) (g.map (Nat.cast : ℕ → ℤ)) (List.zipWith (· + ·) s l)).all id) = true ↔
      ∃ c, ValidIndex l c ∧ List.zipWith (· + ·) s c = g) ∧
    ∀ c, ValidIndex l c → List.zipWith (· + ·) s c = g →
      List.zipWith (fun (i : ℤ) (s : ℕ) => (i - s).toNat) (g.map (Nat.cast : ℕ → ℤ)) s = c := by
  induction g generalizing s l with
  | nil =>
    have h1 : s = [] := List.length_eq_zero_iff.1 hs
    have h2 : l = [] := List.length_eq_zero_iff.1 hl
    subst h1; subst h2
    refine ⟨by simpa using ⟨[], List.Forall₂.nil⟩, ?_⟩
    intro c hc _
    cases hc
    rfl
  | cons a g ih =>
    obtain _ | ⟨x, s⟩ := s
    · simp at hs
    obtain _ | ⟨y, l⟩ := l
    · simp at hl
    obtain ⟨h1, h2⟩ := ih s l (by simpa using hs) (by simpa using hl)
    constructor
    · simp only [List.map_cons, List.zipWith_cons_cons, List.all_cons, id_eq, Bool.and_eq_true, decide_eq_true_eq] at h1 ⊢
      constructor
      · rintro ⟨⟨ha, hb⟩, hc, hd⟩
        obtain ⟨c, hc1, hc2⟩ := h1.1 ⟨hb, hd⟩
        refine ⟨(a - x) :: c, .cons (by omega) hc1, ?_⟩
        rw [List.zipWith_cons_cons, hc2]
        congr 1
        omega
      · rintro ⟨c, hc, he⟩
        cases hc with
        | cons hu hv =>
          rw [List.zipWith_cons_cons, List.cons.injEq] at he
          obtain ⟨h3, h4⟩ := h1.2 ⟨_, hv, he.2⟩
          exact ⟨⟨by omega, h3⟩, by push_cast; omega, h4⟩
    · intro c hc he
      cases hc with
      | cons hu hv =>
        rw [List.zipWith_cons_cons, List.cons.injEq] at he
        rw [List.map_cons, List.zipWith_cons_cons, h2 _ hv he.2]
        congr 1
        omega

theorem unNegative_eq {nmesh : List ℕ} {index : List ℤ} (h : IndexInRange nmesh index) :
    unNegative nmesh index = (meant nmesh index).map (Nat.cast : ℕ → ℤ) := by
  unfold unNegative meant
  induction h with
  | nil => rfl
  | @cons n i ns is h _ ih =>
    simp only [List.zipWith_cons_cons, List.map_cons, ih, List.cons.injEq, and_true]
    by_cases h0 : i < 0
    · rw [if_pos h0]
      have : i % n = i + n := by rw [← Int.add_emod_right, Int.emod_eq_of_lt (by omega) (by omega)]
      omega
    · rw [if_neg h0]
      have : i % n = i := Int.emod_eq_of_lt (by omega) (by omega)
      omega

theorem meant_valid {nmesh : List ℕ} {index : List ℤ} (h : IndexInRange nmesh index) : ValidIndex nmesh (meant nmesh index) := by
  unfold meant
  induction h with
  | nil => exact .nil
  | @cons n i ns is h _ ih =>
    refine .cons ?_ ih
    have : 0 < (n : ℤ) := by omega
    have h1 := Int.emod_lt_of_pos i this
    have h2 := Int.emod_nonneg i (by omega : (n : ℤ) ≠ 0)
    dsimp only
    omega

theorem opposite_valid {nmesh : List ℕ} {i : List ℕ} (h : ValidIndex nmesh i) : ValidIndex nmesh (opposite nmesh i) := by
  unfold opposite
  induction h with
  | nil => exact .nil
  | @cons n i ns is h _ ih => exact .cons (Nat.mod_lt _ (by omega)) ih

theorem opposite_opposite {nmesh : List ℕ} {i : List ℕ} (h : ValidIndex nmesh i) :
    opposite nmesh (opposite nmesh i) = i := by
  unfold opposite
  induction h with
  | nil => rfl
  | @cons n i ns is h _ ih =>
    simp only [List.zipWith_cons_cons, ih, List.cons.injEq, and_true]
    by_cases h0 : i = 0
    · subst h0; simp
    · rw [Nat.mod_eq_of_lt (by omega : n - i < n), Nat.mod_eq_of_lt (by omega)]
      omega

theorem dualIndex_eq {nmesh : List ℕ} {index : List ℤ} (h : IndexInRange nmesh index) :
    dualIndex nmesh index = (opposite nmesh (meant nmesh index)).map (Nat.cast : ℕ → ℤ) := by
  unfold dualIndex opposite meant
  induction h with
  | nil => rfl
  | @cons n i ns is h _ ih =>
    simp only [List.zipWith_cons_cons, List.map_cons, ih, List.cons.injEq, and_true]
    have hn : (0 : ℤ) < n := by omega
    by_cases h0 : i < 0
    · have e1 : i % n = i + n := by rw [← Int.add_emod_right, Int.emod_eq_of_lt (by omega) (by omega)]
      have e2 : n - (i % n).toNat = (-i).toNat := by omega
      rw [e2]
      have : (-i + n) % n = (-i) % n := Int.add_emod_right _ _
      rw [this, Int.natCast_mod]
      congr 1
      omega
    · have e1 : i % n = i := Int.emod_eq_of_lt (by omega) (by omega)
      rw [e1, Int.natCast_mod]
      congr 1
      omega

theorem inRange_cast {nmesh : List ℕ} {g : List ℕ} (h : ValidIndex nmesh g) :
    IndexInRange nmesh (g.map (Nat.cast : ℕ → ℤ)) := by
  unfold IndexInRange
  induction h with
  | nil => exact .nil
  | cons h _ ih => exact .cons ⟨by omega, by omega⟩ ih

theorem meant_cast {nmesh : List ℕ} {g : List ℕ} (h : ValidIndex nmesh g) : meant nmesh (g.map (Nat.cast : ℕ → ℤ)) = g := by
  unfold meant
  induction h with
  | nil => rfl
  | @cons n i ns is h _ ih =>
    rw [List.map_cons, List.zipWith_cons_cons, ih]
    congr 1
    rw [Int.emod_eq_of_lt (by omega) (by omega)]
    rfl

theorem ctol_some_iff (ht : t.OK) {r : ℕ} (hr : r < t.nrank) {index : List ℤ} (h : IndexInRange t.nmesh index) (c : List ℕ) :
    t.ctol r index = some c ↔ ValidIndex (t.lshape r) c ∧ t.global r c = meant t.nmesh index := by
  have hlen := (meant_valid h).len
  have := ctol_lists (t.start r) (t.lshape r) (meant t.nmesh index) (by rw [ht.start_len r hr, hlen])
    (by rw [ht.shape_len r hr, hlen])
  unfold Tiling.ctol
  rw [unNegative_eq h]
  dsimp only
  split
  · next hb =>
    obtain ⟨c', hc1, hc2⟩ := this.1.1 hb
    have h3 := this.2 c' hc1 hc2
    rw [h3]
    constructor
    · intro e
      cases e
      exact ⟨hc1, hc2⟩
    · rintro ⟨h4, h5⟩
      rw [← h3, this.2 c h4 h5]
  · next hb =>
    constructor
    · intro e; cases e
    · rintro ⟨h4, h5⟩
      exact absurd (this.1.2 ⟨c, h4, h5⟩) hb

/-- On the rank that stores an element, it is found. -/
theorem ctol_owner (ht : t.OK) {index : List ℤ} (h : IndexInRange t.nmesh index)
    (hv : ValidIndex t.cshape (meant t.nmesh index)) :
    ∃ r0 < t.nrank, ∃ c0, ValidIndex (t.lshape r0) c0 ∧ t.global r0 c0 = meant t.nmesh index ∧
      ∀ r < t.nrank, t.ctol r index = if r = r0 then some c0 else none := by
  obtain ⟨r0, hr0, c0, hc0, hg⟩ := ht.owner _ hv
  refine ⟨r0, hr0, c0, hc0, hg, fun r hr => ?_⟩
  split
  · next he => subst he; exact (ctol_some_iff ht hr h c0).2 ⟨hc0, hg⟩
  · next he =>
    cases hh : t.ctol r index with
    | none => rfl
    | some c =>
      obtain ⟨h1, h2⟩ := (ctol_some_iff ht hr h c).1 hh
      exact absurd (ht.unique r hr r0 hr0 c c0 h1 hc0 (by rw [h2, hg])) he

theorem ctol_none (ht : t.OK) {index : List ℤ} (h : IndexInRange t.nmesh index)
    (hv : ¬ ValidIndex t.cshape (meant t.nmesh index)) {r : ℕ} (hr : r < t.nrank) : t.ctol r index = none := by
  cases hh : t.ctol r index with
  | none => rfl
  | some c =>
    obtain ⟨h1, h2⟩ := (ctol_some_iff ht hr h c).1 hh
    exact absurd (h2 ▸ ht.inside r hr c h1) hv

theorem global_inj (ht : t.OK) {r : ℕ} (hr : r < t.nrank) {c c' : List ℕ} (hc : ValidIndex (t.lshape r) c)
    (hc' : ValidIndex (t.lshape r) c') (h : t.global r c = t.global r c') : c = c' := by
  have hl := ht.start_len r hr
  have h1 := hc.len
  have h2 := hc'.len
  rw [ht.shape_len r hr] at h1 h2
  unfold Tiling.global at h
  apply List.ext_getElem (by omega)
  intro n hn hn'
  have h3 : (List.zipWith (· + ·) (t.start r) c)[n]? = (List.zipWith (· + ·) (t.start r) c')[n]? := by rw [h]
  rw [List.getElem?_eq_getElem (by simp; omega), List.getElem?_eq_getElem (by simp; omega)] at h3
  simpa using h3

/-- The elements of the global array, rank by rank. -/
theorem tiles_perm (ht : t.OK) :
    List.Perm ((List.range t.nrank).flatMap fun r => (ndindex (t.lshape r)).map (t.global r)) (ndindex t.cshape) := by
  rw [List.perm_ext_iff_of_nodup ?_ (ndindex_nodup _)]
  · intro g
    simp only [List.mem_flatMap, List.mem_range, List.mem_map, mem_ndindex]
    constructor
    · rintro ⟨r, hr, c, hc, rfl⟩
      exact ht.inside r hr c hc
    · intro h
      obtain ⟨r, hr, c, hc, hg⟩ := ht.owner g h
      exact ⟨r, hr, c, hc, hg⟩
  · rw [List.nodup_flatMap]
    constructor
    · intro r hr
      rw [List.mem_range] at hr
      refine List.Nodup.map_on ?_ (ndindex_nodup _)
      intro c hc c' hc' h
      exact global_inj ht hr (mem_ndindex.1 hc) (mem_ndindex.1 hc') h
    · refine List.Pairwise.imp_of_mem ?_ (List.nodup_range (n := t.nrank))
      intro r r' hr hr' hne
      rw [List.mem_range] at hr hr'
      show List.Disjoint _ _
      intro g h1 h2
      obtain ⟨c, hc, rfl⟩ := List.mem_map.1 h1
      obtain ⟨c', hc', h⟩ := List.mem_map.1 h2
      exact hne (ht.unique r hr r' hr' c c' (mem_ndindex.1 hc) (mem_ndindex.1 hc') h.symm)

/-- Sums over all local arrays are sums over the global array. -/
theorem tiles_sum {M : Type} [AddCommMonoid M] (ht : t.OK) (F : List ℕ → M) :
    ((List.range t.nrank).map fun r => ((ndindex (t.lshape r)).map fun c => F (t.global r c)).sum).sum =
      ((ndindex t.cshape).map F).sum := by
  rw [← ((tiles_perm ht).map F).sum_eq]
  induction List.range t.nrank with
  | nil => rfl
  | cons r rs ih =>
    simp only [List.map_cons, List.sum_cons, ih, List.flatMap_cons, List.map_append, List.sum_append, List.map_map]
    rfl

/-- The conditions on a tiling can be checked for a given tiling. -/
theorem tiling_ok_of_decide {t : Tiling} (h : 0 < t.nrank ∧ (∀ n ∈ t.nmesh, 0 < n) ∧ List.Forall₂ (· ≤ ·) t.cshape t.nmesh ∧
    (∀ r < t.nrank, (t.start r).length = t.nmesh.length) ∧ (∀ r < t.nrank, (t.lshape r).length = t.nmesh.length) ∧
    (∀ r < t.nrank, ∀ c ∈ ndindex (t.lshape r), ValidIndex t.cshape (t.global r c)) ∧
    (∀ g ∈ ndindex t.cshape, ∃ r < t.nrank, ∃ c ∈ ndindex (t.lshape r), t.global r c = g) ∧
    (∀ r < t.nrank, ∀ r' < t.nrank, ∀ c ∈ ndindex (t.lshape r), ∀ c' ∈ ndindex (t.lshape r'),
      t.global r c = t.global r' c' → r = r')) : t.OK where
  rank_pos := h.1
  mesh_pos := h.2.1
  stored_le := h.2.2.1
  start_len := h.2.2.2.1
  shape_len := h.2.2.2.2.1
  inside := fun r hr c hc => h.2.2.2.2.2.1 r hr c (mem_ndindex.2 hc)
  owner := fun g hg => by
    obtain ⟨r, hr, c, hc, e⟩ := h.2.2.2.2.2.2.1 g (mem_ndindex.2 hg)
    exact ⟨r, hr, c, mem_ndindex.1 hc, e⟩
  unique := fun r hr r' hr' c c' hc hc' => h.2.2.2.2.2.2.2 r hr r' hr' c (mem_ndindex.2 hc) c' (mem_ndindex.2 hc')

end Tiles

theorem sum_pick' {M : Type} [AddCommMonoid M] {n i : ℕ} (hi : i < n) (f : ℕ → M) :
    ((List.range n).map fun j => if j = i then f j else 0).sum = f i := by
  induction n with
  | zero => omega
  | succ n ih =>
    rw [List.range_succ, List.map_append, List.sum_append]
    by_cases h : i = n
    · subst h
      have : ((List.range i).map fun j => if j = i then f j else 0).sum = 0 := by
        apply List.sum_eq_zero
        intro x hx
        obtain ⟨j, hj, rfl⟩ := List.mem_map.1 hx
        rw [List.mem_range] at hj
        rw [if_neg (by omega)]
      simp [this]
    · rw [ih (by omega)]
      have : n ≠ i := fun e => h e.symm
      simp [this]

theorem sum_zero_map {M α : Type} [AddCommMonoid M] (l : List α) (f : α → M) (h : ∀ a ∈ l, f a = 0) : (l.map f).sum = 0 := by
  apply List.sum_eq_zero
  intro x hx
  obtain ⟨j, hj, rfl⟩ := List.mem_map.1 hx
  exact h j hj

end Pmesh
