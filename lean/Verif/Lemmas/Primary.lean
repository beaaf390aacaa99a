import Verif.Lemmas.Decompose
import Verif.Model.Grid

set_option linter.unusedSectionVars false

namespace Pmesh

section
variable {K : Type*} [Field K] [LinearOrder K] [IsStrictOrderedRing K] [FloorRing K]

theorem EdgesOK.getD_mem_box {e : List K} (h : EdgesOK e) {i : ℕ} (hi : i < e.length) :
    0 ≤ e.getD i 0 ∧ e.getD i 0 ≤ e.getLastD 0 := by
  have h2 := h.two
  constructor
  · exact le_trans h.first.symm.le (getD_le_of_sorted h.sorted (Nat.zero_le i) hi)
  · rw [h.last]; exact getD_le_of_sorted h.sorted (by omega) (by omega)

theorem pyMod_between {x b lo hi : K} (hb : 0 < b) (hlo : 0 ≤ lo) (hhi : hi ≤ b) :
    (lo ≤ pyMod x b ∧ pyMod x b < hi) ↔ ∃ m : ℤ, lo ≤ x + m * b ∧ x + m * b < hi := by
  constructor
  · rintro ⟨h1, h2⟩
    refine ⟨-⌊x / b⌋, ?_⟩
    unfold pyMod at h1 h2
    push_cast
    constructor <;> linarith
  · rintro ⟨m, h1, h2⟩
    have : pyMod x b = x + m * b := by
      apply pyMod_eq_of hb (le_trans hlo h1) (lt_of_lt_of_le h2 hhi) (-m)
      push_cast; ring
    rw [this]; exact ⟨h1, h2⟩

theorem GridOK.lo_nonneg {g : Grid K} (hg : GridOK g) {D : List ℕ} (hD : g.IsDomain D) {j : ℕ}
    (hj : j < g.ndim) : 0 ≤ g.lo D j := by
  have := IsDomain.getD_lt hD hj
  exact ((hg.axisOK hj).getD_mem_box (by omega)).1

theorem GridOK.hi_le_box {g : Grid K} (hg : GridOK g) {D : List ℕ} (hD : g.IsDomain D) {j : ℕ}
    (hj : j < g.ndim) : g.hi D j ≤ g.box j := by
  have := IsDomain.getD_lt hD hj
  exact ((hg.axisOK hj).getD_mem_box (by omega)).2

theorem GridOK.box_pos {g : Grid K} (hg : GridOK g) {j : ℕ} (hj : j < g.ndim) : 0 < g.box j :=
  (hg.axisOK hj).last_pos

theorem contains_iff {g : Grid K} (hg : GridOK g) {D : List ℕ} (hD : g.IsDomain D) (x : List K) :
    g.Contains D x ↔ ∀ j < g.ndim, g.lo D j ≤ pyMod (x.getD j 0) (g.box j) ∧
      pyMod (x.getD j 0) (g.box j) < g.hi D j := by
  unfold Grid.Contains
  refine forall_congr' fun j => forall_congr' fun hj => ?_
  exact (pyMod_between (hg.box_pos hj) (hg.lo_nonneg hD hj) (hg.hi_le_box hD hj)).symm

theorem IsDomain.length_eq' {g : Grid K} {D : List ℕ} (hD : g.IsDomain D) : D.length = g.ndim := by
  have := hD.length_eq
  unfold Grid.ndim
  simpa using this.symm

theorem isDomain_iff {g : Grid K} {D : List ℕ} :
    g.IsDomain D ↔ D.length = g.ndim ∧ ∀ j < g.ndim, D.getD j 0 < (g.axis j).length - 1 := by
  constructor
  · intro h; exact ⟨IsDomain.length_eq' h, fun j hj => IsDomain.getD_lt h hj⟩
  · rintro ⟨h1, h2⟩
    unfold Grid.IsDomain ValidIndex
    unfold Grid.ndim at h1
    rw [List.forall₂_iff_get]
    refine ⟨by simp [h1], fun j a b => ?_⟩
    have := h2 j (by unfold Grid.ndim; omega)
    rw [List.getD_eq_getElem _ _ b, g.axis_eq (by omega)] at this
    simpa using this

/-- The index vector of the domain of a wrapped position. -/
def domIdx (g : Grid K) (z : ℕ → K) : List ℕ :=
  (List.range g.ndim).map fun j => digitize (z j) (g.axis j) - 1

theorem domIdx_getD (g : Grid K) (z : ℕ → K) {j : ℕ} (hj : j < g.ndim) :
    (domIdx g z).getD j 0 = digitize (z j) (g.axis j) - 1 := by
  unfold domIdx
  rw [List.getD_eq_getElem _ _ (by simpa using hj)]
  simp

theorem domIdx_spec {g : Grid K} (hg : GridOK g) (z : ℕ → K)
    (hz : ∀ j < g.ndim, 0 ≤ z j ∧ z j < g.box j) :
    g.IsDomain (domIdx g z) ∧
      ∀ D, g.IsDomain D → ((∀ j < g.ndim, g.lo D j ≤ z j ∧ z j < g.hi D j) ↔ D = domIdx g z) := by
  have hd : ∀ j (hj : j < g.ndim), _ := fun j hj => (hg.axisOK hj).digitize_spec (hz j hj).1 (hz j hj).2
  refine ⟨isDomain_iff.2 ⟨by simp [domIdx], fun j hj => ?_⟩, fun D hD => ⟨fun h => ?_, fun h => ?_⟩⟩
  · rw [domIdx_getD g z hj]
    have := hd j hj
    omega
  · apply List.ext_getElem
    · rw [IsDomain.length_eq' hD]; simp [domIdx]
    · intro j h1 h2
      have hj : j < g.ndim := by rwa [IsDomain.length_eq' hD] at h1
      have hlt := IsDomain.getD_lt hD hj
      have := (hg.axisOK hj).digitize_eq hlt (h j hj).1 (h j hj).2
      rw [← List.getD_eq_getElem D 0 h1, ← List.getD_eq_getElem _ 0 h2, domIdx_getD g z hj, this]
      rfl
  · intro j hj
    have := hd j hj
    subst h
    unfold Grid.lo Grid.hi
    rw [domIdx_getD g z hj]
    refine ⟨this.2.2.1, ?_⟩
    rw [Nat.sub_add_cancel this.1]
    exact this.2.2.2

/-- The domain of a position on a periodic grid. -/
def wrapDom (g : Grid K) (x : List K) : List ℕ := domIdx g fun j => pyMod (x.getD j 0) (g.box j)

theorem wrapDom_isDomain {g : Grid K} (hg : GridOK g) (x : List K) : g.IsDomain (wrapDom g x) :=
  (domIdx_spec hg _ fun _ hj => ⟨pyMod_nonneg _ (hg.box_pos hj), pyMod_lt _ (hg.box_pos hj)⟩).1

theorem contains_iff_eq {g : Grid K} (hg : GridOK g) (x : List K) {D : List ℕ} (hD : g.IsDomain D) :
    g.Contains D x ↔ D = wrapDom g x := by
  rw [contains_iff hg hD]
  exact (domIdx_spec hg (fun j => pyMod (x.getD j 0) (g.box j))
    fun _ hj => ⟨pyMod_nonneg _ (hg.box_pos hj), pyMod_lt _ (hg.box_pos hj)⟩).2 D hD

theorem meetsMod_zero {box x lo hi : K} :
    MeetsMod box 0 x lo hi ↔ ∃ m : ℤ, lo ≤ x + m * box ∧ x + m * box < hi := by
  constructor
  · rintro ⟨y, h1, h2, m, h3⟩
    obtain rfl : y = x := le_antisymm (by linarith) (by linarith)
    exact ⟨m, h3⟩
  · rintro ⟨m, h⟩
    exact ⟨x, by linarith, by linarith, m, h⟩

theorem smoothingFits_zero {g : Grid K} (hg : GridOK g) (s : List K) (hs : ∀ a ∈ s, a = 0) :
    g.SmoothingFits s := by
  intro j hj d hd
  left
  have h0 : s.getD j 0 = 0 := by
    rcases Nat.lt_or_ge j s.length with h | h
    · rw [List.getD_eq_getElem _ _ h]; exact hs _ (List.getElem_mem _)
    · exact List.getD_eq_default _ _ h
  rw [h0]
  have e := hg.axisOK hj
  have a1 := (e.getD_mem_box (i := d + 1) (by omega)).2
  have a2 := (e.getD_mem_box (i := d) (by omega)).1
  unfold Grid.box
  linarith

theorem foldl_or_eq_any {α : Type*} (l : List α) (f : α → Bool) (b : Bool) :
    l.foldl (fun r a => r || f a) b = (b || l.any f) := by
  induction l generalizing b with
  | nil => simp
  | cons a l ih => simp [ih, Bool.or_assoc]

theorem list_and_iff (l : List Bool) : l.and = true ↔ ∀ b ∈ l, b = true := by
  induction l with
  | nil => simp
  | cons a l ih => rw [List.and_cons, Bool.and_eq_true, ih]; simp

theorem isPrimary_iff {g : Grid K} (hg : GridOK g) (rank : ℕ) (x : List K) (hx : g.ndim ≤ x.length) :
    isPrimary g rank x = true ↔ ∃ D, g.IsDomain D ∧ g.Owner D rank ∧
      ∀ j < g.ndim, g.lo D j ≤ (if g.periodic then pyMod (x.getD j 0) (g.box j) else x.getD j 0) ∧
        (if g.periodic then pyMod (x.getD j 0) (g.box j) else x.getD j 0) < g.hi D j := by
  unfold Grid.ndim at hx
  -- the coordinates used by the code
  set c : List K := if g.periodic then
    List.zipWith pyMod (x.take g.edges.length) (g.edges.map fun e => e.getLastD 0)
    else x.take g.edges.length with hc
  have hclen : c.length = g.edges.length := by
    rw [hc]; split <;> simp <;> omega
  have hcget : ∀ j (h : j < c.length), c[j] =
      (if g.periodic then pyMod (x.getD j 0) (g.box j) else x.getD j 0) := by
    intro j h
    have hj : j < g.edges.length := by omega
    unfold Grid.box
    rw [g.axis_eq hj, List.getD_eq_getElem x _ (by omega)]
    rcases Bool.eq_false_or_eq_true g.periodic with hp | hp
    · simp only [hp, if_true] at hc ⊢
      simp only [hc, List.getElem_zipWith, List.getElem_take, List.getElem_map]
    · simp only [hp, Bool.false_eq_true, if_false] at hc ⊢
      simp only [hc, List.getElem_take]
  have key : ∀ D, g.IsDomain D →
      (((List.zipWith (fun c a => decide (a ≤ c)) c
          (List.zipWith (fun (e : List K) r => e.getD r 0) g.edges D)).and &&
        (List.zipWith (fun c b => decide (c < b)) c
          (List.zipWith (fun (e : List K) r => e.getD (r + 1) 0) g.edges D)).and) = true ↔
      ∀ j < g.ndim, g.lo D j ≤ (if g.periodic then pyMod (x.getD j 0) (g.box j) else x.getD j 0) ∧
        (if g.periodic then pyMod (x.getD j 0) (g.box j) else x.getD j 0) < g.hi D j) := by
    intro D hD
    have hDl := IsDomain.length_eq' hD
    unfold Grid.ndim at hDl
    rw [Bool.and_eq_true, list_and_iff, list_and_iff]
    constructor
    · rintro ⟨h1, h2⟩ j hj
      unfold Grid.ndim at hj
      rw [← hcget j (by omega)]
      unfold Grid.lo Grid.hi
      rw [g.axis_eq hj, List.getD_eq_getElem D _ (by omega)]
      have a1 := h1 _ (List.getElem_mem (n := j) (by simp; omega))
      have a2 := h2 _ (List.getElem_mem (n := j) (by simp; omega))
      simp only [List.getElem_zipWith, decide_eq_true_eq] at a1 a2
      exact ⟨a1, a2⟩
    · intro h
      constructor <;>
      · intro b hb
        obtain ⟨j, hj, rfl⟩ := List.getElem_of_mem hb
        simp only [List.length_zipWith, lt_inf_iff] at hj
        have := h j hj.2.1
        rw [← hcget j (by omega)] at this
        unfold Grid.lo Grid.hi at this
        rw [g.axis_eq hj.2.1, List.getD_eq_getElem D _ (by omega)] at this
        simp only [List.getElem_zipWith, decide_eq_true_eq]
        first | exact this.1 | exact this.2
  have e1 : isPrimary g rank x = (primaryRegions g rank).any fun p =>
      ((List.zipWith (fun c a => decide (a ≤ c)) c p.1).and &&
        (List.zipWith (fun c b => decide (c < b)) c p.2).and) := by
    have := foldl_or_eq_any (primaryRegions g rank) (fun p : List K × List K =>
      ((List.zipWith (fun c a => decide (a ≤ c)) c p.1).and &&
        (List.zipWith (fun c b => decide (c < b)) c p.2).and)) false
    rw [Bool.false_or] at this
    rw [← this]
    rfl
  rw [e1, List.any_eq_true]
  constructor
  · rintro ⟨p, hp, hb⟩
    simp only [primaryRegions, List.mem_map, List.mem_filter, List.mem_range, decide_eq_true_eq] at hp
    obtain ⟨i, ⟨hi, ho⟩, rfl⟩ := hp
    have hi' : i < g.shape.prod := by rw [hg.assign_total] at hi; exact hi
    obtain ⟨D, hD, hDi⟩ := exists_cOrder_eq hi'
    have hu : unravelIndex g.shape i = D := by
      unfold unravelIndex
      rw [List.getD_eq_getElem?_getD, ← hDi, ndindex_getElem? hD]; rfl
    rw [hu] at hb
    refine ⟨D, hD, ?_, (key D hD).1 hb⟩
    unfold Grid.Owner
    rw [show cOrder (g.edges.map fun e => e.length - 1) D = i from hDi]; exact ho
  · rintro ⟨D, hD, ho, h⟩
    refine ⟨(List.zipWith (fun (e : List K) r => e.getD r 0) g.edges D,
      List.zipWith (fun (e : List K) r => e.getD (r + 1) 0) g.edges D), ?_, (key D hD).2 h⟩
    simp only [primaryRegions, List.mem_map, List.mem_filter, List.mem_range, decide_eq_true_eq]
    refine ⟨cOrder g.shape D, ⟨?_, ho⟩, ?_⟩
    · rw [hg.assign_total]; exact cOrder_lt hD
    · have hu : unravelIndex g.shape (cOrder g.shape D) = D := by
        have hD' : ValidIndex g.shape D := hD
        unfold unravelIndex
        rw [List.getD_eq_getElem?_getD, ndindex_getElem? hD']; rfl
      rw [hu]

end
end Pmesh
