import Verif.Lemmas.Decompose
import Mathlib.Tactic.NormNum
import Mathlib.Tactic.IntervalCases
import Mathlib.Algebra.Order.Ring.Rat
import Mathlib.Data.Rat.Floor

/-!
# C01, C02, C12: ghost delivery

`decompose` is the model of `GridND.decompose` + `gridnd_fill`; `sentTo r` is the part of the send list
that `Layout` sends to rank `r`; `Reaches` is the specification.
-/

namespace Pmesh

section
variable {K : Type*} [Field K] [LinearOrder K] [IsStrictOrderedRing K] [FloorRing K]

/-- **C01** (periodic).  `decompose` never fails, and particle `i` is on the list for rank `r` if and only if
rank `r` owns a domain that meets the closed smoothing box of the particle modulo the box size.
Partial: the two extra hypotheses `SmoothingFits` and `FlagsAgree` are needed, see
`C01_violated_smoothing` and `C12_violated`. -/
theorem C01_delivery_partial (g : Grid K) (hg : GridOK g) (hper : g.periodic = true)
    (hflag : g.FlagsAgree) (s : List K) (hs : s.length = g.ndim) (hs0 : ∀ a ∈ s, 0 ≤ a)
    (hfit : g.SmoothingFits s) (pos : List (List K)) (hpos : ∀ x ∈ pos, g.ndim ≤ x.length) :
    ∃ L, decompose g s pos = .ok L ∧ L.sendcounts.length = g.nrank ∧
      ∀ r < g.nrank, ∀ i, some i ∈ L.sentTo r ↔ ∃ x, pos[i]? = some x ∧ g.Reaches s x r := by
  obtain ⟨L, T, h1, _, h3, h4, h5, h6⟩ := decompose_of_targets g s pos
    (fun x T => ∀ r, r ∈ T ↔ g.Reaches s x r)
    (fun x hx => targets_reaches hg hper hflag (FlagsAgree.rank_lt hg hflag) hs (hpos x hx) hs0 hfit)
  refine ⟨L, h1, by simp [h4], fun r hr i => ?_⟩
  rw [sentTo_eq h4 h5 hr]
  simp only [List.mem_map, Option.some.injEq, exists_eq_right]
  rw [mem_sentList]
  constructor
  · rintro ⟨t, ht, hrt⟩
    have hi : i < pos.length := by
      have := (List.getElem?_eq_some_iff.1 ht).1; omega
    obtain ⟨t', ht', _, _, hP⟩ := h6 i pos[i] (List.getElem?_eq_getElem hi)
    rw [ht] at ht'
    obtain rfl := Option.some_inj.1 ht'
    exact ⟨pos[i], List.getElem?_eq_getElem hi, (hP r).1 hrt⟩
  · rintro ⟨x, hx, hr'⟩
    obtain ⟨t, ht, _, _, hP⟩ := h6 i x hx
    exact ⟨t, ht, (hP r).2 hr'⟩

/-- **C01** (not periodic): same, without wrap-around and without a limit on the smoothing. A particle whose
smoothing box misses the grid is not delivered anywhere. -/
theorem C01_delivery_open_partial (g : Grid K) (hg : GridOK g) (hper : g.periodic = false)
    (hflag : g.FlagsAgree) (s : List K) (hs : s.length = g.ndim) (hs0 : ∀ a ∈ s, 0 ≤ a)
    (pos : List (List K)) (hpos : ∀ x ∈ pos, g.ndim ≤ x.length) :
    ∃ L, decompose g s pos = .ok L ∧ L.sendcounts.length = g.nrank ∧
      ∀ r < g.nrank, ∀ i, some i ∈ L.sentTo r ↔ ∃ x, pos[i]? = some x ∧ g.ReachesOpen s x r := by
  obtain ⟨L, T, h1, _, h3, h4, h5, h6⟩ := decompose_of_targets g s pos
    (fun x T => ∀ r, r ∈ T ↔ g.ReachesOpen s x r)
    (fun x hx => targets_reaches_open hg hper hflag (FlagsAgree.rank_lt hg hflag) hs (hpos x hx) hs0)
  refine ⟨L, h1, by simp [h4], fun r hr i => ?_⟩
  rw [sentTo_eq h4 h5 hr]
  simp only [List.mem_map, Option.some.injEq, exists_eq_right]
  rw [mem_sentList]
  constructor
  · rintro ⟨t, ht, hrt⟩
    have hi : i < pos.length := by
      have := (List.getElem?_eq_some_iff.1 ht).1; omega
    obtain ⟨t', ht', _, _, hP⟩ := h6 i pos[i] (List.getElem?_eq_getElem hi)
    rw [ht] at ht'
    obtain rfl := Option.some_inj.1 ht'
    exact ⟨pos[i], List.getElem?_eq_getElem hi, (hP r).1 hrt⟩
  · rintro ⟨x, hx, hr'⟩
    obtain ⟨t, ht, _, _, hP⟩ := h6 i x hx
    exact ⟨t, ht, (hP r).2 hr'⟩

/-- The assumption `FlagsAgree` holds for the one-domain-per-rank assignment, with or without empty
domains. -/
theorem flagsAgree_identity (g : Grid K) (h : g.assign = List.range g.assign.length) : g.FlagsAgree := by
  intro D r hD ho
  refine ⟨D, hD, ?_, Iff.rfl⟩
  unfold Grid.Owner at ho
  obtain ⟨hk, hk2⟩ := List.getElem?_eq_some_iff.1 ho
  rw [← hk2]
  conv_rhs => rw [List.getElem_of_eq h]
  simp

/-- `FlagsAgree` holds for any assignment if no domain is empty and there are no more ranks than domains. -/
theorem flagsAgree_nonempty (g : Grid K) (hg : GridOK g)
    (hne : ∀ D, g.IsDomain D → ¬ g.EmptyDomain D)
    (hr : g.nrank ≤ (g.edges.map fun e => e.length - 1).prod) : g.FlagsAgree := by
  intro D r hD ho
  have : r < (g.edges.map fun e => e.length - 1).prod :=
    lt_of_lt_of_le (hg.assign_rank r (List.mem_of_getElem? ho)) hr
  obtain ⟨D', h1, h2⟩ := exists_cOrder_eq this
  exact ⟨D', h1, h2, by simp [hne D hD, hne D' h1]⟩

/-- **C02**.  For every grid (periodic or with non-negative smoothing), every assignment to ranks below the
number of domains and every particle set: `decompose` succeeds, the counts and the filled list agree, all slots are
written, and the section of each rank is a strictly increasing list of particle numbers (so at most one copy per
rank, in the original order). -/
theorem C02_unique_ordered (g : Grid K) (hg : GridOK g)
    (hr : ∀ r ∈ g.assign, r < (g.edges.map fun e => e.length - 1).prod)
    (s : List K) (hs : s.length = g.ndim) (hs0 : g.periodic = true ∨ ∀ a ∈ s, 0 ≤ a)
    (pos : List (List K)) (hpos : ∀ x ∈ pos, g.ndim ≤ x.length) :
    ∃ L, decompose g s pos = .ok L ∧ L.sendlength = pos.length ∧ L.sendcounts.length = g.nrank ∧
      L.indices.length = L.sendcounts.sum ∧
      L.indices = (List.range g.nrank).flatMap L.sentTo ∧
      ∀ r < g.nrank, ∃ l : List ℕ, L.sentTo r = l.map some ∧ l.length = L.sendcounts.getD r 0 ∧
        l.Pairwise (· < ·) ∧ ∀ i ∈ l, i < pos.length := by
  obtain ⟨L, T, h1, h2, h3, h4, h5, h6⟩ := decompose_of_targets g s pos (fun x T => True)
    (fun x hx => by
      obtain ⟨T, a, b, c, _⟩ := targets_visited hg hr hs (hpos x hx) hs0
      exact ⟨T, a, b, c, trivial⟩)
  refine ⟨L, h1, h2, by simp [h4], ?_, ?_, fun r hr => ⟨sentList T r, sentTo_eq h4 h5 hr, ?_,
    sentList_sorted T r, ?_⟩⟩
  · rw [h5, h4]
    simp [List.length_flatMap]
  · rw [h5, List.map_flatMap]
    unfold List.flatMap
    congr 1
    apply List.map_congr_left
    intro r hr
    exact (sentTo_eq h4 h5 (List.mem_range.1 hr)).symm
  · rw [h4, List.getD_eq_getElem _ _ (by simpa using hr)]; simp
  · intro i hi
    obtain ⟨t, ht, _⟩ := mem_sentList.1 hi
    have := (List.getElem?_eq_some_iff.1 ht).1
    omega

/-- **C12** (one domain per rank).  A rank whose domain is empty receives nothing; every other rank receives the
particles that reach its domain, whatever the empty domains are. -/
theorem C12_empty_domains_partial (g : Grid K) (hg : GridOK g) (hper : g.periodic = true)
    (hid : g.assign = List.range g.assign.length) (s : List K) (hs : s.length = g.ndim)
    (hs0 : ∀ a ∈ s, 0 ≤ a) (hfit : g.SmoothingFits s) (pos : List (List K))
    (hpos : ∀ x ∈ pos, g.ndim ≤ x.length) :
    ∃ L, decompose g s pos = .ok L ∧ ∀ D, g.IsDomain D → ∀ r, g.Owner D r →
      (g.EmptyDomain D → L.sentTo r = []) ∧
      ∀ i, some i ∈ L.sentTo r ↔ ∃ x, pos[i]? = some x ∧
        ∀ j < g.ndim, MeetsMod (g.box j) (s.getD j 0) (x.getD j 0) (g.lo D j) (g.hi D j) := by
  obtain ⟨L, h1, h2, h3⟩ := C01_delivery_partial g hg hper (flagsAgree_identity g hid) s hs hs0 hfit pos hpos
  refine ⟨L, h1, fun D hD r ho => ?_⟩
  have hrn : r < g.nrank := hg.assign_rank r (List.mem_of_getElem? ho)
  have huniq : ∀ D', g.IsDomain D' → g.Owner D' r → D' = D := by
    have key : ∀ E, g.Owner E r → cOrder (g.edges.map fun e => e.length - 1) E = r := by
      intro E hE
      unfold Grid.Owner at hE
      obtain ⟨hk, hk2⟩ := List.getElem?_eq_some_iff.1 hE
      rw [← hk2]
      conv_rhs => rw [List.getElem_of_eq hid]
      simp
    intro D' hD' ho'
    exact cOrder_inj hD' hD ((key _ ho').trans (key _ ho).symm)
  have hmem : ∀ i, some i ∈ L.sentTo r ↔ ∃ x, pos[i]? = some x ∧
        ∀ j < g.ndim, MeetsMod (g.box j) (s.getD j 0) (x.getD j 0) (g.lo D j) (g.hi D j) := by
    intro i
    rw [h3 r hrn i]
    constructor
    · rintro ⟨x, hx, D', hD', ho', hm⟩
      obtain rfl := huniq D' hD' ho'
      exact ⟨x, hx, hm⟩
    · rintro ⟨x, hx, hm⟩
      exact ⟨x, hx, D, hD, ho, hm⟩
  refine ⟨?_, hmem⟩
  rintro ⟨j, hj, he⟩
  obtain ⟨L', a1, _, _, _, _, a6⟩ := C02_unique_ordered g hg
    (FlagsAgree.rank_lt hg (flagsAgree_identity g hid)) s hs (Or.inl hper) pos hpos
  rw [h1] at a1
  obtain rfl := Except.ok.inj a1
  obtain ⟨l, hl, _⟩ := a6 r hrn
  rw [hl]
  rcases l with _ | ⟨i, l⟩
  · rfl
  · exfalso
    obtain ⟨x, _, hx⟩ := (hmem i).1 (by rw [hl]; simp)
    obtain ⟨y, _, _, m, b1, b2⟩ := hx j hj
    rw [he] at b2
    exact absurd (lt_of_le_of_lt b1 b2) (lt_irrefl _)

end

/-! ## Concrete grids: the hypotheses can be met, and the violations -/

/-- 3 x 2 domains on 6 ranks, unequal widths, over ℚ. -/
def exGrid : Grid ℚ := ⟨[[0, 2, 5, 8], [0, 1, 4]], true, [5, 0, 3, 1, 4, 2], 6⟩

theorem exGrid_ok : GridOK exGrid := by
  refine ⟨by simp [exGrid], ?_, by simp [exGrid], by simp [exGrid]⟩
  intro e he
  simp only [exGrid, List.mem_cons, List.not_mem_nil, or_false] at he
  rcases he with rfl | rfl
  · constructor <;> norm_num
  · constructor <;> norm_num

theorem exGrid_nonempty : ∀ D, exGrid.IsDomain D → ¬ exGrid.EmptyDomain D := by
  intro D hD
  unfold Grid.IsDomain at hD
  rcases D with _ | ⟨a, _ | ⟨b, _ | ⟨c, D⟩⟩⟩ <;> simp [exGrid, ValidIndex] at hD
  obtain ⟨ha, hb⟩ := hD
  rintro ⟨j, hj, h⟩
  simp only [Grid.ndim, exGrid, List.length_cons, List.length_nil] at hj
  interval_cases j <;> interval_cases a <;> interval_cases b <;>
    norm_num [Grid.hi, Grid.lo, Grid.axis, exGrid] at h

theorem exGrid_flags : exGrid.FlagsAgree :=
  flagsAgree_nonempty exGrid exGrid_ok exGrid_nonempty (by simp [exGrid])

theorem exGrid_fits : exGrid.SmoothingFits [3, 1] := by
  intro j hj d hd
  simp only [Grid.ndim, exGrid, List.length_cons, List.length_nil] at hj
  interval_cases j <;> simp [Grid.axis, exGrid] at hd <;> interval_cases d <;>
    norm_num [Grid.axis, Grid.box, exGrid]

/-- The hypotheses of `C01_delivery_partial` and `C02_unique_ordered` are met by `exGrid` with a smoothing
larger than a domain and particles inside and outside the box. -/
example : ∃ L, decompose exGrid [3, 1] [[1, 1], [-17, 9/2], [100, 1/3]] = .ok L ∧
    L.sendcounts.length = 6 ∧ ∀ r < 6, ∀ i, some i ∈ L.sentTo r ↔
      ∃ x, ([[1, 1], [-17, 9/2], [100, 1/3]] : List (List ℚ))[i]? = some x ∧ exGrid.Reaches [3, 1] x r :=
  C01_delivery_partial exGrid exGrid_ok rfl exGrid_flags [3, 1] rfl (by simp) exGrid_fits _
    (by simp [Grid.ndim, exGrid])

example : ∃ L, decompose exGrid [3, 1] [[1, 1], [-17, 9/2]] = .ok L ∧ L.sendlength = 2 := by
  obtain ⟨L, h1, h2, _⟩ := C02_unique_ordered exGrid exGrid_ok (by simp [exGrid]) [3, 1] rfl (Or.inl rfl)
    [[1, 1], [-17, 9/2]] (by simp [Grid.ndim, exGrid])
  exact ⟨L, h1, h2⟩

example : ∃ L, decompose { exGrid with periodic := false } [3, 1] [[1, 1], [-17, 9/2]] = .ok L :=
  let ⟨L, h, _⟩ := C01_delivery_open_partial { exGrid with periodic := false }
    ⟨exGrid_ok.1, exGrid_ok.2, exGrid_ok.3, exGrid_ok.4⟩ rfl
    (flagsAgree_nonempty _ ⟨exGrid_ok.1, exGrid_ok.2, exGrid_ok.3, exGrid_ok.4⟩
      exGrid_nonempty (by simp [exGrid])) [3, 1] rfl (by simp) [[1, 1], [-17, 9/2]]
    (by simp [Grid.ndim, exGrid])
  ⟨L, h⟩

/-- Empty domain in the middle, one domain per rank. -/
def exEmpty : Grid ℚ := ⟨[[0, 2, 2, 5]], true, [0, 1, 2], 3⟩

example : ∃ L, decompose exEmpty [1] [[1], [2], [-1]] = .ok L := by
  obtain ⟨L, h, _⟩ := C12_empty_domains_partial exEmpty
    ⟨by simp [exEmpty], by
      intro e he
      simp only [exEmpty, List.mem_cons, List.not_mem_nil, or_false] at he
      subst he
      constructor <;> norm_num, by simp [exEmpty], by simp [exEmpty]⟩ rfl (by rfl) [1] rfl (by simp)
    (by
      intro j hj d hd
      simp only [Grid.ndim, exEmpty, List.length_cons, List.length_nil] at hj
      interval_cases j
      simp [Grid.axis, exEmpty] at hd
      interval_cases d <;> norm_num [Grid.axis, Grid.box, exEmpty]) [[1], [2], [-1]]
    (by simp [Grid.ndim, exEmpty])
  exact ⟨L, h⟩

/-- Two domains `[0, 8)` and `[8, 10)` on two ranks. -/
def exWide : Grid ℚ := ⟨[[0, 8, 10]], true, [0, 1], 2⟩

/-- **C01 violated**: smoothing 5 in a box of 10, the particle at 1 reaches domain `[8, 10)` (9 - 10 = -1 is within
5 of 1) but nothing is sent to its owner, rank 1. -/
theorem C01_violated_smoothing : exWide.Reaches [5] [1] 1 ∧
    ∃ L, decompose exWide [5] [[1]] = .ok L ∧ L.sentTo 1 = [] := by
  constructor
  · refine ⟨[1], by simp [Grid.IsDomain, ValidIndex, exWide], by simp [Grid.Owner, cOrder, exWide], ?_⟩
    intro j hj
    simp only [Grid.ndim, exWide, List.length_cons, List.length_nil] at hj
    interval_cases j
    refine ⟨-1, by norm_num, by norm_num, 1, ?_, ?_⟩ <;> norm_num [Grid.lo, Grid.hi, Grid.box, Grid.axis, exWide]
  · refine ⟨⟨1, [1, 0], [some 0]⟩, ?_, rfl⟩
    decide +kernel

/-- One rank, three domains of which the first is empty; the assignment is the default one. -/
def exLost : Grid ℚ := ⟨[[0, 0, 1, 2]], true, defaultAssign 3 1 (fun _ => 7), 1⟩

/-- **C12 violated** (and with it C01, C03): the flag of an empty domain is looked up at the *rank* of the target,
so an empty domain 0 makes rank 0 receive nothing although it owns all domains; the particle is lost. -/
theorem C12_violated : exLost.Reaches [0] [1/2] 0 ∧ decompose exLost [0] [[1/2]] = .ok ⟨1, [0], []⟩ := by
  constructor
  · refine ⟨[1], by simp [Grid.IsDomain, ValidIndex, exLost], by unfold Grid.Owner; decide +kernel, ?_⟩
    intro j hj
    simp only [Grid.ndim, exLost, List.length_cons, List.length_nil] at hj
    interval_cases j
    refine ⟨1/2, by norm_num, by norm_num, 0, ?_, ?_⟩ <;> norm_num [Grid.lo, Grid.hi, Grid.box, Grid.axis, exLost]
  · decide +kernel

/-- More ranks than domains with an explicit assignment: the flag lookup leaves the array. -/
theorem C12_violated_out_of_bounds :
    decompose (⟨[[0, 1]], true, [3], 4⟩ : Grid ℚ) [0] [[1/2]] = .error .outOfBounds := by
  decide +kernel

end Pmesh

#print axioms Pmesh.C01_delivery_partial
#print axioms Pmesh.C01_delivery_open_partial
#print axioms Pmesh.C02_unique_ordered
#print axioms Pmesh.C12_empty_domains_partial
#print axioms Pmesh.C01_violated_smoothing
#print axioms Pmesh.C12_violated
#print axioms Pmesh.C12_violated_out_of_bounds
