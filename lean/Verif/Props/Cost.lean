import Verif.Model.Cost
import Verif.Props.Layout
import Mathlib.Algebra.Order.Floor.Semiring
import Mathlib.Data.Int.Interval
import Mathlib.Data.Finset.Max

/-!
# C89: the cost of an exchange, and a bound for the number of copies
-/

namespace Pmesh

section
variable {K : Type*} [Field K] [LinearOrder K] [IsStrictOrderedRing K] [FloorRing K]

/-- Edge number `u` of the edges of one axis continued periodically. -/
def wrapEdge (e : List K) (box : K) (u : ℤ) : K :=
  e.getD (u % ((e.length - 1 : ℕ) : ℤ)).toNat 0 + (u / ((e.length - 1 : ℕ) : ℤ) : ℤ) * box

theorem wrapEdge_at {e : List K} (h : EdgesOK e) {d : ℕ} (hd : d < e.length - 1) (m : ℤ) :
    wrapEdge e (e.getLastD 0) (d + m * ((e.length - 1 : ℕ) : ℤ)) = e.getD d 0 + m * e.getLastD 0 := by
  have h2 := h.two
  unfold wrapEdge
  have hN : ((e.length - 1 : ℕ) : ℤ) ≠ 0 := by omega
  have hd' : (d : ℤ) < ((e.length - 1 : ℕ) : ℤ) := by omega
  rw [Int.add_mul_emod_self_right, Int.add_mul_ediv_right _ _ hN, Int.emod_eq_of_lt (by omega) hd', Int.ediv_eq_zero_of_lt (by omega) hd']
  simp

theorem wrapEdge_next {e : List K} (h : EdgesOK e) {d : ℕ} (hd : d < e.length - 1) (m : ℤ) :
    wrapEdge e (e.getLastD 0) (d + m * ((e.length - 1 : ℕ) : ℤ) + 1) = e.getD (d + 1) 0 + m * e.getLastD 0 := by
  have h2 := h.two
  by_cases hl : d + 1 < e.length - 1
  · have := wrapEdge_at h hl m
    rw [← this]
    congr 1
    push_cast
    ring
  · have e1 : d + 1 = e.length - 1 := by omega
    have := wrapEdge_at h (d := 0) (by omega) (m + 1)
    have e2 : (d : ℤ) + m * ((e.length - 1 : ℕ) : ℤ) + 1 = ((0 : ℕ) : ℤ) + (m + 1) * ((e.length - 1 : ℕ) : ℤ) := by
      rw [← e1]; push_cast; ring
    rw [e2, this, h.first, e1, ← h.last]
    push_cast
    ring

theorem wrapEdge_step {e : List K} (h : EdgesOK e) {w : K} (hw : ∀ d < e.length - 1, w ≤ e.getD (d + 1) 0 - e.getD d 0) (u : ℤ) :
    wrapEdge e (e.getLastD 0) u + w ≤ wrapEdge e (e.getLastD 0) (u + 1) := by
  have h2 := h.two
  obtain ⟨N, hN⟩ : ∃ N, N = e.length - 1 := ⟨_, rfl⟩
  have hpos : (0 : ℤ) < ((e.length - 1 : ℕ) : ℤ) := by omega
  obtain ⟨d, hd⟩ := Int.eq_ofNat_of_zero_le (Int.emod_nonneg u hpos.ne')
  have hlt := Int.emod_lt_of_pos u hpos
  rw [hd] at hlt
  have hd' : d < e.length - 1 := by exact_mod_cast hlt
  have hu : u = d + (u / ((e.length - 1 : ℕ) : ℤ)) * ((e.length - 1 : ℕ) : ℤ) := by
    rw [← hd]; have := Int.emod_add_mul_ediv u ((e.length - 1 : ℕ) : ℤ); linarith
  rw [hu, wrapEdge_at h hd', wrapEdge_next h hd']
  linarith [hw d hd']

theorem wrapEdge_steps {e : List K} (h : EdgesOK e) {w : K} (hw : ∀ d < e.length - 1, w ≤ e.getD (d + 1) 0 - e.getD d 0) (u : ℤ) :
    ∀ n : ℕ, wrapEdge e (e.getLastD 0) u + n * w ≤ wrapEdge e (e.getLastD 0) (u + n)
  | 0 => by simp
  | n + 1 => by
    have h1 := wrapEdge_steps h hw u n
    have h2 := wrapEdge_step h hw (u + n)
    push_cast
    rw [← add_assoc]
    linarith

open Classical in
/-- How many domains of one axis a smoothing interval can meet. -/
theorem axis_meets_card {e : List K} (h : EdgesOK e) {w s : K} (hw0 : 0 < w) (hw : ∀ d < e.length - 1, w ≤ e.getD (d + 1) 0 - e.getD d 0) (x : K) :
    ((List.range (e.length - 1)).filter fun d => decide (MeetsMod (e.getLastD 0) s x (e.getD d 0) (e.getD (d + 1) 0))).length ≤ ⌈2 * s / w⌉₊ + 1 := by
  obtain ⟨S, hS⟩ : ∃ S, S = (List.range (e.length - 1)).filter fun d => decide (MeetsMod (e.getLastD 0) s x (e.getD d 0) (e.getD (d + 1) 0)) := ⟨_, rfl⟩
  rw [← hS]
  have hmem : ∀ d ∈ S, ∃ u : ℤ, d < e.length - 1 ∧ u % ((e.length - 1 : ℕ) : ℤ) = d ∧ wrapEdge e (e.getLastD 0) u ≤ x + s ∧ x - s < wrapEdge e (e.getLastD 0) (u + 1) := by
    intro d hd
    rw [hS, List.mem_filter, List.mem_range, decide_eq_true_eq] at hd
    obtain ⟨hd, y, y1, y2, m, m1, m2⟩ := hd
    refine ⟨d + (-m) * ((e.length - 1 : ℕ) : ℤ), hd, ?_, ?_, ?_⟩
    · rw [Int.add_mul_emod_self_right, Int.emod_eq_of_lt (by omega) (by omega)]
    · rw [wrapEdge_at h hd]; push_cast; linarith
    · rw [wrapEdge_next h hd]; push_cast; linarith
  choose! u hd hu hlo hhi using hmem
  have hnd : S.Nodup := by rw [hS]; exact List.nodup_range.filter _
  rcases Nat.eq_zero_or_pos S.length with h0 | h0
  · omega
  obtain ⟨d0, hd0, hmin⟩ : ∃ d0 ∈ S, ∀ d ∈ S, u d0 ≤ u d := by
    obtain ⟨d0, h1, h2⟩ := S.toFinset.exists_min_image u ⟨S[0], by simp⟩
    exact ⟨d0, by simpa using h1, fun d hd => h2 d (by simpa using hd)⟩
  have hgap : ∀ d ∈ S, u d ≤ u d0 + (⌈2 * s / w⌉₊ : ℕ) := by
    intro d hdS
    rcases (hmin d hdS).eq_or_lt with heq | hlt
    · rw [← heq]; omega
    obtain ⟨n, hn⟩ := Int.eq_ofNat_of_zero_le (show 0 ≤ u d - (u d0 + 1) by omega)
    have h1 := wrapEdge_steps h hw (u d0 + 1) n
    rw [← hn, add_sub_cancel] at h1
    have h2 : (n : K) * w < 2 * s := by linarith [hlo d hdS, hhi d0 hd0]
    have h3 : (n : K) < 2 * s / w := by rwa [lt_div_iff₀ hw0]
    have h4 : n < ⌈2 * s / w⌉₊ := Nat.lt_ceil.2 h3
    omega
  have hcard : S.toFinset.card ≤ (Finset.Icc (u d0) (u d0 + (⌈2 * s / w⌉₊ : ℕ))).card := by
    refine Finset.card_le_card_of_injOn u (fun d hdS => ?_) fun a ha b hb hab => ?_
    · have hdS : d ∈ S := by simpa using hdS
      simp only [Finset.coe_Icc, Set.mem_Icc]
      exact ⟨hmin d hdS, hgap d hdS⟩
    · have ha : a ∈ S := by simpa using ha
      have hb : b ∈ S := by simpa using hb
      have h1 := hu a ha
      rw [hab, hu b hb] at h1
      exact_mod_cast h1.symm
  rw [List.toFinset_card_of_nodup hnd, Int.card_Icc] at hcard
  omega

/-- All choices of one element per list. -/
def choices : List (List ℕ) → List (List ℕ)
  | [] => [[]]
  | S :: Ss => S.flatMap fun d => (choices Ss).map (d :: ·)

theorem choices_length : ∀ Ss : List (List ℕ), (choices Ss).length = (Ss.map List.length).prod
  | [] => rfl
  | S :: Ss => by
    simp only [choices, List.length_flatMap, List.length_map, List.map_cons, List.prod_cons, choices_length Ss]
    simp

theorem mem_choices : ∀ {Ss : List (List ℕ)} {D : List ℕ}, D.length = Ss.length → (∀ j < Ss.length, D.getD j 0 ∈ Ss.getD j []) → D ∈ choices Ss
  | [], [], _, _ => by simp [choices]
  | S :: Ss, d :: D, hl, h => by
    simp only [choices, List.mem_flatMap, List.mem_map]
    refine ⟨d, by simpa using h 0 (by simp), D, mem_choices (by simpa using hl) fun j hj => ?_, rfl⟩
    simpa using h (j + 1) (by simpa using hj)

open Classical in
/-- How many ranks a particle can reach. -/
theorem reaches_card {g : Grid K} (hg : GridOK g) {s : List K} (w : ℕ → K) (hw0 : ∀ j < g.ndim, 0 < w j)
    (hw : ∀ j < g.ndim, ∀ d < (g.axis j).length - 1, w j ≤ (g.axis j).getD (d + 1) 0 - (g.axis j).getD d 0) (x : List K) :
    ((List.range g.nrank).filter fun r => decide (g.Reaches s x r)).length ≤
      ((List.range g.ndim).map fun j => ⌈2 * s.getD j 0 / w j⌉₊ + 1).prod := by
  obtain ⟨Ss, hSs⟩ : ∃ Ss : List (List ℕ), Ss = (List.range g.ndim).map fun j => (List.range ((g.axis j).length - 1)).filter fun d =>
      decide (MeetsMod ((g.axis j).getLastD 0) (s.getD j 0) (x.getD j 0) ((g.axis j).getD d 0) ((g.axis j).getD (d + 1) 0)) := ⟨_, rfl⟩
  have h1 : ((List.range g.nrank).filter fun r => decide (g.Reaches s x r)).length ≤
      ((choices Ss).map fun D => g.assign.getD (cOrder (g.edges.map fun e => e.length - 1) D) 0).length := by
    refine ((List.nodup_range.filter _).subperm fun r hr => ?_).length_le
    rw [List.mem_filter, decide_eq_true_eq] at hr
    obtain ⟨-, D, hD, hO, hM⟩ := hr
    rw [List.mem_map]
    refine ⟨D, mem_choices ?_ fun j hj => ?_, by rw [List.getD_eq_getElem?_getD, hO]; rfl⟩
    · rw [hSs]
      have := (show List.Forall₂ _ _ D from hD).length_eq.symm
      simpa [Grid.ndim] using this
    · have hj' : j < g.ndim := by simpa [hSs] using hj
      have e1 : Ss.getD j [] = (List.range ((g.axis j).length - 1)).filter fun d =>
        decide (MeetsMod ((g.axis j).getLastD 0) (s.getD j 0) (x.getD j 0) ((g.axis j).getD d 0) ((g.axis j).getD (d + 1) 0)) := by
        rw [hSs, List.getD_eq_getElem _ _ (by simpa using hj')]
        simp
      rw [e1, List.mem_filter, List.mem_range, decide_eq_true_eq]
      exact ⟨IsDomain.getD_lt hD hj', hM j hj'⟩
  refine h1.trans ?_
  rw [List.length_map, choices_length, hSs, List.map_map]
  apply List.prod_le_prod'
  intro j hj
  have hj' : j < g.ndim := List.mem_range.1 hj
  have hE : EdgesOK (g.axis j) := by rw [Grid.axis_eq g hj']; exact hg.edges _ (List.getElem_mem hj')
  exact axis_meets_card hE (hw0 j hj') (hw j hj') (x.getD j 0)

theorem filter_sum_swap (P : ℕ → ℕ → Bool) (n : ℕ) : ∀ m : ℕ,
    ((List.range m).map fun r => ((List.range n).filter fun i => P i r).length).sum =
      ((List.range n).map fun i => ((List.range m).filter fun r => P i r).length).sum
  | 0 => by simp
  | m + 1 => by
    rw [List.range_succ, List.map_append, List.sum_append, filter_sum_swap P n m]
    have h : ∀ i, ((List.range m ++ [m]).filter fun r => P i r).length = ((List.range m).filter fun r => P i r).length + (if P i m then 1 else 0) := by
      intro i
      rw [List.filter_append, List.length_append]
      by_cases hp : P i m <;> simp [hp]
    simp only [h]
    rw [List.sum_map_add]
    congr 1
    simp only [List.map_cons, List.map_nil, List.sum_cons, List.sum_nil, add_zero]
    induction n with
    | zero => simp
    | succ n ih =>
      rw [List.range_succ, List.filter_append, List.length_append, List.map_append, List.sum_append, ih]
      by_cases hp : P n m <;> simp [hp]

open Classical in
/-- **C89**, the number of copies.  If no domain is narrower than `w j` along axis `j`, `decompose` with smoothing `s` sends each particle to at most
the product over the axes of `⌈2 s_j / w_j⌉ + 1` ranks (so one rank without smoothing, and at most 2 per axis if the smoothing is not more than half a domain);
in total a rank sends at most that many times its number of particles. -/
theorem C89_copies (g : Grid K) (hg : GridOK g) (hper : g.periodic = true) (hflag : g.FlagsAgree) (s : List K) (hs : s.length = g.ndim)
    (hs0 : ∀ a ∈ s, 0 ≤ a) (hfit : g.SmoothingFits s) (w : ℕ → K) (hw0 : ∀ j < g.ndim, 0 < w j)
    (hw : ∀ j < g.ndim, ∀ d < (g.axis j).length - 1, w j ≤ (g.axis j).getD (d + 1) 0 - (g.axis j).getD d 0)
    (pos : List (List K)) (hpos : ∀ x ∈ pos, g.ndim ≤ x.length) :
    ∃ L, decompose g s pos = .ok L ∧
      (∀ i, ((List.range g.nrank).filter fun r => decide (some i ∈ L.sentTo r)).length ≤
        ((List.range g.ndim).map fun j => ⌈2 * s.getD j 0 / w j⌉₊ + 1).prod) ∧
      L.indices.length ≤ pos.length * ((List.range g.ndim).map fun j => ⌈2 * s.getD j 0 / w j⌉₊ + 1).prod := by
  obtain ⟨L, h1, h2, h3⟩ := C01_delivery_partial g hg hper hflag s hs hs0 hfit pos hpos
  refine ⟨L, h1, fun i => ?_, ?_⟩
  · cases hx : pos[i]? with
    | none =>
      have : ((List.range g.nrank).filter fun r => decide (some i ∈ L.sentTo r)) = [] := by
        rw [List.filter_eq_nil_iff]
        intro r hr
        rw [decide_eq_true_eq, h3 r (List.mem_range.1 hr), hx]
        simp
      rw [this]
      simp
    | some x =>
      refine le_trans (le_of_eq ?_) (reaches_card hg w hw0 hw x)
      congr 1
      apply List.filter_congr
      intro r hr
      rw [decide_eq_decide, h3 r (List.mem_range.1 hr), hx]
      simp
  · have h4 := C04_decompose g hg hper hflag s hs hs0 hfit pos hpos
    rw [h1] at h4
    have h5 := congrArg Sends.indices (Except.ok.inj h4)
    simp only at h5
    rw [h5, List.length_map, List.length_flatMap, filter_sum_swap (fun i r => decide (g.Reaches s (pos.getD i []) r))]
    refine (List.sum_le_card_nsmul _ (((List.range g.ndim).map fun j => ⌈2 * s.getD j 0 / w j⌉₊ + 1).prod) fun n hn => ?_).trans (by rw [List.length_map, List.length_range, nsmul_eq_mul, Nat.cast_id])
    obtain ⟨i, -, rfl⟩ := List.mem_map.1 hn
    exact reaches_card hg w hw0 hw _

end

section
variable {α : Type}

theorem sentAway_eq {size : ℕ} (rank : ℕ) {lay : Lay} (h : lay.sendcounts.length = size) :
    sentAway size rank lay = (((List.range size).filter fun r => r ≠ rank).map fun r => lay.sendcounts.getD r 0).sum := by
  unfold sentAway
  congr 1
  have h1 : (List.range size).zip lay.sendcounts = (List.range size).map fun r => (r, lay.sendcounts.getD r 0) := by
    apply List.ext_getElem
    · simp [h]
    · intro i a b
      simp only [List.getElem_zip, List.getElem_range, List.getElem_map, Prod.mk.injEq, true_and]
      rw [List.getD_eq_getElem]
  rw [h1, List.filterMap_map, ← List.filterMap_eq_map', ← List.filterMap_eq_filter, List.filterMap_filterMap]
  apply List.filterMap_congr
  intro r _
  by_cases hr : r = rank <;> simp [hr, Option.guard]

/-- **C89**, the cost.  On any number of ranks and for all layouts, `get_exchange_cost` returns on every rank the same array, with for each rank `q`
the number of rows that `q` sends to other ranks. -/
theorem C89_cost (n : ℕ) (hn : 0 < n) (L : ℕ → Lay) (hL : ∀ r < n, (L r).sendcounts.length = n) :
    AllReturn n (fun r => exchangeCost (α := α) n r (L r))
      fun _ => (List.range n).map fun q => (((List.range n).filter fun r => r ≠ q).map fun r => (L q).sendcounts.getD r 0).sum := by
  refine AllReturn.coll hn ((AllReturn.ret n _).congr (fun _ _ => rfl) fun r hr => ?_)
  rw [List.map_map]
  apply List.map_congr_left
  intro q hq
  exact (sentAway_eq q (hL q (List.mem_range.1 hq))).symm

variable {K : Type} [Field K] [LinearOrder K] [IsStrictOrderedRing K] [FloorRing K]

open Classical in
/-- **C89**, the cost of a decomposition.  After `layout = decompose(pos)` on all ranks, entry `q` of `layout.get_exchange_cost()` is on every rank the number
of pairs of a particle of rank `q` and another rank with a domain that the smoothing region of the particle meets. -/
theorem C89_cost_decompose (g : Grid K) (hg : GridOK g) (hper : g.periodic = true) (hflag : g.FlagsAgree) (hn : 0 < g.nrank) (s : List K)
    (hs : s.length = g.ndim) (hs0 : ∀ a ∈ s, 0 ≤ a) (hfit : g.SmoothingFits s) (pos : ℕ → List (List K)) (hpos : ∀ q, ∀ x ∈ pos q, g.ndim ≤ x.length) :
    ∃ L : ℕ → Sends, (∀ q, decompose g s (pos q) = .ok (L q)) ∧
      AllReturn g.nrank (fun q => layoutInit (α := α) g.nrank q (L q).sendlength (L q).sendcounts ((L q).indices.filterMap id) fun
          | .ok lay => exchangeCost g.nrank q lay
          | .error _ => .ret [])
        fun _ => (List.range g.nrank).map fun q => (((List.range g.nrank).filter fun r => r ≠ q).map fun r =>
          ((pos q).filter fun x => decide (g.Reaches s x r)).length).sum := by
  refine ⟨_, fun q => C04_decompose g hg hper hflag s hs hs0 hfit (pos q) (hpos q), ?_⟩
  have hget : ∀ q r, r < g.nrank → ((List.range g.nrank).map fun r => ((List.range (pos q).length).filter fun i =>
      decide (g.Reaches s ((pos q).getD i []) r)).length).getD r 0 = ((pos q).filter fun x => decide (g.Reaches s x r)).length := by
    intro q r hr
    rw [List.getD_eq_getElem _ _ (by simpa using hr), List.getElem_map, List.getElem_range]
    have h2 : pos q = (List.range (pos q).length).map fun i => (pos q).getD i [] := by
      apply List.ext_getElem
      · simp
      · intro i a b
        simp [List.getD_eq_getElem, a]
    conv_rhs => rw [h2, List.filter_map, List.length_map]
    rfl
  unfold layoutInit
  simp only [List.length_map, List.length_range, ne_eq, not_true_eq_false, if_false]
  apply AllReturn.coll hn
  apply AllReturn.coll hn
  apply AllReturn.coll hn
  refine (C89_cost g.nrank hn _ ?_).congr (fun _ _ => rfl) fun r hr => ?_
  · intro r _
    simp
  · apply List.map_congr_left
    intro q hq
    congr 1
    apply List.map_congr_left
    intro t ht
    exact (hget q t (List.mem_range.1 (List.mem_filter.1 ht).1)).symm

end

/-- The hypotheses of the two theorems are met by 3 x 2 domains of unequal width on 6 ranks with a smoothing wider than a domain; the bound is 5 * 4. -/
example (pos : List (List ℚ)) (hpos : ∀ x ∈ pos, 2 ≤ x.length) :=
  C89_copies exGrid exGrid_ok rfl exGrid_flags [3, 1] rfl (by simp) exGrid_fits (fun j => if j = 0 then 2 else 1)
    (by intro j _; beta_reduce; split_ifs <;> norm_num)
    (by
      intro j hj d hd
      simp only [Grid.ndim, exGrid, List.length_cons, List.length_nil] at hj
      interval_cases j <;> simp [Grid.axis, exGrid] at hd <;> interval_cases d <;> norm_num [Grid.axis, exGrid]) pos hpos

example (pos : ℕ → List (List ℚ)) (hpos : ∀ q, ∀ x ∈ pos q, 2 ≤ x.length) :=
  C89_cost_decompose (α := ℕ) exGrid exGrid_ok rfl exGrid_flags (by decide) [3, 1] rfl (by simp) exGrid_fits pos hpos

/-- Rank 0 sends one of its particles to rank 1, rank 1 keeps its own. -/
example : AllReturn 2 (fun r => exchangeCost (α := ℕ) 2 r (exLay r)) fun _ => [1, 0] :=
  (C89_cost 2 (by decide) exLay exLay_ok.counts_length).congr (fun _ _ => rfl) (by decide)

/-- The bound is attained: smoothing of half a domain, a particle on a corner of the domains goes to all four ranks. -/
example : (decompose (⟨[[0, 1, 2], [0, 1, 2]], true, [0, 1, 2, 3], 4⟩ : Grid ℚ) [1/2, 1/2] [[1, 1]]).toOption.map Sends.sendcounts = some [1, 1, 1, 1] := by
  decide +kernel

end Pmesh

#print axioms Pmesh.C89_copies
#print axioms Pmesh.C89_cost
#print axioms Pmesh.C89_cost_decompose
