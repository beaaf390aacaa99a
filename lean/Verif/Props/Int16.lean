import Verif.Lemmas.Int16
import Mathlib.Tactic.NormNum
import Mathlib.Tactic.IntervalCases
import Mathlib.Algebra.Order.Ring.Rat
import Mathlib.Data.Rat.Floor

/-!
# C57: the integer types of the domain decomposition

`decompose16` and `load16` are `GridND.decompose` and `GridND.load` with the ranges of domains stored in 16 bits, as in the code;
`decompose` and `load` have integers of any size.
-/

namespace Pmesh

section
variable {K : Type*} [Field K] [LinearOrder K] [IsStrictOrderedRing K] [FloorRing K]

/-- **C57** (`decompose`).  With at most 16384 domains along each axis (32767 if the grid is not periodic), nothing is lost by the
16 bits.  Partial: fails for larger grids, see `C57_violated_decompose`. -/
theorem C57_decompose_partial (g : Grid K) (hg : GridOK g)
    (hn : ∀ j < g.ndim, (g.axis j).length - 1 ≤ if g.periodic then 16384 else 32767) (s : List K) (hs : s.length = g.ndim)
    (pos : List (List K)) (hpos : ∀ x ∈ pos, g.ndim ≤ x.length) : decompose16 g s pos = decompose g s pos := by
  have hr : ∀ x ∈ pos, particleRange16 g s x = particleRange g s x := by
    intro x hx
    unfold particleRange16
    conv_rhs => rw [← List.map_id (particleRange g s x)]
    apply List.map_congr_left
    intro a ha
    obtain ⟨j, hj, rfl⟩ := List.getElem_of_mem ha
    have hj' : j < g.ndim := by
      rw [particleRange_length hs (hpos x hx)] at hj
      exact hj
    rw [particleRange_getElem hs (hpos x hx) hj]
    have hn' := hn j hj'
    rcases Bool.eq_false_or_eq_true g.periodic with hp | hp
    · rw [hp] at hn' ⊢
      rw [if_pos rfl] at hn'
      have hb := axisRange_periodic_bounds (hg.axisOK hj') (s.getD j 0) (x.getD j 0)
      rw [toInt16_eq (by omega) (by omega), toInt16_eq (by omega) (by omega)]
      rfl
    · rw [hp] at hn' ⊢
      rw [if_neg (by simp)] at hn'
      have hb := axisRange_open_bounds (g.axis j) (s.getD j 0) (x.getD j 0)
      rw [toInt16_eq (by omega) (by omega), toInt16_eq (by omega) (by omega)]
      rfl
  unfold decompose16 decompose decomposeBy
  have e1 : (pos.mapM fun x => particleTargets g ((particleRange16 g s x).map (·.1)) ((particleRange16 g s x).map (·.2))) =
      pos.mapM fun x => particleTargets g ((particleRange g s x).map (·.1)) ((particleRange g s x).map (·.2)) := by
    clear hpos
    induction pos with
    | nil => rfl
    | cons a l ih =>
      rw [List.mapM_cons, List.mapM_cons, hr a (by simp), ih fun a ha => hr a (by simp [ha])]
  simp only [e1]

/-- **C57** (`load`).  With at most 32767 domains along each axis the 16 bits are enough.  Partial: see `C57_violated_load`. -/
theorem C57_load_partial (g : Grid K) (hn : ∀ j < g.ndim, (g.axis j).length - 1 ≤ 32767) (gamma : ℕ) (pos : List (List (List K))) :
    load16 g gamma pos = load g gamma pos := by
  have h : loadDomain16 g = loadDomain g := by
    funext x
    unfold loadDomain16 loadDomain
    refine congrArg (ravelMultiIndex (!g.periodic) g.shape) (List.ext_getElem (by simp) ?_)
    intro j h1 h2
    simp only [List.length_zipWith, lt_inf_iff] at h1
    simp only [List.getElem_zipWith]
    have hd := digitize_le_length (if g.periodic then pyMod (x[j]'h1.2) ((g.edges[j]'h1.1).getLastD 0) else x[j]'h1.2) (g.edges[j]'h1.1)
    have := hn j h1.1
    rw [g.axis_eq h1.1] at this
    rw [toInt16_eq] <;> omega
  unfold load16 load
  rw [h]

/-- **C57** (array of indices).  If fewer than 2^31 copies of particles are sent, the array of indices has the right length. -/
theorem C57_totalsize_partial (counts : List ℕ) (h : counts.sum < 2147483648) : totalsize32 counts = (counts.sum : ℤ) := by
  have key : ∀ (l : List ℕ) (a : ℕ), a + l.sum < 2147483648 → l.foldl (fun (a : ℤ) (c : ℕ) => wrapInt32 (a + wrapInt32 c)) (a : ℤ) = ((a + l.sum : ℕ) : ℤ) := by
    intro l
    induction l with
    | nil => simp
    | cons c l ih =>
      intro a ha
      rw [List.sum_cons] at ha
      rw [List.foldl_cons, wrapInt32_eq (x := (c : ℤ)) (by omega) (by omega), wrapInt32_eq (by omega) (by omega), List.sum_cons]
      have := ih (a + c) (by omega)
      push_cast at this ⊢
      rw [this]
      ring
  have := key counts 0 (by omega)
  simpa [totalsize32] using this

end

/-! ### Larger grids -/

/-- `n` domains of width 1, one for each of `n` ranks. -/
def unitGrid (n : ℕ) : Grid ℚ := { edges := [unitEdges n], periodic := true, assign := List.range n, nrank := n }

theorem unitGrid_ok {n : ℕ} (hn : 1 ≤ n) : GridOK (unitGrid n) := by
  refine ⟨by simp [unitGrid], ?_, ?_, ?_⟩
  · intro e he
    simp only [unitGrid, List.mem_singleton] at he
    subst he
    exact unitEdges_ok hn
  · simp [unitGrid, unitEdges_length]
  · intro r hr
    simpa [unitGrid] using hr

/-- **C57 is violated** by `decompose` on a grid of 32767 domains: a particle in the last one, with smoothing 1/2, has to go to the last and the
first rank; it is sent nowhere. -/
theorem C57_violated_decompose (n : ℕ) (hn : n = 32767) :
    (unitGrid n).Reaches [1 / 2] [32766 + 3 / 4] 32766 ∧ (unitGrid n).Reaches [1 / 2] [32766 + 3 / 4] 0 ∧
    ∃ L, decompose16 (unitGrid n) [1 / 2] [[32766 + 3 / 4]] = .ok L ∧ ∀ r < n, L.sentTo r = [] := by
  have hq : (n : ℚ) = 32767 := by rw [hn]; norm_num
  have hz : (n : ℤ) = 32767 := by rw [hn]; norm_num
  have hdom : ∀ d < n, (unitGrid n).IsDomain [d] := by
    intro d hd
    unfold Grid.IsDomain
    simp only [unitGrid, List.map_cons, List.map_nil, unitEdges_length]
    exact .cons (by omega) .nil
  have hown : ∀ d < n, (unitGrid n).Owner [d] d := by
    intro d hd
    unfold Grid.Owner
    simp only [unitGrid, List.map_cons, List.map_nil, unitEdges_length, cOrder, List.prod_nil]
    rw [List.getElem?_range (by omega)]
    simp
  have hlo : ∀ d < n, (unitGrid n).lo [d] 0 = d ∧ (unitGrid n).hi [d] 0 = d + 1 ∧ (unitGrid n).box 0 = n := by
    intro d hd
    have h1 : (unitEdges (K := ℚ) n).getD d 0 = d := unitEdges_getD (by omega)
    have h2 : (unitEdges (K := ℚ) n).getD (d + 1) 0 = ((d + 1 : ℕ) : ℚ) := unitEdges_getD (by omega)
    exact ⟨h1, by push_cast at h2; exact h2, unitEdges_last (K := ℚ) n⟩
  have hnd : (unitGrid n).ndim = 1 := rfl
  refine ⟨⟨[32766], hdom _ (by omega), hown _ (by omega), fun j hj => ?_⟩, ⟨[0], hdom _ (by omega), hown _ (by omega), fun j hj => ?_⟩, ?_⟩
  · obtain rfl : j = 0 := by omega
    obtain ⟨a, b, c⟩ := hlo 32766 (by omega)
    rw [a, b, c, hq]
    exact ⟨32766 + 3 / 4, by norm_num, by norm_num, 0, by norm_num, by norm_num⟩
  · obtain rfl : j = 0 := by omega
    obtain ⟨a, b, c⟩ := hlo 0 (by omega)
    rw [a, b, c, hq]
    exact ⟨32767, by norm_num, by norm_num, -1, by norm_num, by norm_num⟩
  · have hlast := unitEdges_last (K := ℚ) n
    have hc : pyMod (32766 + 3 / 4 : ℚ) 32767 = 32766 + 3 / 4 :=
      pyMod_eq_of (by norm_num) (by norm_num) (by norm_num) 0 (by norm_num)
    have hl : pyMod (32766 + 3 / 4 - 1 / 2 : ℚ) 32767 = 32766 + 1 / 4 :=
      pyMod_eq_of (by norm_num) (by norm_num) (by norm_num) 0 (by norm_num)
    have hr : pyMod (32766 + 3 / 4 + 1 / 2 : ℚ) 32767 = 1 / 4 :=
      pyMod_eq_of (by norm_num) (by norm_num) (by norm_num) 1 (by norm_num)
    have d1 : digitize (32766 + 3 / 4 : ℚ) (unitEdges n) = 32766 + 1 := unitEdges_digitize (by omega) (by norm_num) (by norm_num)
    have d2 : digitize (32766 + 1 / 4 : ℚ) (unitEdges n) = 32766 + 1 := unitEdges_digitize (by omega) (by norm_num) (by norm_num)
    have d3 : digitize (1 / 4 : ℚ) (unitEdges n) = 0 + 1 := unitEdges_digitize (by omega) (by norm_num) (by norm_num)
    have hrange : particleRange16 (unitGrid n) [1 / 2] [32766 + 3 / 4] = [(32766, -32768)] := by
      simp only [particleRange16, particleRange, unitGrid, List.zip_cons_cons, List.zipWith_cons_cons, List.zip_nil_left, List.zipWith_nil_left,
        List.map_cons, List.map_nil, axisRange, if_true]
      rw [hlast, hq, hc, hl, hr, d1, d2, d3, unitEdges_length]
      simp only [Nat.add_sub_cancel, hz]
      rfl
    have hT : particleTargets (unitGrid n) [32766] [-32768] = .ok [] := rfl
    obtain ⟨L, T, hL, -, hTl, h1, h2, h3⟩ := decomposeBy_of_targets (unitGrid n) (particleRange16 (unitGrid n) [1 / 2]) [[32766 + 3 / 4]]
      (fun _ T => T = []) (by
        intro x hx
        obtain rfl : x = [32766 + 3 / 4] := by simpa using hx
        refine ⟨[], ?_, List.Pairwise.nil, by simp, rfl⟩
        rw [hrange]
        exact hT)
    refine ⟨L, hL, fun r hr => ?_⟩
    rw [sentTo_eq h1 h2 hr, List.map_eq_nil_iff, List.eq_nil_iff_forall_not_mem]
    intro i hi
    obtain ⟨t, ht, hrt⟩ := mem_sentList.mp hi
    have hi1 : i < T.length := (List.getElem?_eq_some_iff.mp ht).1
    obtain ⟨t', ht', -, -, hnil⟩ := h3 i [32766 + 3 / 4] (by
      obtain rfl : i = 0 := by simp_all
      rfl)
    rw [ht] at ht'
    cases ht'
    simp [hnil] at hrt

/-- **C57 is violated** by `load` on a grid of 32769 domains: a particle in the last one raises an exception. -/
theorem C57_violated_load (n : ℕ) (hn : n = 32769) : load16 (unitGrid n) 1 [[[32768 + 1 / 2]]] = none := by
  have hq : (n : ℚ) = 32769 := by rw [hn]; norm_num
  have hc : pyMod (32768 + 1 / 2 : ℚ) 32769 = 32768 + 1 / 2 := pyMod_eq_of (by norm_num) (by norm_num) (by norm_num) 0 (by norm_num)
  have d1 : digitize (32768 + 1 / 2 : ℚ) (unitEdges n) = 32768 + 1 := unitEdges_digitize (by omega) (by norm_num) (by norm_num)
  have hlast := unitEdges_last (K := ℚ) n
  have hd : loadDomain16 (unitGrid n) [32768 + 1 / 2] = none := by
    unfold loadDomain16
    simp only [unitGrid, List.zipWith_cons_cons, List.zipWith_nil_left, if_true]
    rw [hlast, hq, hc, d1]
    rfl
  unfold load16 loadOf loadLocalOf
  simp only [List.mapM_cons, List.mapM_nil, hd]
  rfl

/-- **C57 is violated** for the length of the array of indices: 2^31 - 1 particles (allowed by the assertion `len(pos) < 2^31`) on two ranks
with a smoothing that reaches both; the array of 2^32 - 2 indices is allocated with a length of -2. -/
theorem C57_violated_totalsize (m : ℕ) (hm : m = 2147483647) :
    ∃ L, decompose (unitGrid 2) [3 / 4] (List.replicate m [1 / 2]) = .ok L ∧ L.indices.length = 4294967294 ∧ totalsize32 L.sendcounts = -2 := by
  obtain ⟨L, T, hL, -, hTl, h1, h2, h3⟩ := decompose_of_targets (unitGrid 2) [3 / 4] (List.replicate m [1 / 2])
    (fun _ T => T = [0, 1]) (by
      intro x hx
      obtain rfl := List.eq_of_mem_replicate hx
      exact ⟨[0, 1], by decide +kernel, by decide, by decide, rfl⟩)
  have hs : ∀ r < 2, sentList T r = List.range m := by
    intro r hr
    have hlen : T.length = m := by simpa using hTl
    unfold sentList
    rw [hlen]
    refine List.filter_eq_self.mpr fun i hi => ?_
    have hi' : i < m := List.mem_range.mp hi
    obtain ⟨t, ht, -, -, e⟩ := h3 i [1 / 2] (by rw [List.getElem?_replicate, if_pos hi'])
    rw [List.getD_eq_getElem?_getD, ht]
    simp only [Option.getD_some, e, decide_eq_true_eq]
    interval_cases r <;> simp
  have hc : L.sendcounts = [m, m] := by
    rw [h1]
    change [(sentList T 0).length, (sentList T 1).length] = _
    rw [hs 0 (by norm_num), hs 1 (by norm_num), List.length_range]
  refine ⟨L, hL, ?_, ?_⟩
  · rw [h2]
    change (List.map some (sentList T 0 ++ (sentList T 1 ++ []))).length = _
    rw [hs 0 (by norm_num), hs 1 (by norm_num)]
    simp
    omega
  · rw [hc]
    have hz : (m : ℤ) = 2147483647 := by rw [hm]; norm_num
    simp only [totalsize32, List.foldl_cons, List.foldl_nil, hz]
    decide

example : decompose16 (unitGrid 100) [1 / 2] [[99 + 3 / 4], [-3]] = decompose (unitGrid 100) [1 / 2] [[99 + 3 / 4], [-3]] := by
  refine C57_decompose_partial (unitGrid 100) (unitGrid_ok (by norm_num)) ?_ _ rfl _ (by simp [Grid.ndim, unitGrid])
  intro j hj
  obtain rfl : j = 0 := by simp [Grid.ndim, unitGrid] at hj; omega
  change (unitEdges (K := ℚ) 100).length - 1 ≤ _
  rw [unitEdges_length]
  decide

example : load16 (unitGrid 100) 1 [[[99 + 3 / 4], [-3]]] = load (unitGrid 100) 1 [[[99 + 3 / 4], [-3]]] := by
  refine C57_load_partial (unitGrid 100) ?_ 1 _
  intro j hj
  obtain rfl : j = 0 := by simp [Grid.ndim, unitGrid] at hj; omega
  change (unitEdges (K := ℚ) 100).length - 1 ≤ _
  rw [unitEdges_length]
  decide

example : totalsize32 [5, 0, 2000000000] = 2000000005 := C57_totalsize_partial [5, 0, 2000000000] (by norm_num)

end Pmesh

#print axioms Pmesh.C57_decompose_partial
#print axioms Pmesh.C57_load_partial
#print axioms Pmesh.C57_totalsize_partial
#print axioms Pmesh.C57_violated_decompose
#print axioms Pmesh.C57_violated_load
#print axioms Pmesh.C57_violated_totalsize
