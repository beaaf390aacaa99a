import Verif.Spec.Preview
import Verif.Lemmas.Preview
import Verif.Lemmas.Exec
import Verif.Lemmas.Ravel

/-! # C35: `preview`; C54: `csum` -/

namespace Pmesh

section
variable {V : Type} [AddCommMonoid V]

/-- **C35** (partial: if all axes are kept, they must be in their natural order).  For any split of the mesh over the ranks,
`preview` ends on all ranks, and each gets the sum of the global array over the omitted axes, with the kept axes in the
requested order. -/
theorem C35_projection_partial (t : Tiling) (ht : t.OK) (axes : List ℕ) (hnd : axes.Nodup) (hlt : ∀ d ∈ axes, d < t.nmesh.length)
    (hord : axes.length = t.nmesh.length → axes = List.range t.nmesh.length)
    (f : ℕ → List ℕ → V) (G : List ℕ → V) (hf : t.Holds f G) :
    AllReturn t.nrank (fun r => preview t r axes (f r)) (fun _ => .ok (projected t.cshape axes G)) := by
  set S := ndindex (axes.map fun d => t.cshape.getD d 0) with hS
  have hperm := removedAxes_perm hnd hlt
  set L : ℕ → List ℕ → V := fun r g => ((ndindex (t.lshape r)).map fun c =>
    if (axes.map fun d => (t.global r c).getD d 0) = g then f r c else 0).sum with hL
  have hloc : ∀ r < t.nrank, previewLocal t r axes (f r) = .ok (S.map (L r)) := by
    intro r hr
    have hsl := ht.start_len r hr
    have hll := ht.shape_len r hr
    unfold previewLocal
    dsimp only
    have hany : (axes.any fun d => decide (t.nmesh.length ≤ d)) = false := by
      rw [List.any_eq_false]
      intro d hd
      have := hlt d hd
      simp; omega
    rw [if_neg (by rw [hany]; simp)]
    by_cases hlen : axes.length = t.nmesh.length
    · have hax := hord hlen
      rw [if_neg (by simpa using hlen)]
      have hpick : ∀ l : List ℕ, l.length = t.nmesh.length → (axes.map fun d => l.getD d 0) = l := by
        intro l hl
        rw [hax, ← hl]
        apply List.ext_getElem
        · simp
        · intro j h1 h2
          simp [List.getElem?_eq_getElem h2]
      have hbc : ((List.zipWith (fun (a b : ℕ) => decide (a = b ∨ a = 1)) (t.lshape r) (axes.map fun d => (t.lshape r).getD d 0)).all id)
          = true := by
        rw [hpick _ hll, all_zipWith_iff rfl]
        simp
      rw [if_pos hbc]
      unfold addSlice
      congr 1
      apply List.map_congr_left
      intro g hg
      have hgl : g.length = axes.length := by simpa using (mem_ndindex.1 hg).len
      have hrem : removedAxes t.nmesh.length axes = [] := by
        rw [hax]; unfold removedAxes
        rw [List.filter_eq_nil_iff]
        intro a ha
        simpa using ha
      have he := slice_elem hperm hsl hll hgl (f r)
      rw [hrem] at he
      refine Eq.trans ?_ he
      split
      · next hc =>
        obtain ⟨k, hk, rfl⟩ := (slice_cond (by simpa using hgl) (by simp)).1 hc
        have hkl : k.length = axes.length := by simpa using hk.len
        rw [zipWith_add_sub (by simpa using hkl)]
        simp only [List.map_nil, ndindex, List.map_cons, List.sum_cons, List.sum_nil, add_zero, List.append_nil]
        rw [hpick _ hll] at hk
        congr 1
        have hperm' := hperm
        rw [hrem, List.append_nil] at hperm'
        have hu : untranspose axes k = k := by
          have := untranspose_map hperm' (c := k) (by omega)
          rwa [hpick k (by omega)] at this
        rw [hu]
        apply List.ext_getElem
        · simp; omega
        · intro j h1 h2
          have := (validIndex_iff.1 hk).2 j (by omega)
          rw [List.getD_eq_getElem _ _ h2, List.getD_eq_getElem _ _ (by omega)] at this
          rw [List.getElem_zipWith]
          split
          · omega
          · rfl
      · rfl
    · rw [if_pos (by simpa using hlen), if_neg (by simpa using hperm.len)]
      unfold addSlice
      congr 1
      apply List.map_congr_left
      intro g hg
      have hgl : g.length = axes.length := by simpa using (mem_ndindex.1 hg).len
      exact slice_elem hperm hsl hll hgl (f r)
  have hprog : ∀ r < t.nrank, preview t r axes (f r) = .coll .allreduce (S.map (L r)) fun vs =>
      .ret (.ok (allreduceSum S.length vs)) := by
    intro r hr
    unfold preview
    rw [hloc r hr]
    simp
  refine AllReturn.congr hprog (fun _ _ => rfl) (AllReturn.coll ht.rank_pos ?_)
  refine AllReturn.congr (fun _ _ => rfl) (fun r _ => ?_) (AllReturn.ret t.nrank _)
  rw [allreduceSum_map]
  congr 1
  unfold projected
  apply List.map_congr_left
  intro g _
  unfold projection
  rw [← tiles_sum ht]
  congr 1
  apply List.map_congr_left
  intro r hr
  rw [List.mem_range] at hr
  rw [hL]
  dsimp only
  congr 1
  apply List.map_congr_left
  intro c hc
  rw [hf r hr c (mem_ndindex.1 hc)]

/-- **C35**, all axes: `preview()` gives the whole global array, in C order, to every rank. -/
theorem C35_whole (t : Tiling) (ht : t.OK) (f : ℕ → List ℕ → V) (G : List ℕ → V) (hf : t.Holds f G) :
    AllReturn t.nrank (fun r => preview t r (List.range t.nmesh.length) (f r)) (fun _ => .ok ((ndindex t.cshape).map G)) := by
  have h := C35_projection_partial t ht (List.range t.nmesh.length) List.nodup_range (fun d hd => List.mem_range.1 hd)
    (fun _ => rfl) f G hf
  refine AllReturn.congr (fun _ _ => rfl) (fun _ _ => ?_) h
  have hpick : ∀ l : List ℕ, l.length = t.nmesh.length → ((List.range t.nmesh.length).map fun d => l.getD d 0) = l := by
    intro l hl
    rw [← hl]
    apply List.ext_getElem
    · simp
    · intro j h1 h2
      simp [List.getElem?_eq_getElem h2]
  unfold projected
  rw [hpick _ ht.cshape_len]
  congr 1
  apply List.map_congr_left
  intro g hg
  unfold projection
  have : ((ndindex t.cshape).map fun c => if ((List.range t.nmesh.length).map fun d => c.getD d 0) = g then G c else 0) =
      (ndindex t.cshape).map fun c => if c = g then G c else 0 := by
    apply List.map_congr_left
    intro c hc
    rw [hpick c (by rw [(mem_ndindex.1 hc).len, ht.cshape_len])]
  rw [this]
  have hp := sum_filter_decide (ndindex t.cshape) (fun c => c = g) G
  rw [← hp, List.filter_eq]
  have hcount : (ndindex t.cshape).count g = 1 := List.count_eq_one_of_mem (ndindex_nodup _) hg
  rw [hcount]
  simp

/-- The tiling of a mesh of 2 by 2 cells in a single process. -/
def exSquare : Tiling := ⟨[2, 2], [2, 2], 1, fun _ => [0, 0], fun _ => [2, 2]⟩

/-- A mesh of 2 by 3 cells, one row on each of two ranks. -/
def exTwoRows : Tiling := ⟨[2, 3], [2, 3], 2, fun r => [r, 0], fun _ => [1, 3]⟩

/-- **C35 does not hold** if all axes are kept in another order: on a square mesh `preview(axes=(1, 0))` returns the array
as it is, not transposed. -/
theorem C35_violated_order : AllReturn exSquare.nrank (fun r => preview exSquare r [1, 0] fun c => 2 * c.getD 0 0 + c.getD 1 0)
      (fun _ => .ok [0, 1, 2, 3]) ∧
    projected exSquare.cshape [1, 0] (fun c => 2 * c.getD 0 0 + c.getD 1 0) = [0, 2, 1, 3] :=
  ⟨AllReturn.of_runAll 2 (by decide +kernel), by decide +kernel⟩

/-- **C35 does not hold** if all axes are kept in another order: on a mesh that is not square it raises an exception
instead. -/
theorem C35_violated_shape : AllReturn 1 (fun r => preview ⟨[2, 3], [2, 3], 1, fun _ => [0, 0], fun _ => [2, 3]⟩ r [1, 0]
      fun c => c.getD 0 0)
      (fun _ => .error "could not be broadcast") :=
  AllReturn.of_runAll 2 (by decide +kernel)

/-- **C54**, `csum`.  For any split of the mesh over the ranks and any order in which the axes are summed, all ranks get the
sum of the global array. -/
theorem C54_csum (t : Tiling) (ht : t.OK) (order : ℕ → List ℕ) (hord : ∀ r < t.nrank, (order r).Perm (List.range t.nmesh.length))
    (f : ℕ → List ℕ → V) (G : List ℕ → V) (hf : t.Holds f G) :
    AllReturn t.nrank (fun r => csum t (order r) (f r) r) (fun _ => ((ndindex t.cshape).map G).sum) := by
  refine AllReturn.coll ht.rank_pos ?_
  refine AllReturn.congr (fun _ _ => rfl) (fun r _ => ?_) (AllReturn.ret t.nrank _)
  rw [← tiles_sum ht]
  congr 1
  apply List.map_congr_left
  intro r hr
  rw [List.mem_range] at hr
  have hp : AxisPerm t.nmesh.length (order r) := by
    refine ⟨?_, ?_, ?_⟩
    · rw [(hord r hr).length_eq, List.length_range]
    · exact (hord r hr).nodup_iff.2 List.nodup_range
    · intro d hd
      exact List.mem_range.1 ((hord r hr).mem_iff.1 hd)
  rw [sumLast_eq _ _ _ rfl]
  have h := filter_perm (axes := []) (removed := order r) (k := []) (by simpa using hp) (ht.shape_len r hr) .nil
  simp only [List.map_nil, decide_true, List.filter_true, List.nil_append] at h
  have h2 := (h.map (f r)).sum_eq
  rw [List.map_map] at h2
  refine Eq.trans ?_ h2.symm
  congr 1
  apply List.map_congr_left
  intro c hc
  exact (hf r hr c (mem_ndindex.1 hc)).symm

end

theorem exTwoRows_ok : exTwoRows.OK := tiling_ok_of_decide (by decide)

/-- Non-vacuity of C35: the projection on the second axis. -/
example := C35_projection_partial exTwoRows exTwoRows_ok [1] (by decide) (by decide) (by decide)
  (fun r c => ((r : ℤ) * 10 + c.getD 1 0)) (fun c => ((c.getD 0 0 : ℕ) : ℤ) * 10 + c.getD 1 0) (by
    intro r hr c hc
    replace hc := mem_ndindex.2 hc
    revert r c
    decide)
example : projected exTwoRows.cshape [1] (fun c => ((c.getD 0 0 : ℕ) : ℤ) * 10 + c.getD 1 0) = [10, 12, 14] := by decide +kernel

/-- Non-vacuity of C54, with the two ranks summing the axes in different orders. -/
example := C54_csum exTwoRows exTwoRows_ok (fun r => if r = 0 then [0, 1] else [1, 0]) (by decide)
  (fun r c => ((r : ℤ) * 10 + c.getD 1 0)) (fun c => ((c.getD 0 0 : ℕ) : ℤ) * 10 + c.getD 1 0) (by
    intro r hr c hc
    replace hc := mem_ndindex.2 hc
    revert r c
    decide)

end Pmesh
