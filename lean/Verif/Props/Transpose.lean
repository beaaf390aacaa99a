import Verif.Lemmas.Regrid
import Verif.Props.UniformGrid

/-! # C36: distributed transpose -/

namespace Pmesh

section
variable {K : Type} [Field K] [LinearOrder K] [IsStrictOrderedRing K] [FloorRing K]

/-- **C36** (partial: empty slabs of the transposed mesh only in C order of the ranks, `PlainRanks`).  Let `field` be any field
on a mesh `m` split in any way, `G` its global content, and `mT` the mesh with the axes permuted, split in any way over the
same ranks.  Then `ctranspose(axes)` ends on all ranks and the result is the transposed field: its element `i[axes]` is the
element `i` of the input. -/
theorem C36_ctranspose_partial (m mT : PMesh K) (hm : m.OK) (hmT : mT.OK) (hp : mT.PlainRanks) (axes : List ℕ)
    (haxes : axes.Perm (List.range m.nmesh.length)) (hn : mT.nmesh = axes.map fun d => m.nmesh.getD d 0)
    (hb : mT.box = axes.map fun d => m.box.getD d 0) (hr : mT.nrank = m.nrank) (field : ℕ → ℤ → K) (G : List ℕ → K)
    (hf : ∀ r < m.nrank, ∀ c, ValidIndex (m.localShape r) c → field r (m.addr r c) = G (m.global r c)) :
    ∃ res : ℕ → ℤ → K,
      AllReturn m.nrank (fun r => ctranspose m mT axes r (field r)) (fun r => .ok (res r)) ∧
      ∀ r < m.nrank, ∀ c, ValidIndex (mT.localShape r) c → ∀ i, ValidIndex m.nmesh i →
        (axes.map fun d => i.getD d 0) = mT.global r c → res r (mT.addr r c) = G i := by
  have hax : AxisPerm m.nmesh.length axes :=
    ⟨by rw [haxes.length_eq, List.length_range], haxes.nodup_iff.2 List.nodup_range,
      fun d hd => List.mem_range.1 (haxes.mem_iff.1 hd)⟩
  have hdim : mT.nmesh.length = m.nmesh.length := by rw [hn, List.length_map, hax.len]
  set X : ℕ → List ℕ → List K := fun r c =>
    List.zipWith (· * ·) (List.zipWith (fun (a : ℕ) s => (a : K) + s) (m.global r c) (List.replicate m.nmesh.length 0))
      (List.zipWith (fun b (n : ℕ) => b / (n : K)) m.box m.nmesh) with hX
  have hXj : ∀ r < m.nrank, ∀ c, ValidIndex (m.localShape r) c → (X r c).length = m.nmesh.length ∧ ∀ j < m.nmesh.length,
      (X r c).getD j 0 = ((m.global r c).getD j 0 : ℕ) * (m.box.getD j 0 / (m.nmesh.getD j 0 : ℕ)) := by
    intro r hr c hc
    have hgl := (hm.global_valid hr hc).len
    refine ⟨by simp [hX, hgl, hm.box_len], fun j hj => ?_⟩
    rw [hX]
    dsimp only
    rw [getD_zipWith _ _ _ 0 0 0 j (by simp; omega) (by simp [hm.box_len]; omega),
      getD_zipWith _ _ _ 0 0 0 j (by omega) (by simpa using hj), getD_zipWith _ _ _ 0 0 0 j (by rw [hm.box_len]; exact hj) hj]
    simp [hj]
  have hbn : ∀ j < m.nmesh.length, m.box.getD j 0 ≠ 0 ∧ ((m.nmesh.getD j 0 : ℕ) : K) ≠ 0 := by
    intro j hj
    constructor
    · rw [List.getD_eq_getElem _ _ (by rw [hm.box_len]; exact hj)]
      exact (hm.box_pos _ (List.getElem_mem _)).ne'
    · have := hm.nmesh_pos hj
      exact_mod_cast this.ne'
  have hAt : m.AtGrid X := by
    intro r hr c hc
    refine ⟨(hXj r hr c hc).1, fun j hj => ?_⟩
    obtain ⟨h1, h2⟩ := hbn j hj
    rw [scale_getD hm hj, (hXj r hr c hc).2 j hj]
    field_simp
  have hq : ∀ r, m.uniformGrid (List.replicate m.nmesh.length 0) r = (ndindex (m.localShape r)).map (X r) := by
    intro r
    unfold PMesh.uniformGrid
    rw [meshCoordinates_eq, List.map_map]
    rfl
  have hread := readout_own nnb_isNearest hm hAt field
  set pos : ℕ → List (List K) := fun r => (ndindex (m.localShape r)).map fun c => axes.map fun d => (X r c).getD d 0 with hpos
  have hposlen : ∀ r < mT.nrank, ∀ x ∈ pos r, x.length = mT.nmesh.length := by
    intro r _ x hx
    obtain ⟨c, _, rfl⟩ := List.mem_map.1 hx
    rw [List.length_map, hdim, hax.len]
  have hsm : mT.SmoothingOK (mT.smoothing nnbWindow) := by
    refine ⟨by simp [PMesh.smoothing], fun s hs => ?_⟩
    unfold PMesh.smoothing at hs
    rw [List.eq_of_mem_replicate hs]
    simp [nnbWindow]
  have hhalo : mT.HaloFits (mT.smoothing nnbWindow) := by
    intro j hj d hd
    have hs := hmT.slab hj
    have h1 := hs.le_last (a := d + 1) (by omega)
    by_cases he : (mT.edges.getD j []).getD (d + 1) 0 - (mT.edges.getD j []).getD d 0 = mT.nmesh.getD j 0
    · exact .inr he
    · left
      have hlt : ((mT.edges.getD j []).getD (d + 1) 0 - (mT.edges.getD j []).getD d 0) + 1 ≤ mT.nmesh.getD j 0 := by omega
      have hlt' : ((((mT.edges.getD j []).getD (d + 1) 0 - (mT.edges.getD j []).getD d 0 : ℕ) : K) + 1) ≤ (mT.nmesh.getD j 0 : ℕ) := by
        exact_mod_cast hlt
      have : (mT.smoothing nnbWindow).getD j 0 = 1 / 2 := by
        rw [smoothing_getD _ _ hj]; simp [nnbWindow]
      rw [this]
      linarith [show (1 / 2 : K) < 1 by norm_num]
  obtain ⟨mem, hpaint, hmem⟩ := paint_all hmT hp (nnbWindow_valid (K := K)) hsm hhalo hposlen
    (mass := fun r => .array ((ndindex (m.localShape r)).map fun c => field r (m.addr r c))) (hsml := fun _ => .none)
    (Or.inr (Or.inr fun r _ => ⟨_, rfl, by simp [hpos]⟩)) (Or.inl fun _ _ => rfl)
    (by
      intro p hpm s hs
      have h1 : p.hsml = 1 := by
        obtain ⟨r, _, hpm⟩ := List.mem_flatMap.1 hpm
        obtain ⟨i, _, rfl⟩ := List.mem_map.1 hpm
        rfl
      unfold PMesh.smoothing at hs
      rw [List.eq_of_mem_replicate hs, h1]
      right; left
      refine ⟨nearest_confined, ?_⟩
      simp [windowSize, nnbWindow, nearestK])
    (fun _ _ => 0) []
  refine ⟨mem, ?_, ?_⟩
  · rw [hr] at hpaint
    unfold ctranspose
    dsimp only
    refine AllReturn.congr (fun r _ => ?_) (fun _ _ => rfl) (AllReturn.andThen (k := fun r v =>
      (pmDecompose mT (mT.smoothing nnbWindow) r (pos r)).andThen fun lay =>
        pmPaint mT nnbWindow none false r (some lay) (pos r) (.array v) .none fun _ => 0) hread hpaint)
    rw [hq r, List.map_map]
    rfl
  · intro r hrr c hc i hi hic
    rw [hmem r (by rw [hr]; exact hrr) c hc]
    rw [allParticles_sum (fun r => m.localShape r) (fun r c => axes.map fun d => (X r c).getD d 0)
      (fun r c => field r (m.addr r c)), hr]
    have hCv := hmT.global_valid (by rw [hr]; exact hrr) hc
    have e : ∀ q ∈ List.range m.nrank, ((ndindex (m.localShape q)).map fun c' => field q (m.addr q c') *
        cwProd (List.zipWith (axisStencil ((mT.serial []).painter nnbWindow none 0) 1)
          ((mT.serial []).painter nnbWindow none 0).axes (axes.map fun d => (X q c').getD d 0)) (mT.global r c)).sum =
        ((ndindex (m.localShape q)).map fun c' => (fun g => if g = i then G g else 0) (m.global q c')).sum := by
      intro q hqm
      have hqr := List.mem_range.1 hqm
      congr 1
      apply List.map_congr_left
      intro c' hc'
      have hc' := mem_ndindex.1 hc'
      have hgv := hm.global_valid hqr hc'
      have hgT : ValidIndex mT.nmesh (axes.map fun d => (m.global q c').getD d 0) := by
        rw [hn]; exact (validIndex_pick hax rfl hgv.len).2 hgv
      rw [nnb_weight nnb_isNearest hmT [] (by simp [hdim, hax.len]) hgT ?_ hCv, hf q hqr c' hc']
      · have hiff : ((axes.map fun d => (m.global q c').getD d 0) = mT.global r c) ↔ m.global q c' = i := by
          rw [← hic]
          constructor
          · intro h
            have h1 := untranspose_map hax hgv.len
            have h2 := untranspose_map hax hi.len
            rw [← h1, h, h2]
          · intro h; rw [h]
        dsimp only
        rw [if_congr hiff rfl rfl]
        split <;> simp
      · intro j hj
        have hj' : j < axes.length := by rw [hax.len, ← hdim]; exact hj
        have hlt := hax.lt _ (List.getElem_mem hj')
        obtain ⟨h1, h2⟩ := hbn _ hlt
        rw [scale_getD hmT hj, hn, hb, getD_map_lt _ _ _ hj', getD_map_lt _ _ _ hj', getD_map_lt _ _ _ hj', getD_map_lt _ _ _ hj',
          (hXj q hqr c' hc').2 _ hlt]
        field_simp
    rw [List.map_congr_left e, sum_ranks hm (fun g => if g = i then G g else 0)]
    exact sum_one_of_nodup _ (ndindex_nodup _) G i (mem_ndindex.2 hi)

end

/-- The transposed mesh of `exMesh2`, split over the six ranks in another way. -/
def exMeshT : PMesh ℚ :=
  ⟨[6, 4], [2, 1], [[0, 2, 4, 6], [0, 1, 4]], 6, fun r => [r / 2, r % 2], fun _ => [4, 1], fun _ => 77⟩

theorem exMeshT_ok : exMeshT.OK where
  dim := by decide
  box_len := by decide
  box_pos := by decide +kernel
  edges := .cons (slabEdges_of_decide (by decide)) (.cons (slabEdges_of_decide (by decide)) .nil)
  ranks := by decide
  coord_valid := by decide
  coord_inj := by decide
  distinct := by
    intro r hr
    apply distinct_of_decide
    revert r
    decide +kernel

/-- Non-vacuity of C36: a mesh of four by six cells on six ranks. -/
example := C36_ctranspose_partial exMesh2 exMeshT exMesh2_ok exMeshT_ok (Or.inl (by decide)) [1, 0] (by decide) (by decide)
  (by decide +kernel) rfl (fun r a => (r : ℚ) * 100 + a)
  (fun g => (((ndindex [6, 1]).filterMap fun p => ((ndindex (exMesh2.localShape (p.getD 0 0))).find? fun c =>
    exMesh2.global (p.getD 0 0) c = g).map fun c => ((p.getD 0 0 : ℕ) : ℚ) * 100 + exMesh2.addr (p.getD 0 0) c).getD 0 0)) (by
    intro r hr c hc
    replace hc := mem_ndindex.2 hc
    revert c
    revert r
    decide +kernel)

/-- Two cells on four ranks, two of which have none, the ranks in Fortran order; and the transposed mesh, split in the same way. -/
def exFew : PMesh ℚ := ⟨[2, 1], [2, 1], [[0, 1, 2], [0, 1, 1]], 4, fun r => [r % 2, r / 2], fun _ => [1, 1], fun _ => 77⟩
def exFewT : PMesh ℚ := ⟨[1, 2], [1, 2], [[0, 1, 1], [0, 1, 2]], 4, fun r => [r % 2, r / 2], fun _ => [1, 1], fun _ => 77⟩

/-- **C36 violated** for empty slabs in another order of the ranks than C: of the field that is 5 everywhere rank 2 gets nothing, although it owns
a cell of the transposed mesh. -/
theorem C36_violated_order :
    AllReturn 4 (fun r => (ctranspose exFew exFewT [1, 0] r fun _ => 5).andThen fun mem => .ret (.ok (mem 0)))
      (fun r => .ok (if r = 0 then 5 else 0)) ∧
    exFewT.localShape 2 = [1, 1] ∧ exFewT.global 2 [0, 0] = [0, 1] ∧ exFewT.addr 2 [0, 0] = 0 :=
  ⟨AllReturn.of_runAll 20 (by decide +kernel), by decide +kernel⟩

#print axioms C36_ctranspose_partial
#print axioms C36_violated_order

end Pmesh
