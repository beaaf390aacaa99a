import Verif.Lemmas.UniformGrid
import Verif.Props.Mesh

/-! # C34: the uniform particle grid -/

namespace Pmesh

section
variable {K : Type} [Field K] [LinearOrder K] [IsStrictOrderedRing K] [FloorRing K]

/-- **C34**, ids.  However the mesh is split over the ranks, the ids of all ranks together are the numbers
`0, …, prod(Nmesh) - 1`, each exactly once. -/
theorem C34_ids {m : PMesh K} (hm : m.OK) :
    List.Perm ((List.range m.nrank).flatMap m.gridIds) (List.range m.nmesh.prod) := by
  have h1 : ((List.range m.nrank).flatMap m.gridIds) =
      ((List.range m.nrank).flatMap fun r => (ndindex (m.localShape r)).map (m.global r)).map (gridId m.nmesh) := by
    rw [List.map_flatMap]
    congr 1
    funext r
    unfold PMesh.gridIds
    rw [meshCoordinates_eq]
  rw [h1]
  refine ((ranks_perm hm).map _).trans ?_
  have h2 : (ndindex m.nmesh).map (gridId m.nmesh) = (ndindex m.nmesh).map (cOrder m.nmesh) := by
    apply List.map_congr_left
    intro c hc
    exact gridId_eq (mem_ndindex.1 hc).len
  rw [h2, List.perm_ext_iff_of_nodup ?_ List.nodup_range]
  · intro k
    rw [List.mem_map, List.mem_range]
    constructor
    · rintro ⟨c, hc, rfl⟩
      exact cOrder_lt (mem_ndindex.1 hc)
    · intro hk
      obtain ⟨c, hc, h⟩ := exists_cOrder_eq hk
      exact ⟨c, mem_ndindex.2 hc, h⟩
  · apply List.Nodup.map_on _ (ndindex_nodup _)
    intro c hc c' hc' h
    exact cOrder_inj (mem_ndindex.1 hc) (mem_ndindex.1 hc') h

/-- **C34**, the particle behind an id.  On each rank there are as many positions and ids as local cells.  Particle number `k`
belongs to a cell of the mesh: its id is the C-order number of the cell, its position is the corner of the cell
moved by `shift` cells, and if `0 ≤ shift < 1` it lies in the cell. -/
theorem C34_cell {m : PMesh K} (hm : m.OK) {r : ℕ} (hr : r < m.nrank) {shift : List K} (hs : shift.length = m.nmesh.length) :
    (m.uniformGrid shift r).length = (m.localShape r).prod ∧ (m.gridIds r).length = (m.localShape r).prod ∧
    ∀ k < (m.localShape r).prod, ∃ cell, ValidIndex m.nmesh cell ∧ (∃ c, ValidIndex (m.localShape r) c ∧ cell = m.global r c) ∧
      (m.gridIds r)[k]? = some (cOrder m.nmesh cell) ∧
      ∃ x, (m.uniformGrid shift r)[k]? = some x ∧ x.length = m.nmesh.length ∧ ∀ j < m.nmesh.length,
        x.getD j 0 = ((cell.getD j 0 : ℕ) + shift.getD j 0) * (m.box.getD j 0 / (m.nmesh.getD j 0 : ℕ)) ∧
        (0 ≤ shift.getD j 0 → shift.getD j 0 < 1 →
          ⌊x.getD j 0 * (m.nmesh.getD j 0 : ℕ) / m.box.getD j 0⌋ = (cell.getD j 0 : ℕ)) := by
  have hlen : (m.meshCoordinates r).length = (m.localShape r).prod := by
    rw [meshCoordinates_eq, List.length_map, ndindex_length]
  refine ⟨by unfold PMesh.uniformGrid; rw [List.length_map, hlen], by unfold PMesh.gridIds; rw [List.length_map, hlen], ?_⟩
  intro k hk
  have hk' : k < (ndindex (m.localShape r)).length := by rw [ndindex_length]; exact hk
  set c := (ndindex (m.localShape r))[k] with hc
  have hcv : ValidIndex (m.localShape r) c := mem_ndindex.1 (List.getElem_mem hk')
  have hgv := hm.global_valid hr hcv
  have hgl := hgv.len
  have hget : (m.meshCoordinates r)[k]? = some (m.global r c) := by
    rw [meshCoordinates_eq, List.getElem?_map, List.getElem?_eq_getElem hk', ← hc]
    rfl
  refine ⟨m.global r c, hgv, ⟨c, hcv, rfl⟩, ?_, List.zipWith (· * ·) (List.zipWith (fun (a : ℕ) s => (a : K) + s)
    (m.global r c) shift) (List.zipWith (fun b (n : ℕ) => b / (n : K)) m.box m.nmesh), ?_, ?_, ?_⟩
  · unfold PMesh.gridIds
    rw [List.getElem?_map, hget, Option.map_some, gridId_eq hgl]
  · unfold PMesh.uniformGrid
    rw [List.getElem?_map, hget, Option.map_some]
  · simp only [List.length_zipWith]
    rw [hgl, hs, hm.box_len]
    simp
  · intro j hj
    have hx : (List.zipWith (· * ·) (List.zipWith (fun (a : ℕ) s => (a : K) + s) (m.global r c) shift)
        (List.zipWith (fun b (n : ℕ) => b / (n : K)) m.box m.nmesh)).getD j 0 =
        (((m.global r c).getD j 0 : ℕ) + shift.getD j 0) * (m.box.getD j 0 / (m.nmesh.getD j 0 : ℕ)) := by
      rw [getD_zipWith _ _ _ 0 0 0 j (by simp; omega) (by simp [hm.box_len]; omega),
        getD_zipWith _ _ _ 0 0 0 j (by omega) (by omega), getD_zipWith _ _ _ 0 0 0 j (by rw [hm.box_len]; exact hj) hj]
    refine ⟨hx, fun h0 h1 => ?_⟩
    rw [hx]
    have hb : 0 < m.box.getD j 0 := by
      rw [List.getD_eq_getElem _ _ (by rw [hm.box_len]; exact hj)]
      exact hm.box_pos _ (List.getElem_mem _)
    have hn : (0 : K) < (m.nmesh.getD j 0 : ℕ) := by exact_mod_cast hm.nmesh_pos hj
    have : (((m.global r c).getD j 0 : ℕ) + shift.getD j 0) * (m.box.getD j 0 / (m.nmesh.getD j 0 : ℕ)) *
        (m.nmesh.getD j 0 : ℕ) / m.box.getD j 0 = ((m.global r c).getD j 0 : ℕ) + shift.getD j 0 := by
      field_simp
    rw [this, Int.floor_eq_iff]
    constructor
    · push_cast; linarith
    · push_cast; linarith

/-- **C34**, independence of the number of ranks: the particles of all ranks, with their ids, are those of a single process,
up to their order. -/
theorem C34_partition {m : PMesh K} (hm : m.OK) (strides : List ℤ) (shift : List K) :
    List.Perm ((List.range m.nrank).flatMap fun r => (m.uniformGrid shift r).zip (m.gridIds r))
      (((m.serial strides).uniformGrid shift 0).zip ((m.serial strides).gridIds 0)) := by
  have h1 : ∀ (m' : PMesh K) (r : ℕ), (m'.uniformGrid shift r).zip (m'.gridIds r) = (m'.meshCoordinates r).map fun i =>
      (List.zipWith (· * ·) (List.zipWith (fun (a : ℕ) s => (a : K) + s) i shift)
        (List.zipWith (fun b (n : ℕ) => b / (n : K)) m'.box m'.nmesh), gridId m'.nmesh i) := by
    intro m' r
    unfold PMesh.uniformGrid PMesh.gridIds
    rw [List.zip_map']
  simp only [h1]
  rw [← List.map_flatMap]
  have h2 : (m.serial strides).meshCoordinates 0 = ndindex m.nmesh := by
    rw [meshCoordinates_eq, serial_localShape]
    refine (List.map_congr_left fun c hc => ?_).trans (List.map_id _)
    unfold PMesh.global
    rw [serial_start]
    have hl := (mem_ndindex.1 hc).len
    apply List.ext_getElem
    · simp; omega
    · intro n h1 h2
      simp
  rw [h2]
  apply List.Perm.map
  rw [show m.meshCoordinates = fun r => (ndindex (m.localShape r)).map (m.global r) from funext (meshCoordinates_eq m)]
  exact ranks_perm hm

end

theorem exMesh2_ok : exMesh2.OK where
  dim := by decide
  box_len := by decide
  box_pos := by decide +kernel
  edges := .cons (slabEdges_of_decide (by decide)) (.cons (slabEdges_of_decide (by decide)) .nil)
  ranks := by decide
  coord_valid := by decide
  coord_inj := by decide
  distinct := by
    intro r hr
    apply distinct_of_decide
    revert r
    decide +kernel

/-- Non-vacuity of C34 on six ranks in two dimensions. -/
example := C34_ids exMesh2_ok
example : exMesh2.gridIds 3 = [15, 16, 21, 22] := by decide +kernel

/-- Non-vacuity of C34: two ranks with four cells each. -/
example := C34_ids exMesh_ok
example := C34_cell exMesh_ok (r := 1) (by decide) (shift := [1 / 2]) rfl
example : exMesh.gridIds 1 = [4, 5, 6, 7] ∧ exMesh.uniformGrid [1 / 2] 1 = [[9 / 2], [11 / 2], [13 / 2], [15 / 2]] := by
  decide +kernel
example := C34_partition exMesh_ok [1] [1 / 2]

end Pmesh
