import Verif.Lemmas.NnbAxis
import Verif.Lemmas.Regrid
import Verif.Lemmas.MeshDomain
import Verif.Spec.Window

/-!
# Addresses and writes of the tuned windows in floating point
-/

set_option linter.unusedSectionVars false

namespace Pmesh

section
variable {K : Type*} [Field K] [LinearOrder K] [IsStrictOrderedRing K] [FloorRing K]

theorem tunedAddr_of_valid : ∀ (axes : List (PAxis K)) (c : List ℕ), ValidIndex (shapeOf axes) c →
    tunedAddr axes (c.map fun i : ℕ => (i : ℤ)) = some (elemAddr axes c)
  | [], _, h => by cases h; rfl
  | ax :: axs, _, h => by
    cases h with
    | cons h1 h2 =>
      rename_i i is
      simp only [List.map_cons, tunedAddr, elemAddr]
      have h1 : i < ax.size := h1
      rw [if_neg (by omega), tunedAddr_of_valid axs is h2]
      rfl

theorem tunedAddr_some : ∀ (axes : List (PAxis K)) (ts : List ℤ) (a : ℤ), axes.length = ts.length → tunedAddr axes ts = some a →
    ∃ c, ValidIndex (shapeOf axes) c ∧ ts = c.map (fun i : ℕ => (i : ℤ)) ∧ a = elemAddr axes c
  | [], [], a, _, h => ⟨[], .nil, rfl, by simpa [tunedAddr, elemAddr] using h.symm⟩
  | ax :: axs, t :: ts, a, hl, h => by
    unfold tunedAddr at h
    split_ifs at h with h1
    rw [not_or] at h1
    obtain ⟨b, hb, rfl⟩ := Option.map_eq_some_iff.1 h
    obtain ⟨c, c1, c2, c3⟩ := tunedAddr_some axs ts b (by simpa using hl) hb
    refine ⟨t.toNat :: c, .cons (by show t.toNat < ax.size; omega) c1, ?_, ?_⟩
    · rw [List.map_cons, ← c2]
      congr 1
      omega
    · simp only [elemAddr]
      rw [c3]
      congr 2
      omega

theorem paintTable_len (t : Tuned) {n : ℕ} (h1 : 1 ≤ n) (h3 : n ≤ 3) : ∀ abc ∈ t.paintTable n, abc.length = n := by
  obtain rfl | rfl | rfl : n = 1 ∨ n = 2 ∨ n = 3 := by omega
  all_goals cases t <;> decide

theorem readTable_len (t : Tuned) {n : ℕ} (h1 : 1 ≤ n) (h3 : n ≤ 3) : ∀ abc ∈ t.readTable n, abc.length = n := by
  obtain rfl | rfl | rfl : n = 1 ∨ n = 2 ∨ n = 3 := by omega
  all_goals cases t <;> decide

theorem tunedAccessR_mem (R : Rounding K) (axes : List (PAxis K)) (ijk : List (List ℤ)) (v : List (List K)) (abc : List ℕ)
    (h1 : ijk.length = axes.length) (h2 : abc.length = axes.length) {a : ℤ × K} (h : tunedAccessR R axes ijk v abc = some a) :
    ∃ c, ValidIndex (shapeOf axes) c ∧ a.1 = elemAddr axes c := by
  unfold tunedAccessR at h
  obtain ⟨ind, hi, rfl⟩ := Option.map_eq_some_iff.1 h
  obtain ⟨c, c1, -, c3⟩ := tunedAddr_some axes _ _ (by simp [h1, h2]) hi
  exact ⟨c, c1, c3⟩

/-- The writes of the nearest window: one, if the cell is in the local array. -/
theorem nnbWrites (R : Rounding K) (axes : List (PAxis K)) (pos : List K) (h1 : 1 ≤ axes.length) (h3 : axes.length ≤ 3)
    (hl : pos.length = axes.length) (ho : ∀ ax ∈ axes, ax.order = 0) {w : K} (hw : R.rnd w = w) :
    tunedWritesR R .nnb axes pos w = ((tunedAddr axes (List.zipWith (fun (ax : PAxis K) x =>
      tunedWrap ax.period ⌊R.rnd (ax.gridR R x + 1 / 2)⌋) axes pos)).map fun a => (a, w)).toList := by
  match axes, pos, hl with
  | [a], [x], _ =>
    have h := ho a (by simp)
    simp [tunedWritesR, tunedValsR, tunedSetupR, tunedCellsR, tunedAccessR, Tuned.paintTable, Tuned.nnbPaint1, h, prodR, hw, List.filterMap]
    cases tunedAddr [a] [tunedWrap a.period ⌊R.rnd (a.gridR R x + 2⁻¹)⌋] <;> rfl
  | [a, b], [x, y], _ =>
    have ha := ho a (by simp)
    have hb := ho b (by simp)
    simp [tunedWritesR, tunedValsR, tunedSetupR, tunedCellsR, tunedAccessR, Tuned.paintTable, Tuned.nnbPaint2, ha, hb, prodR, hw, List.filterMap]
    cases tunedAddr [a, b] [tunedWrap a.period ⌊R.rnd (a.gridR R x + 2⁻¹)⌋, tunedWrap b.period ⌊R.rnd (b.gridR R y + 2⁻¹)⌋] <;> rfl
  | [a, b, c], [x, y, z], _ =>
    have ha := ho a (by simp)
    have hb := ho b (by simp)
    have hc := ho c (by simp)
    simp [tunedWritesR, tunedValsR, tunedSetupR, tunedCellsR, tunedAccessR, Tuned.paintTable, Tuned.nnbPaint3, ha, hb, hc, prodR, hw, List.filterMap]
    cases tunedAddr [a, b, c] [tunedWrap a.period ⌊R.rnd (a.gridR R x + 2⁻¹)⌋, tunedWrap b.period ⌊R.rnd (b.gridR R y + 2⁻¹)⌋, tunedWrap c.period ⌊R.rnd (c.gridR R z + 2⁻¹)⌋] <;> rfl

/-- The reads of the nearest window: one, if the cell is in the local array. -/
theorem nnbReads (R : Rounding K) (axes : List (PAxis K)) (pos : List K) (h1 : 1 ≤ axes.length) (h3 : axes.length ≤ 3)
    (hl : pos.length = axes.length) (ho : ∀ ax ∈ axes, ax.order = 0) (hw : R.rnd 1 = 1) :
    tunedReadsR R .nnb axes pos = ((tunedAddr axes (List.zipWith (fun (ax : PAxis K) x =>
      tunedWrap ax.period ⌊R.rnd (ax.gridR R x + 1 / 2)⌋) axes pos)).map fun a => (a, 1)).toList := by
  match axes, pos, hl with
  | [a], [x], _ =>
    have h := ho a (by simp)
    simp [tunedReadsR, tunedValsR, tunedSetupR, tunedCellsR, tunedAccessR, Tuned.readTable, Tuned.nnbReadout1, h, prodR, hw, List.filterMap]
    cases tunedAddr [a] [tunedWrap a.period ⌊R.rnd (a.gridR R x + 2⁻¹)⌋] <;> rfl
  | [a, b], [x, y], _ =>
    have ha := ho a (by simp)
    have hb := ho b (by simp)
    simp [tunedReadsR, tunedValsR, tunedSetupR, tunedCellsR, tunedAccessR, Tuned.readTable, Tuned.nnbReadout2, ha, hb, prodR, hw, List.filterMap]
    cases tunedAddr [a, b] [tunedWrap a.period ⌊R.rnd (a.gridR R x + 2⁻¹)⌋, tunedWrap b.period ⌊R.rnd (b.gridR R y + 2⁻¹)⌋] <;> rfl
  | [a, b, c], [x, y, z], _ =>
    have ha := ho a (by simp)
    have hb := ho b (by simp)
    have hc := ho c (by simp)
    simp [tunedReadsR, tunedValsR, tunedSetupR, tunedCellsR, tunedAccessR, Tuned.readTable, Tuned.nnbReadout3, ha, hb, hc, prodR, hw, List.filterMap]
    cases tunedAddr [a, b, c] [tunedWrap a.period ⌊R.rnd (a.gridR R x + 2⁻¹)⌋, tunedWrap b.period ⌊R.rnd (b.gridR R y + 2⁻¹)⌋, tunedWrap c.period ⌊R.rnd (c.gridR R z + 2⁻¹)⌋] <;> rfl

end

section
variable {K : Type} [Field K] [LinearOrder K] [IsStrictOrderedRing K] [FloorRing K]

/-- The rank that has a cell. -/
theorem owner_of_cell {m : PMesh K} (hm : m.OK) {g : List ℕ} (hg : ValidIndex m.nmesh g) :
    ∃ r < m.nrank, ∃ c, ValidIndex (m.localShape r) c ∧ m.global r c = g := by
  have h := (ranks_perm hm).mem_iff.2 (mem_ndindex.2 hg)
  obtain ⟨r, hr, h⟩ := List.mem_flatMap.1 h
  obtain ⟨c, hc, rfl⟩ := List.mem_map.1 h
  exact ⟨r, List.mem_range.1 hr, c, mem_ndindex.1 hc, rfl⟩

theorem axesR_len (R : Rounding K) (m : PMesh K) (r : ℕ) : (m.axesR R r).length = m.nmesh.length := by simp [PMesh.axesR]

theorem shapeOf_axesR (R : Rounding K) {m : PMesh K} {r : ℕ} (hl : (m.localShape r).length = m.nmesh.length) :
    shapeOf (m.axesR R r) = m.localShape r := by
  apply List.ext_getElem
  · simp [shapeOf, PMesh.axesR, hl]
  · intro j h1 h2
    simp only [shapeOf, PMesh.axesR, List.map_map, List.getElem_map, List.getElem_range, Function.comp]
    rw [List.getD_eq_getElem _ _ h2]

theorem elemAddr_axesR (R : Rounding K) {m : PMesh K} (r : ℕ) {c : List ℕ}
    (hc : c.length = m.nmesh.length) : elemAddr (m.axesR R r) c = m.addr r c := by
  rw [elemAddr_sum, PMesh.addr, zipWith_mul_getD]
  congr 1
  apply List.ext_getElem
  · simp [PMesh.axesR, hc]
  · intro j h1 h2
    simp only [List.length_map, List.length_range] at h2
    simp [PMesh.axesR, List.getElem?_eq_getElem h2]

end
end Pmesh
