import Verif.Lemmas.MeshRoute
import Mathlib.Data.List.Perm.Subperm

set_option linter.unusedSectionVars false

namespace Pmesh
section
variable {K : Type} [Field K] [LinearOrder K] [IsStrictOrderedRing K] [FloorRing K]

theorem sum_filter_of_zero {α : Type*} (l : List α) (p : α → Bool) (f : α → K) (h : ∀ a ∈ l, p a = false → f a = 0) :
    ((l.filter p).map f).sum = (l.map f).sum := by
  induction l with
  | nil => rfl
  | cons a l ih =>
    rw [List.filter_cons]
    have ih' := ih fun b hb => h b (by simp [hb])
    cases hp : p a with
    | true => simp [ih']
    | false => simp [ih', h a (by simp) hp]

/-- Slabs of one axis cover each cell once. -/
theorem sum_slabs {n : ℕ} {e : List ℕ} (h : SlabEdges n e) (F : ℕ → K) :
    ((List.range (e.length - 1)).map fun d =>
      ((List.range (e.getD (d + 1) 0 - e.getD d 0)).map fun c => F (e.getD d 0 + c)).sum).sum =
      ((List.range n).map F).sum := by
  have key : ∀ k < e.length, ((List.range k).map fun d =>
      ((List.range (e.getD (d + 1) 0 - e.getD d 0)).map fun c => F (e.getD d 0 + c)).sum).sum =
      ((List.range (e.getD k 0)).map F).sum := by
    intro k
    induction k with
    | zero => intro _; rw [h.first]; simp
    | succ k ih =>
      intro hk
      rw [List.range_succ, List.map_append, List.sum_append, ih (by omega)]
      have hle := h.mono (a := k) (b := k + 1) (by omega) hk
      obtain ⟨t, ht⟩ : ∃ t, e.getD (k + 1) 0 = e.getD k 0 + t := ⟨e.getD (k + 1) 0 - e.getD k 0, by omega⟩
      rw [ht, List.range_add, List.map_append, List.sum_append, List.map_map]
      simp only [List.map_cons, List.map_nil, List.sum_cons, List.sum_nil, add_zero, ht]
      rw [Nat.add_sub_cancel_left]
      rfl
  have := key (e.length - 1) (by have := h.two; omega)
  rw [this, h.last_getD]

theorem sum_ndindex_cons (n : ℕ) (ns : List ℕ) (F : List ℕ → K) :
    ((ndindex (n :: ns)).map F).sum =
      ((List.range n).map fun a => ((ndindex ns).map fun t => F (a :: t)).sum).sum := by
  rw [ndindex, sum_flatMap']
  congr 1
  apply List.map_congr_left
  intro a _
  rw [List.map_map]
  rfl

theorem sum_comm' {α β : Type*} (l : List α) (l' : List β) (f : α → β → K) :
    (l.map fun a => (l'.map fun b => f a b).sum).sum = (l'.map fun b => (l.map fun a => f a b).sum).sum := by
  induction l with
  | nil => simp
  | cons a l ih =>
    simp only [List.map_cons, List.sum_cons, ih]
    rw [← sum_map_add]

/-- Blocks of the mesh cover each cell once. -/
theorem sum_blocks {nmesh : List ℕ} {edges : List (List ℕ)} (h : List.Forall₂ SlabEdges nmesh edges) (F : List ℕ → K) :
    ((ndindex (edges.map fun e => e.length - 1)).map fun D =>
      ((ndindex (List.zipWith (fun (e : List ℕ) c => e.getD (c + 1) 0 - e.getD c 0) edges D)).map fun c =>
        F (List.zipWith (· + ·) (List.zipWith (fun (e : List ℕ) c => e.getD c 0) edges D) c)).sum).sum =
      ((ndindex nmesh).map F).sum := by
  induction h generalizing F with
  | nil => simp [ndindex]
  | @cons n e ns es h1 h2 ih =>
    rw [sum_ndindex_cons, List.map_cons, sum_ndindex_cons, ← sum_slabs h1]
    congr 1
    apply List.map_congr_left
    intro d _
    simp only [List.zipWith_cons_cons, sum_ndindex_cons]
    rw [sum_comm']
    congr 1
    apply List.map_congr_left
    intro c _
    exact ih fun t => F ((e.getD d 0 + c) :: t)

theorem PMesh.OK.nrank_pos {m : PMesh K} (hm : m.OK) : 0 < m.nrank := by
  rw [hm.ranks, PMesh.shape]
  have : ∀ e ∈ m.edges, 0 < e.length - 1 := by
    intro e he
    obtain ⟨j, hj, rfl⟩ := List.getElem_of_mem he
    have hs := hm.slab (j := j) (by rw [← hm.edges_len]; exact hj)
    rw [List.getD_eq_getElem m.edges _ hj] at hs
    have := hs.two
    omega
  revert this
  induction m.edges with
  | nil => simp
  | cons e es ih =>
    intro h
    rw [List.map_cons, List.prod_cons]
    exact Nat.mul_pos (h e (by simp)) (ih fun e he => h e (by simp [he]))

/-- Summing over the cells of all ranks is summing over the cells of the mesh. -/
theorem sum_ranks {m : PMesh K} (hm : m.OK) (F : List ℕ → K) :
    ((List.range m.nrank).map fun r => ((ndindex (m.localShape r)).map fun c => F (m.global r c)).sum).sum =
      ((ndindex m.nmesh).map F).sum := by
  rw [← sum_blocks hm.edges F]
  have hperm : ((List.range m.nrank).map m.coord).Perm (ndindex m.shape) := by
    apply List.Subperm.perm_of_length_le
    · apply List.subperm_of_subset
      · apply List.Nodup.map_on _ List.nodup_range
        intro a ha b hb h
        exact hm.coord_inj a (List.mem_range.1 ha) b (List.mem_range.1 hb) h
      · intro D hD
        obtain ⟨r, hr, rfl⟩ := List.mem_map.1 hD
        exact mem_ndindex.2 (hm.coord_valid r (List.mem_range.1 hr))
    · rw [ndindex_length, ← hm.ranks]; simp
  have := (hperm.map fun D => ((ndindex (List.zipWith (fun (e : List ℕ) c => e.getD (c + 1) 0 - e.getD c 0) m.edges D)).map
      fun c => F (List.zipWith (· + ·) (List.zipWith (fun (e : List ℕ) c => e.getD c 0) m.edges D) c)).sum).sum_eq
  rw [List.map_map] at this
  exact this

/-- The part of the received array that came from rank `q`. -/
theorem segment_flatMap {α : Type} {n : ℕ} {L : ℕ → Lay} (hL : LayOK n L) (f : ℕ → ℕ → α) {q r : ℕ} (hq : q < n)
    (hr : r < n) : (L r).segment q ((List.range n).flatMap fun q => ((L q).sentIdx r).map (f q)) =
      ((L q).sentIdx r).map (f q) := by
  unfold Lay.segment List.flatMap
  set B := (List.range n).map fun q => ((L q).sentIdx r).map (f q) with hB
  have hlen : q < B.length := by simp [hB, hq]
  have h1 : (L r).recvcounts = B.map List.length := by
    rw [hL.recvcounts r hr, hB, List.map_map]
    apply List.map_congr_left
    intro q hq
    simp only [Function.comp, List.length_map]
    rw [hL.sentIdx_length (List.mem_range.1 hq) hr]
  have h2 := drop_take_flatten B q hlen
  rw [h1, ← List.map_take, List.getD_eq_getElem _ _ (by simpa using hlen), List.getElem_map, h2]
  simp [hB]

theorem received_length {α : Type} {n : ℕ} {L : ℕ → Lay} (hL : LayOK n L) (f : ℕ → ℕ → α) {r : ℕ} (hr : r < n) :
    ((List.range n).flatMap fun q => ((L q).sentIdx r).map (f q)).length = (L r).recvlength := by
  rw [hL.recvlength r hr, hL.recvcounts r hr, List.length_flatMap]
  congr 1
  apply List.map_congr_left
  intro q hq
  rw [List.length_map, hL.sentIdx_length (List.mem_range.1 hq) hr]

theorem zip_self_map {α β : Type*} (l : List α) (f : α → β) : l.zip (l.map f) = l.map fun a => (a, f a) := by
  induction l with
  | nil => rfl
  | cons a l ih => simp [ih]

theorem sum_filter_eq_of_nodup (l : List ℕ) (hnd : l.Nodup) (f : ℕ → K) (i : ℕ) :
    ((l.filter fun j => j = i).map f).sum = if i ∈ l then f i else 0 := by
  induction l with
  | nil => simp
  | cons a l ih =>
    rw [List.nodup_cons] at hnd
    rw [List.filter_cons]
    by_cases h : a = i
    · subst h
      have := ih hnd.2
      rw [if_neg hnd.1] at this
      simp [this]
    · have := ih hnd.2
      simp [h, this, Ne.symm h]

/-- One entry of a sum-gather of a value computed for each ghost. -/
theorem gather_entry {n : ℕ} {L : ℕ → Lay} (hL : LayOK n L) (f : ℕ → ℕ → ℕ → K) {q : ℕ} (hq : q < n)
    (hnd : ∀ r < n, ((L q).sentIdx r).Nodup) (i : ℕ) :
    ((List.range n).map fun r => ((((L q).sentIdx r).zip ((L r).segment q
      ((List.range n).flatMap fun q => ((L q).sentIdx r).map (f r q)))).filter fun p => p.1 = i).map (·.2) |>.sum).sum =
    ((List.range n).map fun r => if i ∈ (L q).sentIdx r then f r q i else 0).sum := by
  congr 1
  apply List.map_congr_left
  intro r hr
  rw [segment_flatMap hL (f r) hq (List.mem_range.1 hr), zip_self_map, List.filter_map, List.map_map,
    ← sum_filter_eq_of_nodup _ (hnd r (List.mem_range.1 hr))]
  rfl

end
end Pmesh
