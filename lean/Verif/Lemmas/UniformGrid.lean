import Verif.Model.UniformGrid
import Verif.Lemmas.MeshSum
import Verif.Lemmas.Ravel

set_option linter.unusedSectionVars false

namespace Pmesh

theorem foldl_range_zip : ∀ (ns is : List ℕ), is.length = ns.length → ∀ acc : ℕ,
    (List.range ns.length).foldl (fun id d => id * ns.getD d 0 + is.getD d 0) acc =
      (ns.zip is).foldl (fun acc p => acc * p.1 + p.2) acc
  | [], [], _, acc => by simp
  | n :: ns, i :: is, h, acc => by
    rw [List.length_cons, List.range_succ_eq_map, List.foldl_cons, List.foldl_map, List.zip_cons_cons, List.foldl_cons,
      ← foldl_range_zip ns is (by simpa using h)]
    simp
  | [], _ :: _, h, _ => by simp at h
  | _ :: _, [], h, _ => by simp at h

theorem gridId_eq {nmesh i : List ℕ} (h : i.length = nmesh.length) : gridId nmesh i = cOrder nmesh i := by
  match nmesh, i, h with
  | [], [], _ => simp [gridId, cOrder]
  | n :: ns, a :: is, h =>
    unfold gridId
    have h' : is.length = ns.length := by simpa using h
    rw [List.length_cons, Nat.add_sub_cancel, List.range'_eq_map_range, List.foldl_map]
    have := foldl_range_zip ns is h' a
    simp only [Nat.add_comm 1, List.getD_cons_succ, List.getD_cons_zero]
    rw [this, ravelMulti_aux _ _ h', cOrder]

section
variable {K : Type} [Field K] [LinearOrder K] [IsStrictOrderedRing K] [FloorRing K]

theorem count_map_eq_sum {α : Type*} (l : List α) (f : α → List ℕ) (g : List ℕ) :
    (((l.map f).count g : ℕ) : K) = (l.map fun a => if f a = g then (1 : K) else 0).sum := by
  induction l with
  | nil => simp
  | cons a l ih =>
    rw [List.map_cons, List.map_cons, List.sum_cons, ← ih, List.count_cons]
    by_cases h : f a = g <;> simp [h, add_comm]

/-- The cells of all ranks are the cells of the mesh, each once. -/
theorem ranks_perm {m : PMesh K} (hm : m.OK) :
    List.Perm ((List.range m.nrank).flatMap fun r => (ndindex (m.localShape r)).map (m.global r)) (ndindex m.nmesh) := by
  rw [List.perm_iff_count]
  intro g
  have h := sum_ranks hm fun x => if x = g then (1 : K) else 0
  have e1 : ((ndindex m.nmesh).map fun x => if x = g then (1 : K) else 0).sum = ((ndindex m.nmesh).count g : ℕ) := by
    have := count_map_eq_sum (K := K) (ndindex m.nmesh) id g
    rw [List.map_id] at this
    rw [this]
    rfl
  have e2 : ((List.range m.nrank).map fun r => ((ndindex (m.localShape r)).map fun c => if m.global r c = g then (1 : K) else 0).sum).sum =
      (((List.range m.nrank).flatMap fun r => (ndindex (m.localShape r)).map (m.global r)).count g : ℕ) := by
    rw [List.count_flatMap]
    induction List.range m.nrank with
    | nil => simp
    | cons r rs ih =>
      rw [List.map_cons, List.sum_cons, ih, List.map_cons, List.sum_cons, Nat.cast_add, ← count_map_eq_sum]
      rfl
  rw [e1, e2] at h
  exact_mod_cast h

theorem meshCoordinates_eq (m : PMesh K) (r : ℕ) : m.meshCoordinates r = (ndindex (m.localShape r)).map (m.global r) := by
  unfold PMesh.meshCoordinates PMesh.global
  apply List.map_congr_left
  intro c _
  apply List.zipWith_comm_of_comm
  intro x y
  exact Nat.add_comm x y

/-- For a given mesh the addresses can be compared one by one. -/
theorem distinct_of_decide {m : PMesh K} {r : ℕ}
    (h : ∀ c ∈ ndindex (m.localShape r), ∀ c' ∈ ndindex (m.localShape r), m.addr r c = m.addr r c' → c = c') : m.Distinct r :=
  fun c c' hc hc' e => h c (mem_ndindex.2 hc) c' (mem_ndindex.2 hc') e

end
end Pmesh
