import Verif.Lemmas.Gather
import Verif.Lemmas.Load
import Verif.Lemmas.Balance
import Mathlib.Data.List.Perm.Basic
import Mathlib.Data.List.Sort

set_option linter.unusedSectionVars false

/-! Lemmas about `ufunc.reduceat` on the sorted buffer -/

namespace Pmesh

theorem bincount_eq_count (x : List ℕ) (n : ℕ) :
    bincount x n = (List.range n).map fun i => x.count i := by
  apply List.ext_getElem
  · simp [bincount_length]
  · intro i a b
    have hi : i < n := by simpa using b
    rw [← List.getD_eq_getElem _ 0 a, bincount_getD x hi]
    simp

theorem sorted_eq_runs (idx S : List ℕ) (n : ℕ) (h : ∀ i ∈ idx, i < n) (hp : S.Perm idx)
    (hs : S.Pairwise (· ≤ ·)) : S = (List.range n).flatMap fun i => List.replicate (idx.count i) i := by
  have hs2 : ((List.range n).flatMap fun i => List.replicate (idx.count i) i).Pairwise (· ≤ ·) := by
    rw [List.pairwise_flatMap]
    refine ⟨fun i _ => by simp [List.pairwise_replicate], ?_⟩
    refine List.Pairwise.imp ?_ List.pairwise_lt_range
    intro a b hab x hx y hy
    have := List.eq_of_mem_replicate hx
    have := List.eq_of_mem_replicate hy
    omega
  have hp2 : ((List.range n).flatMap fun i => List.replicate (idx.count i) i).Perm idx := by
    rw [List.perm_iff_count]
    intro a
    rw [List.count_flatMap]
    by_cases ha : a < n
    · have : ((List.range n).map ((List.count a) ∘ fun i => List.replicate (idx.count i) i)) =
          (List.range n).map fun i => if a = i then idx.count a else 0 := by
        apply List.map_congr_left
        intro i _
        simp only [Function.comp, List.count_replicate]
        by_cases e : i = a
        · simp [e]
        · have e' : ¬ a = i := fun h => e h.symm
          simp [e, e']
      rw [this, sum_ite_range n a (idx.count a) ha]
    · have h0 : idx.count a = 0 := List.count_eq_zero.2 fun hm => ha (h a hm)
      rw [h0]
      apply List.sum_eq_zero
      intro x hx
      obtain ⟨i, hi, rfl⟩ := List.mem_map.1 hx
      have : i ≠ a := by have := List.mem_range.1 hi; omega
      simp [List.count_replicate, this]
  exact (hp.trans hp2.symm).eq_of_pairwise (fun a b _ _ h1 h2 => Nat.le_antisymm h1 h2) hs hs2

/-- The pairs (start, end) that `reduceat` uses. -/
theorem offsets_pairs (C : List ℕ) (hC : C ≠ []) :
    (offsetsOf C).zip ((offsetsOf C).drop 1 ++ [C.sum]) =
      (List.range C.length).map fun i => ((C.take i).sum, (C.take (i + 1)).sum) := by
  have hl : (offsetsOf C).length = C.length := by
    unfold offsetsOf
    rcases C with _ | ⟨a, C⟩
    · simp at hC
    · simp [cumsum, cumsumFrom_length]
  have hpos : 0 < C.length := List.length_pos_iff.2 hC
  have hget : ∀ i (h : i < (offsetsOf C).length), (offsetsOf C)[i] = (C.take i).sum := by
    intro i h
    rw [← List.getD_eq_getElem _ 0 h, offsetsOf_getD C (by omega)]
  apply List.ext_getElem
  · simp [hl]; omega
  · intro i a b
    have hi : i < C.length := by simpa using b
    simp only [List.getElem_zip, List.getElem_map, List.getElem_range, hget]
    congr 1
    by_cases h : i + 1 < C.length
    · rw [List.getElem_append_left (by simp [hl]; omega), List.getElem_drop, hget]
      congr 2; omega
    · rw [List.getElem_append_right (by simp [hl]; omega), List.take_of_length_le (by omega)]
      simp

section
variable {K : Type}

theorem foldl_replicate_idem (g : K → K → K) (x : K) (h : g x x = x) (m : ℕ) :
    (List.replicate m x).foldl g x = x := by
  induction m with
  | zero => rfl
  | succ m ih => rw [List.replicate_succ, List.foldl_cons, h, ih]

theorem reduceat_runs (g : K → K → K) (f : ℕ → K) (hg : ∀ x, g x x = x) (cnt : ℕ → ℕ) (n : ℕ) (hn : 0 < n) :
    let buf := (List.range n).flatMap fun i => List.replicate (cnt i) (f i)
    (0 < cnt (n - 1) → ∃ out, reduceat g buf (offsetsOf ((List.range n).map cnt)) = some out ∧
      out.length = n ∧ ∀ i < n, 0 < cnt i → out[i]? = some (f i)) ∧
    (cnt (n - 1) = 0 → reduceat g buf (offsetsOf ((List.range n).map cnt)) = none) := by
  intro buf
  set C := (List.range n).map cnt with hC
  have hCl : C.length = n := by simp [hC]
  have hCne : C ≠ [] := by intro h; rw [h] at hCl; simp at hCl; omega
  set B := (List.range n).map fun i => List.replicate (cnt i) (f i) with hB
  have hbuf : buf = B.flatten := rfl
  have hBC : C = B.map List.length := by
    rw [hC, hB, List.map_map]; apply List.map_congr_left; intro i _; simp
  have hlen : buf.length = C.sum := by rw [hbuf, List.length_flatten, hBC]
  have hseg : ∀ i < n, (buf.drop (C.take i).sum).take ((C.take (i+1)).sum - (C.take i).sum) =
      List.replicate (cnt i) (f i) := by
    intro i hi
    have h2 := drop_take_flatten B i (by simp [hB, hi])
    have h3 : (C.take (i+1)).sum = (C.take i).sum + cnt i := by
      rw [List.take_succ_eq_append_getElem (by omega), List.sum_append]
      simp [hC]
    rw [h3, Nat.add_sub_cancel_left, hbuf, hBC, ← List.map_take]
    have h4 : (B[i]'(by simp [hB, hi])) = List.replicate (cnt i) (f i) := by simp [hB]
    rw [h4, List.length_replicate] at h2
    exact h2
  have hred : reduceat g buf (offsetsOf C) = (List.range n).mapM fun i =>
      match List.replicate (cnt i) (f i) with
      | x :: xs => some (xs.foldl g x)
      | [] => buf[(C.take i).sum]? := by
    unfold reduceat
    rw [hlen, offsets_pairs C hCne, hCl]
    have : ∀ l : List ℕ, (∀ i ∈ l, i < n) →
        (l.map fun i => ((C.take i).sum, (C.take (i + 1)).sum)).mapM (fun ab =>
          match (buf.drop ab.1).take (ab.2 - ab.1) with
          | x :: xs => some (xs.foldl g x)
          | [] => buf[ab.1]?) = l.mapM fun i =>
            match List.replicate (cnt i) (f i) with
            | x :: xs => some (xs.foldl g x)
            | [] => buf[(C.take i).sum]? := by
      intro l
      induction l with
      | nil => intro _; rfl
      | cons a l ih =>
        intro h
        rw [List.map_cons, List.mapM_cons, List.mapM_cons, ih fun i hi => h i (by simp [hi])]
        simp only [hseg a (h a (by simp))]
    exact this _ fun i hi => List.mem_range.1 hi
  rw [hred]
  constructor
  · intro hlast
    have hsum : ∀ i < n, (C.take i).sum < buf.length := by
      intro i hi
      rw [hlen]
      have h1 : (C.take i).sum + (C.drop i).sum = C.sum := by
        rw [← List.sum_append, List.take_append_drop]
      have h2 : cnt (n - 1) ≤ (C.drop i).sum := by
        apply List.single_le_sum (by simp)
        have : C[n-1]'(by omega) = cnt (n-1) := by simp [hC]
        rw [← this]
        rw [List.mem_iff_getElem]
        refine ⟨n - 1 - i, by rw [List.length_drop]; omega, ?_⟩
        rw [List.getElem_drop]
        congr 1; omega
      omega
    let o : ℕ → K := fun i => if 0 < cnt i then f i else buf.getD (C.take i).sum (f 0)
    refine ⟨(List.range n).map o, ?_, by simp, ?_⟩
    · apply mapM_option_some
      intro i hi
      have hi' := List.mem_range.1 hi
      rcases h : cnt i with _ | m
      · simp only [o, h, List.replicate_zero]
        rw [List.getElem?_eq_getElem (hsum i hi'), List.getD_eq_getElem _ _ (hsum i hi')]
        simp
      · simp only [List.replicate_succ, o, h]
        rw [foldl_replicate_idem g (f i) (hg _)]
        simp
    · intro i hi hc
      simp [hi, o, hc]
  · intro hlast
    obtain ⟨m, rfl⟩ : ∃ m, n = m + 1 := ⟨n - 1, by omega⟩
    rw [List.range_succ, List.mapM_append]
    have hm : buf[(C.take m).sum]? = none := by
      rw [List.getElem?_eq_none_iff, hlen]
      have h1 : (C.take m).sum + (C.drop m).sum = C.sum := by
        rw [← List.sum_append, List.take_append_drop]
      rw [List.drop_eq_getElem_cons (by omega), List.drop_of_length_le (by omega)] at h1
      have : C[m]'(by omega) = 0 := by simp [hC]; simpa using hlast
      rw [this] at h1
      simp at h1
      omega
    have h0 : cnt m = 0 := by simpa using hlast
    simp only [List.mapM_cons, h0, List.replicate_zero, hm]
    cases List.mapM (m := Option) _ (List.range m) <;> rfl

end
end Pmesh
