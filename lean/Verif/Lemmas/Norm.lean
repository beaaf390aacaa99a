import Verif.Lemmas.Field
import Mathlib.Algebra.Group.Prod
import Mathlib.Algebra.Field.Basic
import Mathlib.Data.Nat.Cast.Defs
import Mathlib.Algebra.CharZero.Defs
import Mathlib.Algebra.NeZero
import Mathlib.Tactic.Ring
import Mathlib.Tactic.LinearCombination

set_option linter.unusedSectionVars false

namespace Pmesh

theorem validIndex_concat {ns : List ℕ} {N : ℕ} {i : List ℕ} :
    ValidIndex (ns ++ [N]) i ↔ ∃ i' x, i = i' ++ [x] ∧ ValidIndex ns i' ∧ x < N := by
  unfold ValidIndex
  constructor
  · intro h
    induction ns generalizing i with
    | nil =>
      cases h with
      | cons h1 h2 => cases h2; exact ⟨[], _, rfl, .nil, h1⟩
    | cons n ns ih =>
      cases h with
      | cons h1 h2 =>
        obtain ⟨i', x, rfl, h3, h4⟩ := ih h2
        exact ⟨_ :: i', x, rfl, .cons h1 h3, h4⟩
  · rintro ⟨i', x, rfl, h1, h2⟩
    induction h1 with
    | nil => exact .cons h2 .nil
    | cons h _ ih => exact .cons h ih

theorem opposite_concat {ns i' : List ℕ} (N x : ℕ) (h : i'.length = ns.length) :
    opposite (ns ++ [N]) (i' ++ [x]) = opposite ns i' ++ [(N - x) % N] := by
  unfold opposite
  rw [List.zipWith_append h.symm]
  rfl

theorem getLastD_concat (l : List ℕ) (x d : ℕ) : (l ++ [x]).getLastD d = x := by
  induction l with
  | nil => rfl
  | cons a l ih => cases l <;> simp_all [List.getLastD]

section
variable {M : Type} [AddCommMonoid M]

theorem sum_add_map' {α : Type} (l : List α) (f g : α → M) : (l.map fun a => f a + g a).sum = (l.map f).sum + (l.map g).sum := by
  induction l with
  | nil => simp
  | cons a l ih => simp only [List.map_cons, List.sum_cons, ih]; exact add_add_add_comm _ _ _ _

theorem sum_filter_add {α : Type} (l : List α) (p : α → Bool) (f : α → M) :
    ((l.filter p).map f).sum + ((l.filter fun a => !p a).map f).sum = (l.map f).sum := by
  induction l with
  | nil => simp
  | cons a l ih =>
    cases h : p a
    · simp only [List.filter_cons, h, Bool.false_eq_true, if_false, Bool.not_false, if_true, List.map_cons, List.sum_cons]
      rw [← ih]; exact add_left_comm _ _ _
    · simp only [List.filter_cons, h, Bool.not_true, Bool.false_eq_true, if_false, if_true, List.map_cons, List.sum_cons]
      rw [← ih]; exact add_assoc _ _ _

theorem sum_ite_filter {α : Type} (l : List α) (p : α → Bool) (f : α → M) :
    (l.map fun a => if p a then f a else 0).sum = ((l.filter p).map f).sum := by
  induction l with
  | nil => simp
  | cons a l ih => cases h : p a <;> simp [List.filter_cons, h, ih]

/-- The stored half of a symmetric function on an even mesh, its inner part counted twice, adds up to the full sum. -/
theorem half_sum (ns : List ℕ) (N : ℕ) (hN : N % 2 = 0) (hpos : 0 < N) (F : List ℕ → M)
    (hF : ∀ i, ValidIndex (ns ++ [N]) i → F (opposite (ns ++ [N]) i) = F i) :
    ((ndindex (ns ++ [N / 2 + 1])).map fun i =>
      F i + if (decide (i.getLastD 0 ≠ 0) && decide (i.getLastD 0 ≠ N / 2)) then F i else 0).sum =
    ((ndindex (ns ++ [N])).map F).sum := by
  set P : List ℕ → Bool := fun i => decide (i.getLastD 0 ≤ N / 2) with hP
  set Q : List ℕ → Bool := fun i => decide (i.getLastD 0 ≠ 0) && decide (i.getLastD 0 ≠ N / 2) with hQ
  have h1 : List.Perm (ndindex (ns ++ [N / 2 + 1])) ((ndindex (ns ++ [N])).filter P) := by
    rw [List.perm_ext_iff_of_nodup (ndindex_nodup _) ((ndindex_nodup _).filter _)]
    intro i
    rw [List.mem_filter, mem_ndindex, mem_ndindex, validIndex_concat, validIndex_concat]
    constructor
    · rintro ⟨i', x, rfl, h2, h3⟩
      exact ⟨⟨i', x, rfl, h2, by omega⟩, by simp only [hP, getLastD_concat, decide_eq_true_eq]; omega⟩
    · rintro ⟨⟨i', x, rfl, h2, h3⟩, h4⟩
      simp only [hP, getLastD_concat, decide_eq_true_eq] at h4
      exact ⟨i', x, rfl, h2, by omega⟩
  have h2 : List.Perm (((ndindex (ns ++ [N])).filter fun i => !P i).map (opposite (ns ++ [N])))
      ((ndindex (ns ++ [N / 2 + 1])).filter Q) := by
    rw [List.perm_ext_iff_of_nodup ?_ ((ndindex_nodup _).filter _)]
    · intro i
      rw [List.mem_map, List.mem_filter, mem_ndindex, validIndex_concat]
      constructor
      · rintro ⟨j, hj, rfl⟩
        rw [List.mem_filter, mem_ndindex, validIndex_concat] at hj
        obtain ⟨⟨j', x, rfl, h3, h4⟩, h5⟩ := hj
        simp only [hP, getLastD_concat, Bool.not_eq_true', decide_eq_false_iff_not, not_le] at h5
        rw [opposite_concat _ _ h3.len]
        have hm : (N - x) % N = N - x := Nat.mod_eq_of_lt (by omega)
        refine ⟨⟨_, _, rfl, opposite_valid h3, by omega⟩, ?_⟩
        simp only [hQ, getLastD_concat, Bool.and_eq_true, decide_eq_true_eq]
        omega
      · rintro ⟨⟨j', x, rfl, h3, h4⟩, h5⟩
        simp only [hQ, getLastD_concat, Bool.and_eq_true, decide_eq_true_eq] at h5
        have hv : ValidIndex (ns ++ [N]) (j' ++ [x]) := validIndex_concat.2 ⟨_, _, rfl, h3, by omega⟩
        refine ⟨opposite (ns ++ [N]) (j' ++ [x]), ?_, opposite_opposite hv⟩
        rw [List.mem_filter, mem_ndindex]
        refine ⟨opposite_valid hv, ?_⟩
        rw [opposite_concat _ _ h3.len]
        have hm : (N - x) % N = N - x := Nat.mod_eq_of_lt (by omega)
        simp only [hP, getLastD_concat, Bool.not_eq_true', decide_eq_false_iff_not, not_le]
        omega
    · refine List.Nodup.map_on ?_ ((ndindex_nodup _).filter _)
      intro a ha b hb hab
      have ha' := mem_ndindex.1 (List.mem_filter.1 ha).1
      have hb' := mem_ndindex.1 (List.mem_filter.1 hb).1
      rw [← opposite_opposite ha', hab, opposite_opposite hb']
  rw [sum_add_map', sum_ite_filter, ← (h2.map F).sum_eq, (h1.map F).sum_eq, List.map_map,
    ← sum_filter_add (ndindex (ns ++ [N])) P]
  congr 2
  apply List.map_congr_left
  intro i hi
  exact hF i (mem_ndindex.1 (List.mem_filter.1 hi).1)

end

section
variable {K : Type} [Field K]

theorem wrapIndex_opposite {n j : ℕ} (hn : n % 2 = 0) (hj : j < n) :
    wrapIndex n (((n - j) % n : ℕ) : ℤ) = -wrapIndex n j ∨ wrapIndex n (((n - j) % n : ℕ) : ℤ) = wrapIndex n j := by
  by_cases h0 : j = 0
  · subst h0
    right
    simp
  · rw [Nat.mod_eq_of_lt (by omega)]
    unfold wrapIndex
    by_cases h1 : j = n / 2
    · right
      subst h1
      rw [if_pos (by omega), if_pos (by omega)]
      omega
    · left
      by_cases h2 : j < n / 2
      · rw [if_pos (by omega), if_neg (by omega)]
        omega
      · rw [if_neg (by omega), if_pos (by omega)]
        omega

theorem kSquared_opposite (pi : K) {nmesh : List ℕ} (heven : ∀ n ∈ nmesh, n % 2 = 0) (box : List K) {i : List ℕ}
    (hi : ValidIndex nmesh i) : kSquared pi nmesh box (opposite nmesh i) = kSquared pi nmesh box i := by
  unfold kSquared opposite
  induction hi generalizing box with
  | nil => rfl
  | @cons n j ns js h _ ih =>
    cases box with
    | nil => rfl
    | cons b box =>
      simp only [List.zipWith_cons_cons, List.zip_cons_cons, List.sum_cons]
      rw [ih (fun n hn => heven n (by simp [hn]))]
      congr 1
      rcases wrapIndex_opposite (heven n (by simp)) h with e | e
      · rw [e]; push_cast; ring
      · rw [e]

theorem storage_cases {t : Tiling} (ht : t.OK) (hst : t.Storage) (hne : t.nmesh ≠ []) :
    (t.cshape = t.nmesh ∧ t.compressed = some false) ∨
    (∃ ns N, t.nmesh = ns ++ [N] ∧ t.cshape = ns ++ [N / 2 + 1] ∧ 0 < N ∧ (t.cshape ≠ t.nmesh → t.compressed = some true)) := by
  rcases hst with h | h
  · exact Or.inl ⟨h, by simp [Tiling.compressed, h]⟩
  · right
    obtain ⟨ns, N, e⟩ := (List.eq_nil_or_concat t.nmesh).resolve_left hne
    rw [List.concat_eq_append] at e
    rw [e, getLastD_concat, List.dropLast_concat] at h
    refine ⟨ns, N, e, h, ht.mesh_pos N (by rw [e]; simp), fun hc => ?_⟩
    unfold Tiling.compressed
    rw [e, h, getLastD_concat, getLastD_concat, if_neg, if_pos rfl]
    intro h2
    apply hc
    rw [h, e, ← h2]

/-- The sum over the stored modes with the weights of `_expand_hermitian`. -/
theorem expanded_sum {t : Tiling} (ht : t.OK) (hst : t.Storage) (hne : t.nmesh ≠ [])
    (heven : t.cshape ≠ t.nmesh → t.nmesh.getLastD 0 % 2 = 0) (F : List ℕ → K)
    (hF : ∀ i, ValidIndex t.nmesh i → F (opposite t.nmesh i) = F i) :
    ∃ comp, t.compressed = some comp ∧
      ((ndindex t.cshape).map fun i => (expandHermitian (K := K) t comp i (F i, 0)).1).sum = ((ndindex t.nmesh).map F).sum := by
  rcases storage_cases ht hst hne with ⟨h1, h2⟩ | ⟨ns, N, h1, h2, hpos, h3⟩
  · exact ⟨false, h2, by simp [expandHermitian, h1]⟩
  · by_cases hc : t.cshape = t.nmesh
    · exact ⟨false, by simp [Tiling.compressed, hc], by simp [expandHermitian, hc]⟩
    · refine ⟨true, h3 hc, ?_⟩
      have hev := heven hc
      rw [h1, getLastD_concat] at hev
      rw [h1] at hF
      rw [h1, h2, ← half_sum ns N hev hpos F hF]
      congr 1
      apply List.map_congr_left
      intro i _
      unfold expandHermitian
      rw [h1, getLastD_concat]
      simp only [if_true]
      split_ifs <;> simp

theorem expandHermitian_fst (t : Tiling) (comp : Bool) (i : List ℕ) (z : Cx K) :
    (expandHermitian t comp i z).1 = (expandHermitian t comp i ((z.1, 0) : Cx K)).1 := by
  unfold expandHermitian
  dsimp only
  split_ifs <;> simp

theorem expandHermitian_smul (t : Tiling) (comp : Bool) (i : List ℕ) (a c : K) :
    (expandHermitian t comp i ((a, 0) : Cx K)).1 * c = (expandHermitian t comp i ((a * c, 0) : Cx K)).1 := by
  unfold expandHermitian
  dsimp only
  split_ifs <;> simp [add_mul]

theorem expandHermitian_snd (t : Tiling) (comp : Bool) (i : List ℕ) (a : K) :
    (expandHermitian t comp i ((a, 0) : Cx K)).2 = 0 := by
  unfold expandHermitian
  dsimp only
  split_ifs <;> simp

theorem list_sum_fst {α : Type} (l : List α) (f : α → Cx K) : (l.map f).sum.1 = (l.map fun a => (f a).1).sum := by
  induction l with
  | nil => rfl
  | cons a l ih => simp [ih]

theorem list_sum_snd {α : Type} (l : List α) (f : α → Cx K) : (l.map f).sum.2 = (l.map fun a => (f a).2).sum := by
  induction l with
  | nil => rfl
  | cons a l ih => simp [ih]

/-- A function that changes its sign on opposite modes adds up to 0. -/
theorem odd_sum [CharZero K] (nmesh : List ℕ) (F : List ℕ → K)
    (hF : ∀ i, ValidIndex nmesh i → F (opposite nmesh i) = -F i) : ((ndindex nmesh).map F).sum = 0 := by
  have hp : List.Perm ((ndindex nmesh).map (opposite nmesh)) (ndindex nmesh) := by
    rw [List.perm_ext_iff_of_nodup ?_ (ndindex_nodup _)]
    · intro i
      rw [List.mem_map, mem_ndindex]
      constructor
      · rintro ⟨j, hj, rfl⟩
        exact opposite_valid (mem_ndindex.1 hj)
      · intro h
        exact ⟨_, mem_ndindex.2 (opposite_valid h), opposite_opposite h⟩
    · refine List.Nodup.map_on ?_ (ndindex_nodup _)
      intro a ha b hb hab
      rw [← opposite_opposite (mem_ndindex.1 ha), hab, opposite_opposite (mem_ndindex.1 hb)]
  have h1 := (hp.map F).sum_eq
  rw [List.map_map] at h1
  have h2 : ((ndindex nmesh).map (F ∘ opposite nmesh)).sum = -((ndindex nmesh).map F).sum := by
    rw [List.sum_neg]
    congr 1
    rw [List.map_map]
    apply List.map_congr_left
    intro i hi
    exact hF i (mem_ndindex.1 hi)
  rw [h2] at h1
  have : (2 : K) * ((ndindex nmesh).map F).sum = 0 := by linear_combination -h1
  exact (mul_eq_zero.1 this).resolve_left (by exact_mod_cast (Nat.cast_ne_zero (R := K)).2 (two_ne_zero (α := ℕ)))

end
end Pmesh
