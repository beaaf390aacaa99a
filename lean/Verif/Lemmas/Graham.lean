import Verif.Lemmas.Balance
import Mathlib.Tactic.Ring
import Mathlib.Algebra.Order.Ring.Defs

/-!
# Graham's bound for the longest-processing-time rule
-/

set_option linter.unusedSectionVars false

namespace Pmesh

/-- Sorting the members of a list into ranks keeps the sum. -/
theorem sum_by_key {α N : Type*} [AddCommMonoid N] (n : ℕ) (L : List α) (key : α → Option ℕ) (f : α → N)
    (h : ∀ x ∈ L, ∃ r < n, key x = some r) :
    ((List.range n).map fun r => ((L.filter fun x => key x = some r).map f).sum).sum = (L.map f).sum := by
  induction L with
  | nil => simp
  | cons a L ih =>
    obtain ⟨k, hk, e⟩ := h a (by simp)
    have h1 : ∀ r, (((a :: L).filter fun x => key x = some r).map f).sum =
        (if k = r then f a else 0) + ((L.filter fun x => key x = some r).map f).sum := by
      intro r
      rw [List.filter_cons, e]
      by_cases hr : k = r
      · simp [hr]
      · simp [hr]
    simp only [h1]
    rw [List.sum_map_add, sum_ite_range n k (f a) hk, ih fun x hx => h x (by simp [hx]), List.map_cons, List.sum_cons]

section
variable {M : Type*} [CommRing M] [LinearOrder M] [IsStrictOrderedRing M]

/-- The weight of a load in the proof: 2 for a load that cannot share a rank with another. -/
def gWt (T d x : M) : ℕ := if T < x + d then 2 else 1

theorem gWt_pos (T d x : M) : 1 ≤ gWt T d x := by unfold gWt; split <;> omega

theorem gWt_le (T d x : M) : gWt T d x ≤ 2 := by unfold gWt; split <;> omega

theorem gWt_ge {T d pl : M} (L : List (M × ℕ)) (hpl : T < pl + d) (hd : d ≤ T) (h : pl ≤ (L.map (·.1)).sum) :
    2 ≤ (L.map fun x => gWt T d x.1).sum := by
  rcases L with _ | ⟨x, _ | ⟨y, L⟩⟩
  · simp at h
    linarith
  · simp at h
    have : T < x.1 + d := by linarith
    simp [gWt, this]
  · have h1 := gWt_pos T d x.1
    have h2 := gWt_pos T d y.1
    simp only [List.map_cons, List.sum_cons]
    omega

theorem gWt_sum_le {T d : M} (L : List (M × ℕ)) (hT : T < 3 * d) (h0 : 0 ≤ d) (hL : ∀ x ∈ L, d ≤ x.1)
    (h : (L.map (·.1)).sum ≤ T) : (L.map fun x => gWt T d x.1).sum ≤ 2 := by
  rcases L with _ | ⟨x, _ | ⟨y, _ | ⟨z, L⟩⟩⟩
  · simp
  · simpa using gWt_le T d x.1
  · simp only [List.map_cons, List.sum_cons, List.map_nil, List.sum_nil, add_zero] at h ⊢
    have hx := hL x (by simp)
    have hy := hL y (by simp)
    have h1 : ¬ T < x.1 + d := by linarith
    have h2 : ¬ T < y.1 + d := by linarith
    simp [gWt, h1, h2]
  · exfalso
    simp only [List.map_cons, List.sum_cons] at h
    have hx := hL x (by simp)
    have hy := hL y (by simp)
    have hz := hL z (by simp)
    have : 0 ≤ (L.map (·.1)).sum := by
      apply List.sum_nonneg
      intro a ha
      obtain ⟨p, hp, rfl⟩ := List.mem_map.1 ha
      exact le_trans h0 (hL p (by simp [hp]))
    linarith

theorem nsmul_le_sum_range {N : Type*} [CommRing N] [LinearOrder N] [IsStrictOrderedRing N] (n : ℕ) (f : ℕ → N) (c : N)
    (h : ∀ r < n, c ≤ f r) : (n : N) * c ≤ ((List.range n).map f).sum := by
  induction n with
  | zero => simp
  | succ n ih =>
    rw [List.range_succ, List.map_append, List.sum_append]
    have := ih fun r hr => h r (by omega)
    have := h n (by omega)
    push_cast
    simp
    linarith

theorem sum_range_le {N : Type*} [CommRing N] [LinearOrder N] [IsStrictOrderedRing N] (n : ℕ) (f : ℕ → N) (c : N)
    (h : ∀ r < n, f r ≤ c) : ((List.range n).map f).sum ≤ (n : N) * c := by
  have := nsmul_le_sum_range n (fun r => - f r) (-c) fun r hr => neg_le_neg (h r hr)
  have e : ((List.range n).map fun r => - f r).sum = - ((List.range n).map f).sum := by
    generalize List.range n = l
    induction l with
    | nil => simp
    | cons a l ih => simp only [List.map_cons, List.sum_cons, ih]; ring
  rw [e] at this
  linarith

/-- The step of the bound: a load `d`, no larger than those placed before, is put on the lightest rank. -/
theorem graham_step {n : ℕ} (hn : 0 < n) (P : List (M × ℕ)) (key alt : M × ℕ → Option ℕ) (d : M × ℕ) (pl T : M)
    (hkey : ∀ p ∈ P, ∃ r < n, key p = some r) (halt : ∀ p ∈ P ++ [d], ∃ r < n, alt p = some r)
    (hmin : ∀ r < n, pl ≤ ((P.filter fun p => key p = some r).map (·.1)).sum)
    (hsort : ∀ p ∈ P, d.1 ≤ p.1) (h0 : 0 ≤ d.1)
    (hT : ∀ r < n, (((P ++ [d]).filter fun p => alt p = some r).map (·.1)).sum ≤ T) :
    3 * (n : M) * (pl + d.1) ≤ (4 * (n : M) - 1) * T := by
  have hn1 : (1 : M) ≤ n := by exact_mod_cast hn
  have hall : ∀ p ∈ P ++ [d], d.1 ≤ p.1 := by
    intro p hp
    rcases List.mem_append.1 hp with hp | hp
    · exact hsort p hp
    · simp only [List.mem_singleton] at hp; rw [hp]
  have hdT : d.1 ≤ T := by
    obtain ⟨r, hr, e⟩ := halt d (by simp)
    refine le_trans ?_ (hT r hr)
    apply List.single_le_sum
    · intro a ha
      obtain ⟨p, hp, rfl⟩ := List.mem_map.1 ha
      exact le_trans h0 (hall p (List.mem_of_mem_filter hp))
    · exact List.mem_map.2 ⟨d, List.mem_filter.2 ⟨by simp, by simp [e]⟩, rfl⟩
  have hs1 := nsmul_le_sum_range n _ pl hmin
  rw [sum_by_key n P key (·.1) hkey] at hs1
  have hs2 := sum_range_le n _ T hT
  rw [sum_by_key n (P ++ [d]) alt (·.1) halt, List.map_append, List.sum_append] at hs2
  simp only [List.map_cons, List.map_nil, List.sum_cons, List.sum_nil, add_zero] at hs2
  rcases le_or_gt (3 * d.1) T with h3 | h3
  · have : ((n : M) - 1) * (3 * d.1) ≤ ((n : M) - 1) * T := mul_le_mul_of_nonneg_left h3 (by linarith)
    nlinarith
  · have hclaim : pl + d.1 ≤ T := by
      by_contra hc
      rw [not_le] at hc
      have w1 : ∀ r < n, (2 : ℤ) ≤ ((((P.filter fun p => key p = some r).map fun x => gWt T d.1 x.1).sum : ℕ) : ℤ) := by
        intro r hr
        exact_mod_cast gWt_ge _ hc hdT (hmin r hr)
      have w2 : ∀ r < n, (((((P ++ [d]).filter fun p => alt p = some r).map fun x => gWt T d.1 x.1).sum : ℕ) : ℤ) ≤ 2 := by
        intro r hr
        exact_mod_cast gWt_sum_le _ h3 h0 (fun x hx => hall x (List.mem_of_mem_filter hx)) (hT r hr)
      have cast : ∀ f : ℕ → ℕ, ((List.range n).map fun r => ((f r : ℕ) : ℤ)).sum = (((List.range n).map f).sum : ℕ) := by
        intro f
        generalize List.range n = l
        induction l with
        | nil => simp
        | cons a l ih => simp [ih]
      have s1 := nsmul_le_sum_range n _ 2 w1
      rw [cast, sum_by_key n P key _ hkey] at s1
      have s2 := sum_range_le n _ 2 w2
      rw [cast, sum_by_key n (P ++ [d]) alt _ halt, List.map_append, List.sum_append] at s2
      simp only [List.map_cons, List.map_nil, List.sum_cons, List.sum_nil, add_zero] at s2
      have := gWt_pos T d.1 d.1
      push_cast at s1 s2
      omega
    have hT0 : 0 ≤ T := le_trans h0 hdT
    have h1 : 3 * (n : M) * (pl + d.1) ≤ 3 * (n : M) * T := mul_le_mul_of_nonneg_left hclaim (by linarith)
    have h2 : 0 ≤ ((n : M) - 1) * T := mul_nonneg (by linarith) hT0
    nlinarith

/-- The bound holds during the loop for the loads placed so far, against every other assignment `alt` of them. -/
def GrahamInv (n : ℕ) (P : List (M × ℕ)) (A : List ℕ) : Prop :=
  ∀ (alt : M × ℕ → Option ℕ) (T : M), 0 ≤ T → (∀ p ∈ P, ∃ r < n, alt p = some r) →
    (∀ r < n, ((P.filter fun p => alt p = some r).map (·.1)).sum ≤ T) →
    ∀ r < n, 3 * (n : M) * partLoad P A r ≤ (4 * (n : M) - 1) * T

theorem grahamInv_step {n : ℕ} {P : List (M × ℕ)} {A : List ℕ} {H : List (M × ℕ)} {d : M × ℕ}
    (hn : 0 < n) (hI : BalInv n P A H) (hG : GrahamInv n P A) (hd : d.2 < A.length) (hnew : ∀ p ∈ P, p.2 ≠ d.2)
    (hsort : ∀ p ∈ P, d.1 ≤ p.1) (h0 : 0 ≤ d.1) {A' : List ℕ} {H' : List (M × ℕ)}
    (hs : balanceStep (A, H) d = (A', H')) : GrahamInv n (P ++ [d]) A' := by
  have hHne : H ≠ [] := by
    rintro rfl
    have := hI.ranks.length_eq
    simp at this; omega
  obtain ⟨⟨pl, rank⟩, rest, h1, h2, h3⟩ := heapPop_spec H hHne
  have hmem : (pl, rank) ∈ H := h2.mem_iff.2 (by simp)
  have hpl : pl = partLoad P A rank := hI.loads _ hmem
  have hmin : ∀ r' < n, pl ≤ partLoad P A r' := by
    intro r' hr'
    have := hI.ranks.mem_iff.2 (List.mem_range.2 hr')
    obtain ⟨a, ha, rfl⟩ := List.mem_map.1 this
    rw [← hI.loads a ha]; exact h3 a ha
  have hA : A' = A.set d.2 rank := by
    simp [balanceStep, h1] at hs
    exact hs.1.symm
  subst hA
  intro alt T hT0 halt hT r hr
  rw [partLoad_step hd hnew]
  split
  · rename_i e
    subst e
    rw [← hpl]
    exact graham_step hn P (fun p => A[p.2]?) alt d pl T hI.valid halt hmin hsort h0 hT
  · rw [add_zero]
    refine hG alt T hT0 (fun p hp => halt p (by simp [hp])) (fun r hr => le_trans ?_ (hT r hr)) r hr
    rw [List.filter_append, List.map_append, List.sum_append]
    refine le_add_of_nonneg_right (List.sum_nonneg ?_)
    intro x hx
    obtain ⟨p, hp, rfl⟩ := List.mem_map.1 hx
    have := List.mem_of_mem_filter hp
    simp only [List.mem_singleton] at this
    rw [this]; exact h0

theorem grahamInv_fold {n : ℕ} (hn : 0 < n) (todo : List (M × ℕ)) {P : List (M × ℕ)} {A : List ℕ}
    {H : List (M × ℕ)} (hI : BalInv n P A H) (hG : GrahamInv n P A) (hlt : ∀ d ∈ todo, d.2 < A.length)
    (hnd : ((P ++ todo).map (·.2)).Nodup) (hsort : (P ++ todo).Pairwise fun x y => y.1 ≤ x.1)
    (h0 : ∀ d ∈ todo, 0 ≤ d.1) :
    GrahamInv n (P ++ todo) (todo.foldl balanceStep (A, H)).1 := by
  induction todo generalizing P A H with
  | nil => simpa using hG
  | cons d todo ih =>
    have hnew : ∀ p ∈ P, p.2 ≠ d.2 := by
      intro p hp e
      rw [List.map_append, List.nodup_append] at hnd
      exact hnd.2.2 p.2 (List.mem_map.2 ⟨p, hp, rfl⟩) d.2 (by simp) e
    have hs : ∀ p ∈ P, d.1 ≤ p.1 := by
      intro p hp
      rw [List.pairwise_append] at hsort
      exact hsort.2.2 p hp d (by simp)
    obtain ⟨A1, H1, e1, e2, e3⟩ := balInv_step hn hI (hlt d (by simp)) hnew hs (h0 d (by simp))
    have g1 := grahamInv_step hn hI hG (hlt d (by simp)) hnew hs (h0 d (by simp)) e1
    have e4 : P ++ d :: todo = (P ++ [d]) ++ todo := by simp
    rw [List.foldl_cons, e1, e4]
    exact ih e3 g1 (fun x hx => by rw [e2]; exact hlt x (by simp [hx]))
      (by rwa [e4] at hnd) (by rwa [e4] at hsort) (fun x hx => h0 x (by simp [hx]))

theorem loadbalance_graham (assign other : List ℕ) (n : ℕ) (loads : List M) (hn : 0 < n)
    (hsize : n < assign.length) (hlen : loads.length = assign.length) (h0 : ∀ l ∈ loads, 0 ≤ l)
    (hother : other.length = loads.length) (hrank : ∀ r ∈ other, r < n) (T : M)
    (hT : ∀ r < n, rankLoad loads other r ≤ T) (r : ℕ) (hr : r < n) :
    3 * (n : M) * rankLoad loads (loadbalance assign n loads) r ≤ (4 * (n : M) - 1) * T := by
  have hI0 : BalInv n ([] : List (M × ℕ)) assign ((List.range n).map fun i => ((0 : M), i)) := by
    refine ⟨?_, ?_, by simp, by simp⟩
    · rw [List.map_map]
      have : ((fun a : M × ℕ => a.2) ∘ fun i => ((0 : M), i)) = id := rfl
      rw [this, List.map_id]
    · intro a ha
      obtain ⟨i, _, rfl⟩ := List.mem_map.1 ha
      simp [partLoad]
  have hn1 : (1 : M) ≤ n := by exact_mod_cast hn
  have hG0 : GrahamInv n ([] : List (M × ℕ)) assign := by
    intro alt T hT0 _ _ r _
    simp only [partLoad, List.filter_nil, List.map_nil, List.sum_nil, mul_zero]
    exact mul_nonneg (by linarith) hT0
  have hperm := sortedDomains_perm loads
  have hmem : ∀ d, d ∈ sortedDomains loads ↔ loads[d.2]? = some d.1 := by
    intro d
    rw [hperm.mem_iff, List.mem_zipIdx_iff_getElem?]
  have hG := grahamInv_fold hn (sortedDomains loads) hI0 hG0
    (by
      intro d hd
      have := (List.getElem?_eq_some_iff.1 ((hmem d).1 hd)).1
      omega)
    (by
      rw [List.nil_append, (hperm.map (·.2)).nodup_iff]
      have : loads.zipIdx.map (·.2) = List.range' 0 loads.length := by
        simp
      rw [this]
      exact List.nodup_range')
    (by simpa using sortedDomains_sorted loads)
    (by
      intro d hd
      exact h0 _ (List.mem_of_getElem? ((hmem d).1 hd)))
  rw [List.nil_append] at hG
  obtain ⟨B, hB, hB2, _⟩ := loadbalance_spec assign n loads hn hsize hlen h0
  have hfold : (List.foldl balanceStep (assign, (List.range n).map fun i => ((0 : M), i)) (sortedDomains loads)).1 =
      loadbalance assign n loads := by
    unfold loadbalance
    rw [if_neg (by omega)]
  rw [hfold] at hG
  have hpl : ∀ A : List ℕ, A.length = loads.length → ∀ r, partLoad (sortedDomains loads) A r = rankLoad loads A r := fun A hA r => by
    rw [partLoad_perm hperm, zipIdx_filter_map loads A hA]
  have hnn : 0 ≤ T := by
    refine le_trans ?_ (hT r hr)
    apply List.sum_nonneg
    intro x hx
    obtain ⟨p, hp, rfl⟩ := List.mem_map.1 hx
    exact h0 _ (List.of_mem_zip (List.mem_of_mem_filter hp)).1
  have := hG (fun p => other[p.2]?) T hnn
    (by
      intro p hp
      have h := (List.getElem?_eq_some_iff.1 ((hmem p).1 hp)).1
      exact ⟨other[p.2], hrank _ (List.getElem_mem _), List.getElem?_eq_getElem (by omega)⟩)
    (by
      intro r hr
      have := hT r hr
      rw [← hpl other hother] at this
      exact this)
    r hr
  rwa [hpl _ (by rw [hB, hB2, hlen])] at this

end
end Pmesh
