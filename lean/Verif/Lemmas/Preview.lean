import Verif.Model.Preview
import Verif.Spec.Field
import Verif.Lemmas.Field
import Verif.Lemmas.Norm
import Verif.Lemmas.Spmd
import Mathlib.Data.List.GetD

set_option linter.unusedSectionVars false

namespace Pmesh

/-- `all` lists the axes `0, …, n - 1`, each once. -/
structure AxisPerm (n : ℕ) (all : List ℕ) : Prop where
  len : all.length = n
  nodup : all.Nodup
  lt : ∀ d ∈ all, d < n

theorem AxisPerm.mem {n : ℕ} {all : List ℕ} (h : AxisPerm n all) {d : ℕ} (hd : d < n) : d ∈ all := by
  have hp : all.Perm (List.range n) := by
    apply List.Subperm.perm_of_length_le
    · exact List.subperm_of_subset h.nodup fun x hx => List.mem_range.2 (h.lt x hx)
    · rw [h.len]; simp
  exact hp.mem_iff.2 (List.mem_range.2 hd)

theorem getD_map_lt {β : Type*} (f : ℕ → β) (l : List ℕ) (b : β) {j : ℕ} (h : j < l.length) :
    (l.map f).getD j b = f l[j] := by
  rw [List.getD_eq_getElem _ _ (by simpa using h), List.getElem_map]

theorem untranspose_length (all i : List ℕ) : (untranspose all i).length = all.length := by simp [untranspose]

theorem untranspose_getD {all i : List ℕ} {e : ℕ} (h : e < all.length) :
    (untranspose all i).getD e 0 = i.getD (all.idxOf e) 0 := by
  unfold untranspose
  rw [getD_map_range _ _ _ _ h]

theorem untranspose_map {n : ℕ} {all : List ℕ} (h : AxisPerm n all) {c : List ℕ} (hc : c.length = n) :
    untranspose all (all.map fun d => c.getD d 0) = c := by
  apply List.ext_getElem
  · rw [untranspose_length, h.len, hc]
  · intro j h1 h2
    have hj : j < n := by omega
    have hm := h.mem hj
    have hi : all.idxOf j < all.length := List.idxOf_lt_length_of_mem hm
    have := untranspose_getD (all := all) (i := all.map fun d => c.getD d 0) (e := j) (by rw [h.len]; exact hj)
    rw [getD_map_lt _ _ _ hi, List.getElem_idxOf, List.getD_eq_getElem _ _ h1, List.getD_eq_getElem _ _ h2] at this
    exact this

theorem map_untranspose {n : ℕ} {all : List ℕ} (h : AxisPerm n all) {i : List ℕ} (hi : i.length = n) :
    (all.map fun d => (untranspose all i).getD d 0) = i := by
  apply List.ext_getElem
  · rw [List.length_map, h.len, hi]
  · intro j h1 h2
    have hj : j < all.length := by simpa using h1
    rw [List.getElem_map, untranspose_getD ((h.lt _ (List.getElem_mem hj)).trans_eq h.len.symm), h.nodup.idxOf_getElem,
      List.getD_eq_getElem _ _ h2]

theorem validIndex_pick {n : ℕ} {all shape c : List ℕ} (h : AxisPerm n all) (hs : shape.length = n) (hc : c.length = n) :
    ValidIndex (all.map fun d => shape.getD d 0) (all.map fun d => c.getD d 0) ↔ ValidIndex shape c := by
  rw [validIndex_iff, validIndex_iff]
  constructor
  · rintro ⟨_, h2⟩
    refine ⟨by omega, fun j hj => ?_⟩
    have hi : all.idxOf j < all.length := List.idxOf_lt_length_of_mem (h.mem (by omega))
    have := h2 (all.idxOf j) (by simpa using hi)
    rwa [getD_map_lt _ _ _ hi, getD_map_lt _ _ _ hi, List.getElem_idxOf] at this
  · rintro ⟨_, h2⟩
    refine ⟨by simp, fun j hj => ?_⟩
    have hj' : j < all.length := by simpa using hj
    rw [getD_map_lt _ _ _ hj', getD_map_lt _ _ _ hj']
    exact h2 _ (by rw [hs]; exact h.lt _ (List.getElem_mem hj'))

theorem validIndex_append {s s' a b : List ℕ} (h : ValidIndex s a) (h' : ValidIndex s' b) : ValidIndex (s ++ s') (a ++ b) := by
  induction h with
  | nil => exact h'
  | cons h1 _ ih => exact .cons h1 ih

theorem validIndex_append_iff {s s' a b : List ℕ} (hl : a.length = s.length) :
    ValidIndex (s ++ s') (a ++ b) ↔ ValidIndex s a ∧ ValidIndex s' b := by
  constructor
  · intro h
    induction s generalizing a with
    | nil =>
      have : a = [] := by simpa using hl
      subst this
      exact ⟨.nil, h⟩
    | cons n s ih =>
      cases a with
      | nil => simp at hl
      | cons x a =>
        cases h with
        | cons h1 h2 =>
          obtain ⟨h3, h4⟩ := ih (by simpa using hl) h2
          exact ⟨.cons h1 h3, h4⟩
  · rintro ⟨h1, h2⟩
    exact validIndex_append h1 h2

/-- The elements of the array whose kept axes have index `k`. -/
theorem filter_perm {n : ℕ} {axes removed shape k : List ℕ} (h : AxisPerm n (axes ++ removed)) (hs : shape.length = n)
    (hk : ValidIndex (axes.map fun d => shape.getD d 0) k) :
    List.Perm ((ndindex (removed.map fun d => shape.getD d 0)).map fun rm => untranspose (axes ++ removed) (k ++ rm))
      ((ndindex shape).filter fun c => decide ((axes.map fun d => c.getD d 0) = k)) := by
  have hkl : k.length = axes.length := by simpa using hk.len
  have hll : axes.length + removed.length = n := by have := h.len; simpa using this
  rw [List.perm_ext_iff_of_nodup]
  · intro c
    rw [List.mem_map, List.mem_filter, mem_ndindex, decide_eq_true_iff]
    constructor
    · rintro ⟨rm, hrm, rfl⟩
      have hrm := mem_ndindex.1 hrm
      have hrl : rm.length = removed.length := by simpa using hrm.len
      have hmu := map_untranspose h (i := k ++ rm) (by simp; omega)
      rw [List.map_append] at hmu
      obtain ⟨h1, h2⟩ := List.append_inj hmu (by simp [hkl])
      refine ⟨?_, h1⟩
      rw [← validIndex_pick h hs (by rw [untranspose_length, h.len]), List.map_append, List.map_append, h1, h2]
      exact validIndex_append hk hrm
    · rintro ⟨hc, hck⟩
      have hcl : c.length = n := by rw [hc.len, hs]
      refine ⟨removed.map fun d => c.getD d 0, ?_, ?_⟩
      · rw [mem_ndindex]
        have := (validIndex_pick h hs hcl).2 hc
        rw [List.map_append, List.map_append, validIndex_append_iff (by simp)] at this
        exact this.2
      · rw [← hck, ← List.map_append, untranspose_map h hcl]
  · apply List.Nodup.map_on _ (ndindex_nodup _)
    intro a ha b hb hab
    have ha' : a.length = removed.length := by simpa using (mem_ndindex.1 ha).len
    have hb' : b.length = removed.length := by simpa using (mem_ndindex.1 hb).len
    have h1 := map_untranspose h (i := k ++ a) (by simp; omega)
    have h2 := map_untranspose h (i := k ++ b) (by simp; omega)
    rw [hab, h2] at h1
    exact (List.append_cancel_left h1).symm
  · exact (ndindex_nodup _).filter _

theorem removedAxes_perm {n : ℕ} {axes : List ℕ} (hnd : axes.Nodup) (hlt : ∀ d ∈ axes, d < n) :
    AxisPerm n (axes ++ removedAxes n axes) := by
  have hnd2 : (axes ++ removedAxes n axes).Nodup := by
    rw [List.nodup_append]
    refine ⟨hnd, List.nodup_range.filter _, ?_⟩
    intro a ha b hb
    rintro rfl
    unfold removedAxes at hb
    rw [List.mem_filter] at hb
    simp [ha] at hb
  have hlt2 : ∀ d ∈ axes ++ removedAxes n axes, d < n := by
    intro d hd
    rcases List.mem_append.1 hd with h | h
    · exact hlt d h
    · unfold removedAxes at h
      exact List.mem_range.1 (List.mem_filter.1 h).1
  refine ⟨?_, hnd2, hlt2⟩
  have hp : (axes ++ removedAxes n axes).Perm (List.range n) := by
    rw [List.perm_ext_iff_of_nodup hnd2 List.nodup_range]
    intro d
    constructor
    · exact fun h => List.mem_range.2 (hlt2 d h)
    · intro h
      rw [List.mem_append]
      by_cases hd : d ∈ axes
      · exact .inl hd
      · right
        unfold removedAxes
        rw [List.mem_filter]
        exact ⟨h, by simp [hd]⟩
  rw [hp.length_eq, List.length_range]

section
variable {V : Type} [AddCommMonoid V]

theorem sum_filter_decide {α : Type*} (l : List α) (p : α → Prop) [DecidablePred p] (f : α → V) :
    ((l.filter fun a => decide (p a)).map f).sum = (l.map fun a => if p a then f a else 0).sum := by
  induction l with
  | nil => rfl
  | cons a l ih =>
    rw [List.filter_cons, List.map_cons, List.sum_cons, ← ih]
    by_cases h : p a <;> simp [h]

theorem all_zipWith_iff {f : ℕ → ℕ → Bool} : ∀ {a b : List ℕ}, a.length = b.length →
    ((List.zipWith f a b).all id = true ↔ ∀ j < a.length, f (a.getD j 0) (b.getD j 0) = true)
  | [], [], _ => by simp
  | x :: a, y :: b, h => by
    have ih := all_zipWith_iff (f := f) (a := a) (b := b) (by simpa using h)
    rw [List.zipWith_cons_cons, List.all_cons, Bool.and_eq_true, ih]
    constructor
    · rintro ⟨h1, h2⟩ j hj
      cases j with
      | zero => exact h1
      | succ j => exact h2 j (by simpa using hj)
    · intro h
      exact ⟨h 0 (by simp), fun j hj => h (j + 1) (by simpa using hj)⟩
  | [], _ :: _, h => by simp at h
  | _ :: _, [], h => by simp at h

/-- The element with index `g` of the array with the slice added. -/
theorem slice_cond {start len g : List ℕ} (hs : g.length = start.length) (hl : len.length = start.length) :
    ((List.zipWith (fun (i s : ℕ) => decide (s ≤ i)) g start).all id &&
      (List.zipWith (fun (i e : ℕ) => decide (i < e)) g (List.zipWith (· + ·) start len)).all id) = true ↔
    ∃ k, ValidIndex len k ∧ List.zipWith (· + ·) start k = g := by
  rw [Bool.and_eq_true, all_zipWith_iff hs, all_zipWith_iff (by simp; omega)]
  have hz : ∀ j < g.length, (List.zipWith (· + ·) start len).getD j 0 = start.getD j 0 + len.getD j 0 := by
    intro j hj
    rw [getD_zipWith _ _ _ 0 0 0 j (by omega) (by omega)]
  constructor
  · rintro ⟨h1, h2⟩
    refine ⟨List.zipWith (· - ·) g start, ?_, ?_⟩
    · rw [validIndex_iff]
      refine ⟨by simp; omega, fun j hj => ?_⟩
      rw [getD_zipWith _ _ _ 0 0 0 j (by omega) (by omega)]
      have a1 := of_decide_eq_true (h1 j (by omega))
      have a2 := of_decide_eq_true (h2 j (by omega))
      rw [hz j (by omega)] at a2
      omega
    · apply List.ext_getElem
      · simp; omega
      · intro j b1 b2
        have a1 := of_decide_eq_true (h1 j b2)
        have hsj : j < start.length := by omega
        rw [List.getD_eq_getElem _ _ b2, List.getD_eq_getElem _ _ hsj] at a1
        simp only [List.getElem_zipWith]
        omega
  · rintro ⟨k, hk, rfl⟩
    have hkl := hk.len
    obtain ⟨_, hk2⟩ := validIndex_iff.1 hk
    have hg : ∀ j < start.length, (List.zipWith (· + ·) start k).getD j 0 = start.getD j 0 + k.getD j 0 := by
      intro j hj
      rw [getD_zipWith _ _ _ 0 0 0 j hj (by omega)]
    constructor
    · intro j hj
      have hj' : j < start.length := by omega
      rw [decide_eq_true_iff, hg j hj']
      omega
    · intro j hj
      have hj' : j < start.length := by omega
      rw [decide_eq_true_iff, hg j hj', hz j hj]
      have := hk2 j (by omega)
      omega

theorem zipWith_add_sub {start k : List ℕ} (h : k.length = start.length) :
    List.zipWith (· - ·) (List.zipWith (· + ·) start k) start = k := by
  apply List.ext_getElem
  · simp; omega
  · intro j h1 h2
    simp

theorem pick_zipWith {n : ℕ} {axes a b : List ℕ} (ha : a.length = n) (hb : b.length = n) (hlt : ∀ d ∈ axes, d < n) :
    (axes.map fun d => (List.zipWith (· + ·) a b).getD d 0) =
      List.zipWith (· + ·) (axes.map fun d => a.getD d 0) (axes.map fun d => b.getD d 0) := by
  rw [List.zipWith_map, List.zipWith_self]
  apply List.map_congr_left
  intro d hd
  have := hlt d hd
  rw [getD_zipWith _ _ _ 0 0 0 d (by omega) (by omega)]

/-- One element of what a rank contributes. -/
theorem slice_elem {n : ℕ} {axes removed start len g : List ℕ} (h : AxisPerm n (axes ++ removed)) (hs : start.length = n)
    (hl : len.length = n) (hg : g.length = axes.length) (F : List ℕ → V) :
    (if (List.zipWith (fun (i s : ℕ) => decide (s ≤ i)) g (axes.map fun d => start.getD d 0)).all id &&
        (List.zipWith (fun (i e : ℕ) => decide (i < e)) g
          (List.zipWith (· + ·) (axes.map fun d => start.getD d 0) (axes.map fun d => len.getD d 0))).all id then
      ((ndindex (removed.map fun d => len.getD d 0)).map fun rm =>
        F (untranspose (axes ++ removed) (List.zipWith (· - ·) g (axes.map fun d => start.getD d 0) ++ rm))).sum
    else 0) =
    ((ndindex len).map fun c =>
      if (axes.map fun d => (List.zipWith (· + ·) start c).getD d 0) = g then F c else 0).sum := by
  have hlt : ∀ d ∈ axes, d < n := fun d hd => h.lt d (List.mem_append_left _ hd)
  by_cases hc : ((List.zipWith (fun (i s : ℕ) => decide (s ≤ i)) g (axes.map fun d => start.getD d 0)).all id &&
        (List.zipWith (fun (i e : ℕ) => decide (i < e)) g
          (List.zipWith (· + ·) (axes.map fun d => start.getD d 0) (axes.map fun d => len.getD d 0))).all id) = true
  · rw [if_pos hc]
    obtain ⟨k, hk, rfl⟩ := (slice_cond (by simpa using hg) (by simp)).1 hc
    have hkl : k.length = axes.length := by simpa using hk.len
    rw [zipWith_add_sub (by simpa using hkl)]
    have := ((filter_perm h hl hk).map F).sum_eq
    rw [List.map_map] at this
    refine Eq.trans this ?_
    rw [sum_filter_decide]
    congr 1
    apply List.map_congr_left
    intro c hcv
    have hcl : c.length = n := by rw [(mem_ndindex.1 hcv).len, hl]
    rw [pick_zipWith hs hcl hlt]
    apply if_congr _ rfl rfl
    constructor
    · rintro h; rw [h]
    · intro h
      have h1 := zipWith_add_sub (start := axes.map fun d => start.getD d 0) (k := axes.map fun d => c.getD d 0) (by simp)
      have h2 := zipWith_add_sub (start := axes.map fun d => start.getD d 0) (k := k) (by simpa using hkl)
      rw [← h1, h, h2]
  · rw [if_neg hc]
    symm
    apply List.sum_eq_zero
    intro y hy
    obtain ⟨c, hcv, rfl⟩ := List.mem_map.1 hy
    rw [if_neg]
    intro he
    apply hc
    have hcv := mem_ndindex.1 hcv
    have hcl : c.length = n := by rw [hcv.len, hl]
    refine (slice_cond (by simpa using hg) (by simp)).2 ⟨axes.map fun d => c.getD d 0, ?_, ?_⟩
    · have := (validIndex_pick h hl hcl).2 hcv
      rw [List.map_append, List.map_append, validIndex_append_iff (by simp)] at this
      exact this.1
    · rw [← pick_zipWith hs hcl hlt]
      exact he

theorem allreduceSum_map {n : ℕ} {S : List (List ℕ)} (L : ℕ → List ℕ → V) :
    allreduceSum S.length ((List.range n).map fun r => S.map (L r)) =
      S.map fun g => ((List.range n).map fun r => L r g).sum := by
  unfold allreduceSum
  apply List.ext_getElem
  · simp
  · intro j h1 h2
    have hj : j < S.length := by simpa using h1
    simp only [List.getElem_map, List.getElem_range, List.map_map]
    congr 1
    apply List.map_congr_left
    intro r _
    simp only [Function.comp]
    rw [List.getD_eq_getElem _ _ (by simpa using hj), List.getElem_map]

theorem sumLast_eq : ∀ (n : ℕ) (shape : List ℕ) (f : List ℕ → V), shape.length = n →
    sumLast shape f = ((ndindex shape).map f).sum
  | 0, shape, f, h => by
    have : shape = [] := by simpa using h
    subst this
    simp [sumLast, ndindex]
  | n + 1, shape, f, h => by
    rcases List.eq_nil_or_concat shape with rfl | ⟨ns, N, rfl⟩
    · simp at h
    rw [List.concat_eq_append] at *
    have hne : ∃ a l, ns ++ [N] = a :: l := by cases ns <;> simp
    obtain ⟨a, l, hal⟩ := hne
    have e : sumLast (ns ++ [N]) f = sumLast ns fun i => ((List.range N).map fun j => f (i ++ [j])).sum := by
      rw [hal, sumLast, ← hal]
      simp
    rw [e, sumLast_eq n ns _ (by simpa using h)]
    have hsplit : ∀ (ns : List ℕ) (F : List ℕ → V), ((ndindex (ns ++ [N])).map F).sum =
        ((ndindex ns).map fun i => ((List.range N).map fun j => F (i ++ [j])).sum).sum := by
      intro ns
      induction ns with
      | nil =>
        intro F
        simp only [List.nil_append, ndindex, List.map_cons, List.map_nil, List.sum_cons, List.sum_nil, add_zero,
          List.flatMap_nil]
        congr 1
        generalize List.range N = L
        induction L with
        | nil => rfl
        | cons a L ih => simpa using ih
      | cons m ns ih =>
        intro F
        rw [List.cons_append, ndindex, ndindex]
        generalize List.range m = L
        induction L with
        | nil => rfl
        | cons a L ihL =>
          rw [List.flatMap_cons, List.flatMap_cons, List.map_append, List.map_append, List.sum_append, List.sum_append, ihL,
            List.map_map, List.map_map]
          congr 1
          exact ih fun t => F (a :: t)
    rw [hsplit]

end
end Pmesh
