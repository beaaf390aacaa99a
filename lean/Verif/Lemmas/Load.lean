import Verif.Lemmas.Primary

set_option linter.unusedSectionVars false

namespace Pmesh

theorem bincount_foldl (x : List ℕ) (acc : List ℕ) :
    (x.foldl (fun acc i => acc.modify i (· + 1)) acc).length = acc.length ∧
    ∀ k < acc.length, (x.foldl (fun acc i => acc.modify i (· + 1)) acc).getD k 0 =
      acc.getD k 0 + x.count k := by
  induction x generalizing acc with
  | nil => simp
  | cons a x ih =>
    have h := ih (acc.modify a (· + 1))
    refine ⟨by simpa using h.1, fun k hk => ?_⟩
    simp only [List.foldl_cons]
    rw [h.2 k (by simpa using hk), List.count_cons]
    rw [List.getD_eq_getElem _ _ (by simpa using hk), List.getD_eq_getElem _ _ hk, List.getElem_modify]
    by_cases e : a = k
    · simp [e]; omega
    · simp [e]

theorem bincount_length (x : List ℕ) (n : ℕ) : (bincount x n).length = n := by
  have := (bincount_foldl x (List.replicate n 0)).1
  simpa [bincount] using this

theorem bincount_getD (x : List ℕ) {n k : ℕ} (hk : k < n) : (bincount x n).getD k 0 = x.count k := by
  have := (bincount_foldl x (List.replicate n 0)).2 k (by simpa using hk)
  unfold bincount
  rw [this]
  simp [List.getD_eq_getElem?_getD, List.getElem?_replicate, hk]

theorem mapM_option_some {α β : Type*} {f : α → Option β} {g : α → β} (l : List α)
    (h : ∀ a ∈ l, f a = some (g a)) : l.mapM f = some (l.map g) := by
  induction l with
  | nil => rfl
  | cons a l ih =>
    rw [List.mapM_cons, h a (by simp), ih fun a ha => h a (by simp [ha])]
    rfl

theorem foldl_zipWith_add (n : ℕ) (L : List (List ℕ)) (hL : ∀ l ∈ L, l.length = n) (acc : List ℕ)
    (ha : acc.length = n) :
    (L.foldl (fun acc l => List.zipWith (· + ·) acc l) acc).length = n ∧
    ∀ k < n, (L.foldl (fun acc l => List.zipWith (· + ·) acc l) acc).getD k 0 =
      acc.getD k 0 + (L.map (·.getD k 0)).sum := by
  induction L generalizing acc with
  | nil => simp [ha]
  | cons l L ih =>
    have hl := hL l (by simp)
    have h := ih (fun l hl => hL l (by simp [hl])) (List.zipWith (· + ·) acc l) (by simp [ha, hl])
    refine ⟨h.1, fun k hk => ?_⟩
    simp only [List.foldl_cons, List.map_cons, List.sum_cons]
    rw [h.2 k hk]
    rw [List.getD_eq_getElem _ _ (by simp [ha, hl, hk]), List.getD_eq_getElem acc _ (by omega),
      List.getD_eq_getElem l _ (by omega), List.getElem_zipWith]
    omega

section
variable {K : Type*} [Field K] [LinearOrder K] [IsStrictOrderedRing K] [FloorRing K]

theorem ravelMultiIndex_eq {shape D : List ℕ} (h : ValidIndex shape D) :
    ravelMultiIndex false shape (D.map (Nat.cast : ℕ → ℤ)) = some (cOrder shape D) := by
  induction h with
  | nil => rfl
  | @cons n d ns ds hd hds ih =>
    simp only [List.map_cons, ravelMultiIndex, Bool.false_eq_true, if_false, cOrder]
    rw [if_pos ⟨by omega, by omega⟩, ih]
    simp

theorem loadDomain_eq {g : Grid K} (hg : GridOK g) (hper : g.periodic = true) (x : List K)
    (hx : g.ndim ≤ x.length) : loadDomain g x = some (cOrder g.shape (wrapDom g x)) := by
  have hd : ValidIndex g.shape (wrapDom g x) := wrapDom_isDomain hg x
  unfold loadDomain
  rw [hper]
  simp only [if_true, Bool.not_true]
  rw [← ravelMultiIndex_eq hd]
  congr 1
  unfold Grid.ndim at hx
  apply List.ext_getElem
  · simp [wrapDom, domIdx, Grid.ndim]; omega
  · intro j h1 h2
    simp only [List.length_zipWith, lt_inf_iff] at h1
    have hj : j < g.ndim := h1.1
    simp only [List.getElem_zipWith, List.getElem_map]
    have hs := (hg.axisOK hj).digitize_spec (pyMod_nonneg (x.getD j 0) (hg.box_pos hj))
      (pyMod_lt (x.getD j 0) (hg.box_pos hj))
    have hw : (wrapDom g x)[j]'(by simpa using h2) =
        digitize (pyMod (x.getD j 0) (g.box j)) (g.axis j) - 1 := by
      rw [← List.getD_eq_getElem _ 0]
      exact domIdx_getD g _ hj
    rw [hw]
    unfold Grid.box
    unfold Grid.box at hs
    rw [g.axis_eq h1.1, List.getD_eq_getElem _ _ h1.2] at hs ⊢
    omega

theorem loadLocal_eq {ld : List K → Option ℕ} {shape : List ℕ} (dom : List K → List ℕ) (pos : List (List K))
    (hdom : ∀ x ∈ pos, ValidIndex shape (dom x)) (hld : ∀ x ∈ pos, ld x = some (cOrder shape (dom x))) :
    ∃ l, loadLocalOf ld shape.prod pos = some l ∧ l.length = shape.prod ∧
      ∀ D, ValidIndex shape D → l.getD (cOrder shape D) 0 = pos.countP fun x => decide (dom x = D) := by
  have hcount : ∀ D, ValidIndex shape D →
      (pos.map fun x => cOrder shape (dom x)).count (cOrder shape D) =
      pos.countP fun x => decide (dom x = D) := by
    intro D hD
    rw [List.count, List.countP_map]
    apply List.countP_congr
    intro x hx
    simp only [Function.comp, beq_iff_eq, decide_eq_true_eq]
    exact ⟨fun h => cOrder_inj (hdom x hx) hD h, fun h => by rw [h]⟩
  unfold loadLocalOf
  by_cases h : pos.length ≠ 0
  · rw [if_pos h, mapM_option_some pos hld]
    refine ⟨_, rfl, bincount_length _ _, fun D hD => ?_⟩
    rw [bincount_getD _ (show cOrder shape D < shape.prod from cOrder_lt hD), hcount D hD]
  · rw [if_neg h]
    have : pos = [] := by
      rw [not_not] at h; exact List.length_eq_zero_iff.1 h
    subst this
    refine ⟨_, rfl, by simp, fun D hD => ?_⟩
    have : cOrder shape D < shape.prod := cOrder_lt hD
    simp [List.getD_eq_getElem?_getD, List.getElem?_replicate, this]

/-- The reduction over ranks, for any way to number the domain of a particle. -/
theorem loadOf_eq {ld : List K → Option ℕ} {shape : List ℕ} (dom : List K → List ℕ) (gamma : ℕ) (pos : List (List (List K)))
    (hdom : ∀ P ∈ pos, ∀ x ∈ P, ValidIndex shape (dom x)) (hld : ∀ P ∈ pos, ∀ x ∈ P, ld x = some (cOrder shape (dom x))) :
    ∃ l, loadOf ld shape.prod gamma pos = some l ∧ l.length = shape.prod ∧
      (∀ D, ValidIndex shape D → l.getD (cOrder shape D) 0 = (pos.flatten.countP fun x => decide (dom x = D)) ^ gamma) ∧
      (gamma = 1 → l.sum = pos.flatten.length) := by
  choose! loc h1 h2 h3 using fun P (hP : P ∈ pos) => loadLocal_eq dom P (hdom P hP) (hld P hP)
  have hm : pos.mapM (loadLocalOf ld shape.prod) = some (pos.map loc) := mapM_option_some pos h1
  obtain ⟨f1, f2⟩ := foldl_zipWith_add shape.prod (pos.map loc)
    (by intro l hl; obtain ⟨P, hP, rfl⟩ := List.mem_map.1 hl; exact h2 P hP)
    (List.replicate shape.prod 0) (by simp)
  set tot := (pos.map loc).foldl (fun acc l => List.zipWith (· + ·) acc l) (List.replicate shape.prod 0)
    with htot
  have hent : ∀ D, ValidIndex shape D → tot.getD (cOrder shape D) 0 =
      pos.flatten.countP fun x => decide (dom x = D) := by
    intro D hD
    have hlt : cOrder shape D < shape.prod := cOrder_lt hD
    rw [f2 _ hlt, List.countP_flatten, List.map_map]
    have e0 : (List.replicate shape.prod 0).getD (cOrder shape D) 0 = 0 := by
      simp [List.getD_eq_getElem?_getD, List.getElem?_replicate, hlt]
    rw [e0, Nat.zero_add]
    congr 1
    apply List.map_congr_left
    intro P hP
    exact h3 P hP D hD
  have hload : loadOf ld shape.prod gamma pos = some (tot.map (· ^ gamma)) := by
    unfold loadOf
    rw [hm]
    rfl
  refine ⟨_, hload, by rw [List.length_map]; exact f1, fun D hD => ?_, ?_⟩
  · rw [← hent D hD]
    have hlt : cOrder shape D < tot.length := by rw [f1]; exact cOrder_lt hD
    rw [List.getD_eq_getElem _ _ (by simpa using hlt), List.getD_eq_getElem _ _ hlt, List.getElem_map]
  · rintro rfl
    simp only [pow_one, List.map_id']
    have e1 : tot = (ndindex shape).map fun D => pos.flatten.countP fun x => decide (dom x = D) := by
      apply List.ext_getElem
      · rw [f1, List.length_map, ndindex_length]
      · intro k a b
        have hk : k < shape.prod := by rw [f1] at a; exact a
        obtain ⟨D, hD, hDk⟩ := exists_cOrder_eq hk
        subst hDk
        rw [← List.getD_eq_getElem _ 0 a, hent D hD, List.getElem_map]
        have : (ndindex shape)[cOrder shape D]'(by rw [ndindex_length]; exact cOrder_lt hD) = D := by
          have := ndindex_getElem? hD
          rw [List.getElem?_eq_some_iff] at this
          exact this.2
        rw [this]
    rw [e1]
    have hall : ∀ x ∈ pos.flatten, ValidIndex shape (dom x) := by
      intro x hx
      obtain ⟨P, hP, hx⟩ := List.mem_flatten.1 hx
      exact hdom P hP x hx
    generalize pos.flatten = P at hall
    induction P with
    | nil => simp
    | cons x P ih =>
      have e2 : ((ndindex shape).map fun D => (x :: P).countP fun x => decide (dom x = D)) =
          (ndindex shape).map fun D => (P.countP fun x => decide (dom x = D)) +
            (if dom x = D then 1 else 0) := by
        apply List.map_congr_left
        intro D _
        rw [List.countP_cons]
        simp
      rw [e2, List.sum_map_add, ih fun x hx => hall x (by simp [hx]), List.length_cons]
      congr 1
      have e3 : ((ndindex shape).map fun D => if dom x = D then 1 else 0).sum =
          (ndindex shape).count (dom x) := by
        generalize ndindex shape = l
        induction l with
        | nil => simp
        | cons a l ih =>
          rw [List.map_cons, List.sum_cons, ih, List.count_cons, Nat.add_comm]
          congr 1
          by_cases h : dom x = a
          · simp [h]
          · have h' : ¬ a = dom x := fun e => h e.symm
            simp [h, h']
      rw [e3]
      exact List.count_eq_one_of_mem (ndindex_nodup _) (mem_ndindex.2 (hall x (by simp)))

/-- The domain that `load` counts a position in on a grid that is not periodic. -/
def clampDom (g : Grid K) (x : List K) : List ℕ :=
  (List.range g.ndim).map fun j => (clipInt ((digitize (x.getD j 0) (g.axis j) : ℤ) - 1) 0
    ((((g.axis j).length - 1 : ℕ) : ℤ) - 1)).toNat

theorem ravelMultiIndex_clip : ∀ (shape : List ℕ) (is : List ℤ), is.length = shape.length → (∀ n ∈ shape, 0 < n) →
    ravelMultiIndex true shape is =
      some (cOrder shape (List.zipWith (fun (n : ℕ) (i : ℤ) => (clipInt i 0 (n - 1)).toNat) shape is))
  | [], [], _, _ => rfl
  | [], _ :: _, h, _ => by simp at h
  | _ :: _, [], h, _ => by simp at h
  | n :: ns, i :: is, h, hp => by
    have hn := hp n (by simp)
    have ih := ravelMultiIndex_clip ns is (by simpa using h) fun m hm => hp m (by simp [hm])
    simp only [ravelMultiIndex, if_true, List.zipWith_cons_cons, cOrder]
    rw [if_pos ⟨by unfold clipInt; omega, by unfold clipInt; omega⟩, ih]
    simp

theorem clampDom_isDomain {g : Grid K} (hg : GridOK g) (x : List K) : g.IsDomain (clampDom g x) := by
  rw [isDomain_iff]
  refine ⟨by simp [clampDom], fun j hj => ?_⟩
  have h2 := (hg.axisOK hj).two
  unfold clampDom
  rw [List.getD_eq_getElem _ _ (by simpa using hj)]
  simp only [List.getElem_map, List.getElem_range, clipInt]
  omega

theorem loadDomain_open {g : Grid K} (hg : GridOK g) (hper : g.periodic = false) (x : List K)
    (hx : g.ndim ≤ x.length) : loadDomain g x = some (cOrder g.shape (clampDom g x)) := by
  unfold loadDomain
  rw [hper]
  simp only [Bool.false_eq_true, if_false, Bool.not_false]
  unfold Grid.ndim at hx
  rw [ravelMultiIndex_clip _ _ (by simp [Grid.shape]; omega) hg.shape_pos]
  congr 2
  apply List.ext_getElem
  · simp [clampDom, Grid.ndim, Grid.shape]; omega
  · intro j h1 h2
    simp only [clampDom, Grid.ndim, List.length_map, List.length_range] at h2
    simp only [List.getElem_zipWith, clampDom, List.getElem_map, List.getElem_range, Grid.shape]
    rw [g.axis_eq h2, List.getD_eq_getElem _ _ (by omega)]

/-- The clamped domain in terms of the edges. -/
theorem clampDom_iff {g : Grid K} (hg : GridOK g) (x : List K) {D : List ℕ} (hD : g.IsDomain D) :
    clampDom g x = D ↔ ∀ j < g.ndim, (D.getD j 0 = 0 ∨ g.lo D j ≤ x.getD j 0) ∧
      (D.getD j 0 = (g.axis j).length - 2 ∨ x.getD j 0 < g.hi D j) := by
  have hc := clampDom_isDomain hg x
  have key : clampDom g x = D ↔ ∀ j < g.ndim, (clampDom g x).getD j 0 = D.getD j 0 := by
    refine ⟨fun h j _ => by rw [h], fun h => ?_⟩
    apply List.ext_getElem
    · rw [IsDomain.length_eq' hc, IsDomain.length_eq' hD]
    · intro j a b
      have := h j (by rw [← IsDomain.length_eq' hc]; exact a)
      rwa [List.getD_eq_getElem _ _ a, List.getD_eq_getElem _ _ b] at this
  rw [key]
  refine forall_congr' fun j => forall_congr' fun hj => ?_
  have h2 := (hg.axisOK hj).two
  have hDj := IsDomain.getD_lt hD hj
  have e : (clampDom g x).getD j 0 = (clipInt ((digitize (x.getD j 0) (g.axis j) : ℤ) - 1) 0
      ((((g.axis j).length - 1 : ℕ) : ℤ) - 1)).toNat := by
    unfold clampDom
    rw [List.getD_eq_getElem _ _ (by simpa using hj)]
    simp
  rw [e]
  unfold Grid.lo Grid.hi
  have l1 := lt_digitize_iff (hg.axisOK hj).sorted (x.getD j 0) (i := D.getD j 0) (by omega)
  have l2 := lt_digitize_iff (hg.axisOK hj).sorted (x.getD j 0) (i := D.getD j 0 + 1) (by omega)
  rw [← l1, ← not_le (a := (g.axis j).getD (D.getD j 0 + 1) 0), ← l2]
  unfold clipInt
  omega

end
end Pmesh
