import Verif.Lemmas.Field
import Verif.Lemmas.Exec
import Mathlib.Algebra.Order.Field.Rat

/-!
# C27: setting a complex mode keeps the field Hermitian and reads back
-/

namespace Pmesh

section
variable {K : Type} [Field K]

/-- `cgetitem` returns on every rank the selected part of the element, 0 if the element is not stored. -/
theorem C27_cgetitem (t : Tiling) (ht : t.OK) (G : List ℕ → Cx K) (f : ℕ → List ℕ → Cx K) (hf : t.Holds f G) (p : Part)
    (index : List ℤ) (hidx : IndexInRange t.nmesh index) :
    AllReturn t.nrank (fun r => cgetitem t r p index (f r)) fun _ =>
      some (if ValidIndex t.cshape (meant t.nmesh index) then getPart p (G (meant t.nmesh index)) else 0) := by
  have hlen : index.length = t.nmesh.length := hidx.length_eq.symm
  unfold cgetitem
  simp only [hlen, if_true]
  refine AllReturn.coll ht.rank_pos ?_
  refine AllReturn.congr (fun _ _ => rfl) (fun r hr => ?_) (AllReturn.ret t.nrank _)
  congr 1
  by_cases hv : ValidIndex t.cshape (meant t.nmesh index)
  · obtain ⟨r0, hr0, c0, hc0, hg, h⟩ := ctol_owner ht hidx hv
    rw [if_pos hv, ← hg, ← hf r0 hr0 c0 hc0]
    symm
    refine Eq.trans ?_ (sum_pick' hr0 fun r => getPart p (f r c0))
    congr 1
    apply List.map_congr_left
    intro r hr
    rw [List.mem_range] at hr
    rw [h r hr]
    split_ifs <;> rfl
  · rw [if_neg hv]
    symm
    apply sum_zero_map
    intro r hr
    rw [List.mem_range] at hr
    rw [ctol_none ht hidx hv hr]

/-- `csetitem` on an array that need not be Hermitian: what is written, and that a Hermitian array stays Hermitian. -/
theorem csetitem_any (t : Tiling) (ht : t.OK) (G : List ℕ → Cx K) (f : ℕ → List ℕ → Cx K)
    (hf : t.Holds f G) (p : Part) (index : List ℤ) (hidx : IndexInRange t.nmesh index) (y : Cx K)
    (hy : p ≠ .whole → y.2 = 0) :
    let i := meant t.nmesh index
    let d := opposite t.nmesh i
    ∃ (f' : ℕ → List ℕ → Cx K) (G' : List ℕ → Cx K) (w : Cx K),
      AllReturn t.nrank (fun r => csetitem t true r p index y (f r)) (fun r => some (f' r, w)) ∧
      t.Holds f' G' ∧ (t.Hermitian G → t.Hermitian G') ∧
      AllReturn t.nrank (fun r => cgetitem t r p index (f' r)) (fun _ => some w) ∧
      (ValidIndex t.cshape i → d ≠ i → w = y ∧ G' i = match p with
        | .whole => y
        | .re => (y.1, (G i).2)
        | .im => ((G i).1, y.1)) ∧
      (ValidIndex t.cshape d → d ≠ i → G' d = match p with
        | .whole => cxConj y
        | .re => (y.1, (G d).2)
        | .im => ((G d).1, -y.1)) ∧
      (ValidIndex t.cshape i → d = i → G' i = match p with
        | .whole => (y.1, 0)
        | .re => (y.1, (G i).2)
        | .im => ((G i).1, 0)) ∧
      (∀ j, j ≠ i → j ≠ d → G' j = G j) := by
  intro i d
  have hlen : index.length = t.nmesh.length := hidx.length_eq.symm
  have hdi : d = opposite t.nmesh i := rfl
  have hiv : ValidIndex t.nmesh i := meant_valid hidx
  have hdv : ValidIndex t.nmesh d := opposite_valid hiv
  have hdd : opposite t.nmesh d = i := opposite_opposite hiv
  have hdual : dualIndex t.nmesh index = d.map (Nat.cast : ℕ → ℤ) := dualIndex_eq hidx
  have hdr : IndexInRange t.nmesh (dualIndex t.nmesh index) := hdual ▸ inRange_cast hdv
  have hdm : meant t.nmesh (dualIndex t.nmesh index) = d := by rw [hdual]; exact meant_cast hdv
  -- the value that is set
  set y' : Cx K := if d = i then (match (generalizing := false) p with | .whole => (y.1, 0) | .re => y | .im => 0) else y with hy'
  set dy : Cx K := (match (generalizing := false) p with | .whole => cxConj y' | .re => y' | .im => -y') with hdy
  set G' : List ℕ → Cx K := fun g => if g = d then setPart p (G g) dy else if g = i then setPart p (G g) y' else G g with hG'
  set loc : ℕ → Option (List ℕ) := fun r => t.ctol r index with hloc
  set dual : ℕ → Option (List ℕ) := fun r => t.ctol r (dualIndex t.nmesh index) with hdl
  have hlocs : ∀ r < t.nrank, ∀ c, loc r = some c ↔ ValidIndex (t.lshape r) c ∧ t.global r c = i :=
    fun r hr c => ctol_some_iff ht hr hidx c
  have hduals : ∀ r < t.nrank, ∀ c, dual r = some c ↔ ValidIndex (t.lshape r) c ∧ t.global r c = d := by
    intro r hr c
    rw [← hdm]
    exact ctol_some_iff ht hr hdr c
  -- the values on each rank
  have hvals : ∀ r < t.nrank,
      (csetValues p (loc r) (dual r) y).1 = (if loc r = none then 0 else y') ∧
      (dual r ≠ none → (csetValues p (loc r) (dual r) y).2 = dy) := by
    intro r hr
    by_cases he : d = i
    · have hsame : loc r = dual r := by
        have : dualIndex t.nmesh index = i.map (Nat.cast : ℕ → ℤ) := by rw [hdual, he]
        have e2 : ∀ c, loc r = some c ↔ dual r = some c := by
          intro c
          rw [hlocs r hr, hduals r hr, he]
        cases h1 : loc r with
        | some c => rw [(e2 c).1 h1]
        | none =>
          cases h2 : dual r with
          | some c => rw [(e2 c).2 h2] at h1; cases h1
          | none => rfl
      rw [← hsame]
      unfold csetValues
      cases h1 : loc r with
      | none => cases p <;> simp
      | some c =>
        simp only [hdy, hy', he, if_true]
        cases p <;> simp [cxConj]
    · have hns : ((loc r).isSome && (dual r).isSome && loc r == dual r) = false := by
        rw [Bool.eq_false_iff]
        intro hb
        simp only [Bool.and_eq_true, beq_iff_eq] at hb
        obtain ⟨c, hc⟩ := Option.isSome_iff_exists.1 hb.1.1
        have h1 := ((hlocs r hr c).1 hc).2
        have h2 := ((hduals r hr c).1 (hb.2 ▸ hc)).2
        exact he (h2.symm.trans h1)
      unfold csetValues
      simp only [hns, hdy, hy', he, if_false]
      cases h1 : loc r <;> cases h2 : dual r <;> cases p <;> simp
  set f' : ℕ → List ℕ → Cx K := fun r =>
    writeAt p (writeAt p (f r) (loc r) (csetValues p (loc r) (dual r) y).1) (dual r) (csetValues p (loc r) (dual r) y).2
    with hf'
  set w : Cx K := if ValidIndex t.cshape i then y' else 0 with hw
  have hset : AllReturn t.nrank (fun r => csetitem t true r p index y (f r)) (fun r => some (f' r, w)) := by
    unfold csetitem
    simp only [hlen, if_true]
    refine AllReturn.coll ht.rank_pos ?_
    refine AllReturn.congr (fun _ _ => rfl) (fun r hr => ?_) (AllReturn.ret t.nrank _)
    simp only [Option.some.injEq, Prod.mk.injEq]
    refine ⟨rfl, ?_⟩
    by_cases hv : ValidIndex t.cshape i
    · obtain ⟨r0, hr0, c0, hc0, hg, h⟩ := ctol_owner ht hidx hv
      rw [hw, if_pos hv]
      symm
      refine Eq.trans ?_ (sum_pick' hr0 fun r => y')
      congr 1
      apply List.map_congr_left
      intro r hr
      rw [List.mem_range] at hr
      have := (hvals r hr).1
      simp only [hloc, hdl] at this
      rw [this, h r hr]
      split_ifs <;> simp_all
    · rw [hw, if_neg hv]
      symm
      apply sum_zero_map
      intro r hr
      rw [List.mem_range] at hr
      have := (hvals r hr).1
      simp only [hloc, hdl] at this
      rw [this, ctol_none ht hidx hv hr, if_pos rfl]
  have hsp : ∀ z a b : Cx K, setPart p (setPart p z a) b = setPart p z b := by
    intro z a b
    cases p <;> rfl
  have hhold : t.Holds f' G' := by
    intro r hr c hc
    have hfc := hf r hr c hc
    have h1 : writeAt p (f r) (loc r) (csetValues p (loc r) (dual r) y).1 c =
        if t.global r c = i then setPart p (G i) y' else G (t.global r c) := by
      cases hl : loc r with
      | none =>
        have : t.global r c ≠ i := fun e => by
          have := (hlocs r hr c).2 ⟨hc, e⟩
          rw [hl] at this; cases this
        rw [if_neg this]
        exact hfc
      | some c1 =>
        have hv1 := (hvals r hr).1
        rw [hl] at hv1
        simp only [reduceCtorEq, if_false] at hv1
        rw [hv1]
        obtain ⟨h2, h3⟩ := (hlocs r hr c1).1 hl
        show (if c = c1 then setPart p (f r c1) y' else f r c) = _
        by_cases hcc : c = c1
        · subst hcc
          rw [if_pos rfl, if_pos h3, hfc, h3]
        · rw [if_neg hcc, if_neg (fun e => hcc (global_inj ht hr hc h2 (e.trans h3.symm)))]
          exact hfc
    rw [hf', hG']
    cases hl : dual r with
    | none =>
      have : t.global r c ≠ d := fun e => by
        have := (hduals r hr c).2 ⟨hc, e⟩
        rw [hl] at this; cases this
      simp only [this, if_false]
      have h4 : writeAt p (writeAt p (f r) (loc r) (csetValues p (loc r) (dual r) y).1) (dual r)
          (csetValues p (loc r) (dual r) y).2 c = writeAt p (f r) (loc r) (csetValues p (loc r) (dual r) y).1 c := by
        conv_lhs => rw [hl]
        rw [hl]; rfl
      rw [h4, h1]
      by_cases e : t.global r c = i
      · rw [if_pos e, if_pos e, e]
      · rw [if_neg e, if_neg e]
    | some c1 =>
      obtain ⟨h2, h3⟩ := (hduals r hr c1).1 hl
      have hv2 := (hvals r hr).2 (by rw [hl]; simp)
      have h4 : writeAt p (writeAt p (f r) (loc r) (csetValues p (loc r) (dual r) y).1) (dual r)
          (csetValues p (loc r) (dual r) y).2 c =
          if c = c1 then setPart p (writeAt p (f r) (loc r) (csetValues p (loc r) (dual r) y).1 c1) dy
          else writeAt p (f r) (loc r) (csetValues p (loc r) (dual r) y).1 c := by
        rw [hv2]
        conv_lhs => rw [writeAt.eq_def, hl]
        rw [hl]
      show writeAt p (writeAt p (f r) (loc r) (csetValues p (loc r) (dual r) y).1) (dual r)
          (csetValues p (loc r) (dual r) y).2 c = _
      rw [h4]
      by_cases hcc : c = c1
      · subst hcc
        rw [if_pos rfl, h1]
        simp only [h3, if_true]
        by_cases e : d = i
        · rw [if_pos e, hsp, e]
        · rw [if_neg e]
      · have hne : t.global r c ≠ d := fun e => hcc (global_inj ht hr hc h2 (e.trans h3.symm))
        rw [if_neg hcc, h1]
        simp only [hne, if_false]
        by_cases e : t.global r c = i
        · rw [if_pos e, if_pos e, e]
        · rw [if_neg e, if_neg e]
  have hrealpart : t.Hermitian G → ∀ g, ValidIndex t.cshape g → opposite t.nmesh g = g → (G g).2 = -(G g).2 := by
    intro hG g hg ho
    have := hG g hg (ho.symm ▸ hg)
    rw [ho] at this
    exact congrArg Prod.snd this
  refine ⟨f', G', w, hset, hhold, ?_, ?_, ?_, ?_, ?_, ?_⟩
  · -- Hermitian
    intro hG g hg hog
    have hgv : ValidIndex t.nmesh g := by
      rw [validIndex_iff] at hg ⊢
      refine ⟨hg.1.trans ht.cshape_len, fun j hj => ?_⟩
      rw [← ht.cshape_len] at hj
      exact lt_of_lt_of_le (hg.2 j hj) (forall₂_getD ht.stored_le 0 0 j hj)
    have hoo := opposite_opposite hgv
    have hold := hG g hg hog
    rw [hG']
    dsimp only
    by_cases e1 : g = d
    · subst e1
      rw [hdd] at hold hog ⊢
      rw [if_pos rfl]
      by_cases e2 : d = i
      · rw [if_pos e2.symm]
        have h2 := hrealpart hG i hog (by rw [← hdi, e2])
        rw [← e2] at h2 ⊢
        simp only [hdy, hy', e2, if_true]
        cases p
        · simp [setPart, cxConj]
        · simp only [setPart, cxConj, Prod.mk.injEq, true_and]
          rw [← e2]; exact h2
        · simp only [setPart, cxConj, Prod.mk.injEq, true_and, Prod.fst_zero, Prod.fst_neg, neg_zero]
      · rw [if_neg (Ne.symm e2), if_pos rfl]
        simp only [hdy]
        cases p
        · simp [setPart, cxConj]
        · simp only [setPart, cxConj, Prod.mk.injEq, true_and]
          rw [hold]; rfl
        · simp only [setPart, cxConj, Prod.mk.injEq, Prod.fst_neg, neg_neg, and_true]
          rw [hold]; rfl
    · rw [if_neg e1]
      by_cases e2 : g = i
      · rw [e2] at hold hog ⊢
        rw [if_pos hdi.symm, if_pos rfl]
        simp only [hdy]
        rw [← hdi] at hold hog ⊢
        cases p
        · simp [setPart]
        · simp only [setPart, cxConj, Prod.mk.injEq, true_and]
          rw [hold]; rfl
        · simp only [setPart, cxConj, Prod.mk.injEq, Prod.fst_neg, and_true]
          rw [hold]; rfl
      · have h1 : opposite t.nmesh g ≠ d := fun e => e2 (by rw [← hoo, e, hdd])
        have h2 : opposite t.nmesh g ≠ i := fun e => e1 (by rw [← hoo, e])
        rw [if_neg h1, if_neg h2, if_neg e2]
        exact hold
  · -- read back
    refine AllReturn.congr (fun _ _ => rfl) (fun r hr => ?_) (C27_cgetitem t ht G' f' hhold p index hidx)
    rw [hw]
    congr 1
    have hread : getPart p (G' i) = y' := by
      have hgs : ∀ z a : Cx K, (p ≠ .whole → a.2 = 0) → getPart p (setPart p z a) = a := by
        intro z a ha
        cases p
        · rfl
        · exact Prod.ext rfl (ha (by simp)).symm
        · exact Prod.ext rfl (ha (by simp)).symm
      have hy2 : p ≠ .whole → y'.2 = 0 := by
        intro hp
        have := hy hp
        rw [hy']
        split_ifs
        · cases p
          · exact absurd rfl hp
          · exact this
          · rfl
        · exact this
      rw [hG']
      dsimp only
      by_cases e : i = d
      · rw [if_pos e, hgs]
        · simp only [hdy, hy', e.symm, if_true]
          cases p <;> simp [cxConj]
        · intro hp
          have := hy2 hp
          rw [hdy]
          cases p
          · exact absurd rfl hp
          · exact this
          · show (-y').2 = 0
            rw [Prod.snd_neg, this, neg_zero]
      · rw [if_neg e, if_pos rfl]
        exact hgs _ _ hy2
    rw [← hread]
  · intro hv hne
    rw [hw, if_pos hv, hG', hy', if_neg hne]
    refine ⟨rfl, ?_⟩
    dsimp only
    rw [if_neg (Ne.symm hne), if_pos rfl]
    cases p <;> rfl
  · intro _ hne
    rw [hG']
    dsimp only
    rw [if_pos rfl, hdy, hy', if_neg hne]
    cases p <;> rfl
  · intro hv he
    rw [hG']
    dsimp only
    rw [if_pos he.symm, hdy, hy', if_pos he]
    cases p <;> simp [setPart, cxConj]
  · intro j h1 h2
    rw [hG']
    dsimp only
    rw [if_neg h2, if_neg h1]

/-- **C27**: `csetitem` of a complex field, for every Hermitian field, index (also negative), part and value.  With `i`
the element that is meant and `d` its opposite:  the field stays Hermitian; element `i` gets the value, element `d` its
conjugate; if `i` is its own opposite, the value is made real; everything else stays; every rank gets the same return value
(the value that was set if `i` is stored, else 0), and `cgetitem` returns the same. -/
theorem C27_csetitem (t : Tiling) (ht : t.OK) (G : List ℕ → Cx K) (hG : t.Hermitian G) (f : ℕ → List ℕ → Cx K)
    (hf : t.Holds f G) (p : Part) (index : List ℤ) (hidx : IndexInRange t.nmesh index) (y : Cx K)
    (hy : p ≠ .whole → y.2 = 0) :
    let i := meant t.nmesh index
    let d := opposite t.nmesh i
    ∃ (f' : ℕ → List ℕ → Cx K) (G' : List ℕ → Cx K) (w : Cx K),
      AllReturn t.nrank (fun r => csetitem t true r p index y (f r)) (fun r => some (f' r, w)) ∧
      t.Holds f' G' ∧ t.Hermitian G' ∧
      AllReturn t.nrank (fun r => cgetitem t r p index (f' r)) (fun _ => some w) ∧
      (ValidIndex t.cshape i → d ≠ i → w = y ∧ G' i = match p with
        | .whole => y
        | .re => (y.1, (G i).2)
        | .im => ((G i).1, y.1)) ∧
      (ValidIndex t.cshape d → d ≠ i → G' d = match p with
        | .whole => cxConj y
        | .re => (y.1, (G d).2)
        | .im => ((G d).1, -y.1)) ∧
      (ValidIndex t.cshape i → d = i → G' i = match p with
        | .whole => (y.1, 0)
        | .re => (y.1, (G i).2)
        | .im => ((G i).1, 0)) ∧
      (∀ j, j ≠ i → j ≠ d → G' j = G j) := by
  obtain ⟨f', G', w, h1, h2, h3, h4⟩ := csetitem_any t ht G f hf p index hidx y hy
  exact ⟨f', G', w, h1, h2, h3 hG, h4⟩

/-- `csetitem` of a real field sets the element and nothing else, and returns the value on every rank. -/
theorem C27_csetitem_real (t : Tiling) (ht : t.OK) (G : List ℕ → Cx K) (f : ℕ → List ℕ → Cx K)
    (hf : t.Holds f G) (index : List ℤ) (hidx : IndexInRange t.nmesh index) (hv : ValidIndex t.cshape (meant t.nmesh index))
    (y : Cx K) :
    ∃ f' : ℕ → List ℕ → Cx K,
      AllReturn t.nrank (fun r => csetitem t false r .whole index y (f r)) (fun r => some (f' r, y)) ∧
      t.Holds f' (fun g => if g = meant t.nmesh index then y else G g) := by
  have hlen : index.length = t.nmesh.length := hidx.length_eq.symm
  obtain ⟨r0, hr0, c0, hc0, hg, h⟩ := ctol_owner ht hidx hv
  refine ⟨fun r => writeAt .whole (f r) (t.ctol r index) (if t.ctol r index = none then 0 else y), ?_, ?_⟩
  · unfold csetitem
    simp only [hlen, if_true]
    refine AllReturn.coll ht.rank_pos ?_
    refine AllReturn.congr (fun _ _ => rfl) (fun r hr => ?_) (AllReturn.ret t.nrank _)
    simp only [Option.some.injEq, Prod.mk.injEq, csetValues, Bool.false_eq_true, if_false, Option.isSome_none,
      Bool.and_false, Bool.false_and]
    refine ⟨rfl, ?_⟩
    refine (sum_pick' hr0 fun _ => y).symm.trans ?_
    congr 1
    apply List.map_congr_left
    intro r hr
    rw [List.mem_range] at hr
    rw [h r hr]
    split_ifs <;> simp_all
  · intro r hr c hc
    dsimp only
    rw [h r hr]
    by_cases e : r = r0
    · subst e
      rw [if_pos rfl]
      show (if c = c0 then setPart .whole (f r c0) _ else f r c) = _
      by_cases hcc : c = c0
      · subst hcc
        rw [if_pos rfl, if_pos hg]
        rfl
      · rw [if_neg hcc, if_neg (fun e => hcc (global_inj ht hr hc hc0 (e.trans hg.symm)))]
        exact hf r hr c hc
    · rw [if_neg e]
      show f r c = _
      rw [if_neg (fun h2 => e (ht.unique r hr r0 hr0 c c0 hc hc0 (h2.trans hg.symm)))]
      exact hf r hr c hc

end

/-! ## Examples -/

/-- Four by four modes, Hermitian-compressed, on two ranks: rank 0 has three rows, rank 1 one. -/
def exTiling : Tiling := ⟨[4, 4], [4, 3], 2, fun r => [3 * r, 0], fun r => if r = 0 then [3, 3] else [1, 3]⟩

theorem exTiling_ok : exTiling.OK := tiling_ok_of_decide (by decide)

/-- Non-vacuity: a Hermitian field that is not constant. -/
def exSpec : List ℕ → Cx ℚ := fun i => if i = [1, 1] then (1, 2) else if i = [3, 0] then (5, 1) else if i = [1, 0] then (5, -1) else (0, 0)

theorem exSpec_hermitian : exTiling.Hermitian exSpec := by
  intro i hi
  have hi' := mem_ndindex.2 hi
  revert hi
  revert i
  decide

example := C27_csetitem exTiling exTiling_ok exSpec exSpec_hermitian (fun r c => exSpec (exTiling.global r c))
  (fun _ _ _ _ => rfl) .whole [-1, 0] (.cons (by decide) (.cons (by decide) .nil)) (3, 4) (by simp)

example := C27_cgetitem exTiling exTiling_ok exSpec (fun r c => exSpec (exTiling.global r c)) (fun _ _ _ _ => rfl) .im [-1, 0]
  (.cons (by decide) (.cons (by decide) .nil))

example := C27_csetitem_real (K := ℚ) ⟨[4, 3], [4, 3], 2, exTiling.start, exTiling.lshape⟩
  (tiling_ok_of_decide (by decide)) (fun _ => (1, 0)) (fun _ _ => (1, 0)) (fun _ _ _ _ => rfl) [-1, 2]
  (.cons (by decide) (.cons (by decide) .nil)) (by decide) (7, 0)

/-- What the code does for an index that is not stored because of the compression: the opposite mode is set, and 0 is
returned. -/
example : AllReturn 2 (fun r => match csetitem exTiling true r .whole [1, 3] (3, 4) (fun c => exSpec (exTiling.global r c)) with
    | .coll op v k => .coll op v fun vs => match k vs with
      | .ret (some (f, w)) => .ret (w, f [0, 1])
      | _ => .ret (0, 0)
    | _ => .ret (0, 0)) (fun r => if r = 0 then (0, (0, 0)) else ((0, (3, -4)) : Cx ℚ × Cx ℚ)) :=
  AllReturn.of_runAll 3 (by decide +kernel)

#print axioms C27_cgetitem
#print axioms C27_csetitem
#print axioms C27_csetitem_real

end Pmesh
