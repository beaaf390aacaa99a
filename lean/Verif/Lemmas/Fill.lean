import Verif.Lemmas.Axis
import Mathlib.Data.List.Count
import Mathlib.Data.List.Sort

set_option linter.unusedSectionVars false

namespace Pmesh

theorem foldlM_ok {α β ε : Type*} {f : β → α → Except ε β} {g : β → α → β} (l : List α)
    (h : ∀ b, ∀ a ∈ l, f b a = .ok (g b a)) (b : β) : l.foldlM f b = .ok (l.foldl g b) := by
  induction l generalizing b with
  | nil => rfl
  | cons a l ih =>
    rw [List.foldlM_cons, h b a (by simp), List.foldl_cons]
    exact ih (fun b a' ha' => h b a' (by simp [ha'])) _

theorem readAt_natCast {α : Type*} (l : List α) (k : ℕ) :
    readAt l (k : ℤ) = match l[k]? with | some a => .ok a | none => .error .outOfBounds := by
  simp only [readAt, Int.natCast_nonneg, if_true, Int.toNat_natCast]
  rfl

/-! ### bubble and the unique pass -/

theorem mem_bubble {t a : ℕ} {l : List ℕ} : a ∈ bubble t l ↔ a = t ∨ a ∈ l := by
  induction l with
  | nil => simp [bubble]
  | cons b l ih =>
    simp only [bubble]
    split
    · simp only [List.mem_cons, ih]; tauto
    · simp only [List.mem_cons]

theorem bubble_sorted {t : ℕ} {l : List ℕ} (h : l.Pairwise (· ≥ ·)) :
    (bubble t l).Pairwise (· ≥ ·) := by
  induction l with
  | nil => simp [bubble]
  | cons b l ih =>
    simp only [bubble]
    rw [List.pairwise_cons] at h
    split
    · rename_i hb
      rw [List.pairwise_cons]
      refine ⟨?_, ih h.2⟩
      intro a ha
      rcases mem_bubble.1 ha with rfl | ha
      · omega
      · exact h.1 a ha
    · rename_i hb
      rw [List.pairwise_cons]
      refine ⟨?_, List.pairwise_cons.2 h⟩
      intro a ha
      rcases List.mem_cons.1 ha with rfl | ha
      · omega
      · have := h.1 a ha; omega

theorem uniquePass_spec (l : List ℕ) (prev : ℤ) (hs : l.Pairwise (· ≤ ·))
    (hp : ∀ a ∈ l, prev ≤ (a : ℤ)) :
    ∃ T, uniquePass prev l = .ok T ∧ T.Pairwise (· < ·) ∧ (∀ a ∈ T, prev < (a : ℤ)) ∧
      ∀ a : ℕ, a ∈ T ↔ a ∈ l ∧ (a : ℤ) ≠ prev := by
  induction l generalizing prev with
  | nil => exact ⟨[], rfl, .nil, by simp, by simp⟩
  | cons b l ih =>
    rw [List.pairwise_cons] at hs
    simp only [uniquePass]
    by_cases h1 : prev = b
    · rw [if_pos h1]
      obtain ⟨T, hT, h2, h3, h4⟩ := ih prev hs.2 (fun a ha => hp a (by simp [ha]))
      refine ⟨T, hT, h2, h3, ?_⟩
      intro a
      rw [h4]
      simp only [List.mem_cons]
      constructor
      · rintro ⟨g1, g2⟩; exact ⟨Or.inr g1, g2⟩
      · rintro ⟨g1 | g1, g2⟩
        · subst g1; exact absurd h1.symm g2
        · exact ⟨g1, g2⟩
    · have hb := hp b (by simp)
      rw [if_neg h1, if_neg (by omega)]
      obtain ⟨T, hT, h2, h3, h4⟩ := ih b hs.2 (fun a ha => by exact_mod_cast hs.1 a ha)
      rw [hT]
      refine ⟨b :: T, rfl, ?_, ?_, ?_⟩
      · rw [List.pairwise_cons]
        exact ⟨fun a ha => by exact_mod_cast h3 a ha, h2⟩
      · intro a ha
        rcases List.mem_cons.1 ha with rfl | ha
        · omega
        · have := h3 a ha; omega
      · intro a
        simp only [List.mem_cons, h4]
        constructor
        · rintro (rfl | ⟨g1, g2⟩)
          · exact ⟨Or.inl rfl, by omega⟩
          · have := hs.1 a g1
            exact ⟨Or.inr g1, by omega⟩
        · rintro ⟨rfl | g1, g2⟩
          · exact Or.inl rfl
          · by_cases hab : a = b
            · exact Or.inl hab
            · exact Or.inr ⟨g1, by exact_mod_cast hab⟩

/-! ### flat domain numbers -/

/-- The domain multi-index of a patch point. -/
def wrapIdx (dims : List ℕ) (p : List ℤ) : List ℕ :=
  List.zipWith (fun (n : ℕ) (t : ℤ) => (t % (n : ℤ)).toNat) dims p

theorem wrapIdx_valid {dims : List ℕ} (hd : ∀ n ∈ dims, 0 < n) {p : List ℤ}
    (hl : p.length = dims.length) : ValidIndex dims (wrapIdx dims p) := by
  induction dims generalizing p with
  | nil => simp [wrapIdx, ValidIndex]
  | cons n dims ih =>
    cases p with
    | nil => simp at hl
    | cons t p =>
      have hn := hd n (by simp)
      refine .cons ?_ (ih (fun m hm => hd m (by simp [hm])) (by simpa using hl))
      have := Int.emod_lt_of_pos t (show (0 : ℤ) < n by omega)
      have := Int.emod_nonneg t (show (n : ℤ) ≠ 0 by omega)
      simp only
      omega

theorem flatTarget_eq {periodic : Bool} {dims : List ℕ} (hd : ∀ n ∈ dims, 0 < n) {p : List ℤ}
    (hl : p.length = dims.length)
    (hin : periodic = true ∨ List.Forall₂ (fun (n : ℕ) (t : ℤ) => 0 ≤ t ∧ t < n) dims p) :
    flatTarget periodic dims p = (cOrder dims (wrapIdx dims p) : ℤ) := by
  induction dims generalizing p with
  | nil => cases p with
    | nil => rfl
    | cons => simp at hl
  | cons n dims ih =>
    cases p with
    | nil => simp at hl
    | cons t p =>
      have hn := hd n (by simp)
      have ih' := ih (p := p) (fun m hm => hd m (by simp [hm])) (by simpa using hl)
        (by
          rcases hin with h | h
          · exact Or.inl h
          · cases h with
            | cons _ h => exact Or.inr h)
      unfold flatTarget at ih' ⊢
      rw [stridesOf_cons]
      simp only [List.zip_cons_cons, List.zipWith_cons_cons, List.sum_cons]
      rw [ih']
      have ht : (if periodic = true then wrapLoop t (n : ℤ) else t) = ((t % (n : ℤ)).toNat : ℤ) := by
        have h0 := Int.emod_nonneg t (show (n : ℤ) ≠ 0 by omega)
        rw [Int.toNat_of_nonneg h0]
        split
        · exact wrapLoop_eq (by omega) t
        · rename_i hp
          rcases hin with h | h
          · exact absurd h hp
          · cases h with
            | cons h _ => rw [Int.emod_eq_of_lt h.1 h.2]
      rw [ht]
      simp only [wrapIdx, cOrder, List.zipWith_cons_cons]
      push_cast
      rfl

section
variable {K : Type*} [Field K] [LinearOrder K] [IsStrictOrderedRing K] [FloorRing K]

theorem particleTargets_spec (g : Grid K) (hne : g.edges ≠ []) (hdims : ∀ n ∈ g.shape, 0 < n)
    (hassign : g.assign.length = g.size)
    (hdeg : ∀ r ∈ g.assign, r < g.size)
    (rg : List (ℤ × ℤ)) (hrg : rg.length = g.edges.length) (hle : ∀ a ∈ rg, a.1 ≤ a.2)
    (hin : g.periodic = true ∨
      List.Forall₂ (fun (n : ℕ) (a : ℤ × ℤ) => 0 ≤ a.1 ∧ a.2 ≤ n) g.shape rg) :
    ∃ T, particleTargets g (rg.map (·.1)) (rg.map (·.2)) = .ok T ∧ T.Pairwise (· < ·) ∧
      ∀ r, r ∈ T ↔ (∃ p, List.Forall₂ (fun (sr : ℤ × ℤ) (q : ℤ) => sr.1 ≤ q ∧ q < sr.2) rg p ∧
        g.assign[cOrder g.shape (wrapIdx g.shape p)]? = some r) ∧ g.degenerate[r]? = some false := by
  have hdeglen : g.degenerate.length = g.size := by
    simp [Grid.degenerate, ndindex_length, Grid.size]
  set pts := patchPoints (rg.map (·.1)) (rg.map (·.2))
        (patchSize (rg.map (·.1)) (rg.map (·.2))).toNat (rg.map (·.1)) with hpts
  have hmem : ∀ p, p ∈ pts ↔ List.Forall₂ (fun (sr : ℤ × ℤ) (q : ℤ) => sr.1 ≤ q ∧ q < sr.2) rg p :=
    mem_patchPoints rg (by intro h; rw [h] at hrg; simp at hrg; exact hne (List.length_eq_zero_iff.1 hrg.symm)) hle
  set A : List ℤ → ℕ := fun p => g.assign.getD (cOrder g.shape (wrapIdx g.shape p)) 0 with hA
  set step : List ℕ → List ℤ → List ℕ := fun acc p =>
    if g.degenerate.getD (A p) false then acc else bubble (A p) acc with hstep
  have hflat : ∀ p ∈ pts, flatTarget g.periodic g.shape p = (cOrder g.shape (wrapIdx g.shape p) : ℤ) ∧
      cOrder g.shape (wrapIdx g.shape p) < g.assign.length := by
    intro p hp
    have hf := (hmem p).1 hp
    have hlen : p.length = g.shape.length := by
      rw [← hf.length_eq, hrg]; simp [Grid.shape]
    refine ⟨flatTarget_eq hdims hlen ?_, ?_⟩
    · rcases hin with h | h
      · exact Or.inl h
      · right
        clear hdeg hassign hdeglen hpts hmem hp hdims hne hrg hlen hA hstep hle
        revert hf h
        generalize g.shape = sh
        intro hf h
        induction h generalizing p with
        | nil => cases hf; exact .nil
        | cons a _ ih =>
          cases hf with
          | cons b hb => exact .cons (by omega) (ih _ hb)
    · rw [hassign]
      exact cOrder_lt (wrapIdx_valid hdims hlen)
  have hAget : ∀ p ∈ pts, g.assign[cOrder g.shape (wrapIdx g.shape p)]? = some (A p) := by
    intro p hp
    have := (hflat p hp).2
    rw [List.getElem?_eq_getElem this, hA]
    simp only
    rw [List.getD_eq_getElem _ _ this]
  have hAmem : ∀ p ∈ pts, A p ∈ g.assign := fun p hp => List.mem_of_getElem? (hAget p hp)
  have hok : ∀ acc, ∀ p ∈ pts, patchStep g acc p = .ok (step acc p) := by
    intro acc p hp
    unfold patchStep
    rw [(hflat p hp).1, readAt_natCast, hAget p hp]
    have hlt : A p < g.degenerate.length := by rw [hdeglen]; exact hdeg _ (hAmem p hp)
    simp only [bind, Except.bind]
    rw [readAt_natCast, List.getElem?_eq_getElem hlt]
    simp only [hstep, List.getD_eq_getElem _ _ hlt]
    split <;> rfl
  have hfold := foldlM_ok pts hok []
  -- invariant of the patch loop
  have hinv : ∀ (l : List (List ℤ)) (acc : List ℕ), acc.Pairwise (· ≥ ·) →
      (l.foldl step acc).Pairwise (· ≥ ·) ∧
      ∀ a, a ∈ l.foldl step acc ↔ a ∈ acc ∨ ∃ p ∈ l, A p = a ∧ g.degenerate.getD (A p) false = false := by
    intro l
    induction l with
    | nil => intro acc h; exact ⟨h, by simp⟩
    | cons p l ih =>
      intro acc h
      rw [List.foldl_cons]
      by_cases hd : g.degenerate.getD (A p) false = true
      · have : step acc p = acc := by simp only [hstep, hd, if_true]
        rw [this]
        refine ⟨(ih acc h).1, fun a => ?_⟩
        rw [(ih acc h).2]
        constructor
        · rintro (h1 | ⟨q, hq, e1, e2⟩)
          · exact Or.inl h1
          · exact Or.inr ⟨q, by simp [hq], e1, e2⟩
        · rintro (h1 | ⟨q, hq, e1, e2⟩)
          · exact Or.inl h1
          · rcases List.mem_cons.1 hq with rfl | hq
            · rw [hd] at e2; simp at e2
            · exact Or.inr ⟨q, hq, e1, e2⟩
      · have : step acc p = bubble (A p) acc := by
          simp only [hstep]; rw [if_neg hd]
        rw [this]
        have hs := bubble_sorted (t := A p) h
        refine ⟨(ih _ hs).1, fun a => ?_⟩
        rw [(ih _ hs).2, mem_bubble]
        constructor
        · rintro ((h1 | h1) | ⟨q, hq, e1, e2⟩)
          · exact Or.inr ⟨p, by simp, h1.symm, by simpa using hd⟩
          · exact Or.inl h1
          · exact Or.inr ⟨q, by simp [hq], e1, e2⟩
        · rintro (h1 | ⟨q, hq, e1, e2⟩)
          · exact Or.inl (Or.inr h1)
          · rcases List.mem_cons.1 hq with rfl | hq
            · exact Or.inl (Or.inl e1.symm)
            · exact Or.inr ⟨q, hq, e1, e2⟩
  obtain ⟨hsorted, hmem2⟩ := hinv pts [] .nil
  have hrev : ((pts.foldl step []).reverse).Pairwise (· ≤ ·) := by
    rw [List.pairwise_reverse]; exact hsorted
  obtain ⟨T, hT, hT1, -, hT2⟩ := uniquePass_spec _ (-1) hrev (by intro a _; omega)
  refine ⟨T, ?_, hT1, ?_⟩
  · unfold particleTargets
    rw [hfold]
    exact hT
  · intro r
    rw [hT2, List.mem_reverse, hmem2]
    constructor
    · rintro ⟨h | ⟨p, hp, e1, e2⟩, -⟩
      · simp at h
      · refine ⟨⟨p, (hmem p).1 hp, by rw [hAget p hp, e1]⟩, ?_⟩
        have hlt : A p < g.degenerate.length := by rw [hdeglen]; exact hdeg _ (hAmem p hp)
        rw [List.getD_eq_getElem _ _ hlt] at e2
        rw [← e1, List.getElem?_eq_getElem hlt, e2]
    · rintro ⟨⟨p, hp, e1⟩, e2⟩
      have hp' := (hmem p).2 hp
      refine ⟨Or.inr ⟨p, hp', ?_, ?_⟩, by omega⟩
      · have := hAget p hp'
        rw [e1] at this
        exact (Option.some_inj.1 this).symm
      · have := hAget p hp'
        rw [e1] at this
        rw [← Option.some_inj.1 this, List.getD_eq_getElem?_getD, e2]; rfl

end

/-! ### the two output passes -/

/-- Particles sent to rank `r`, in order. -/
def sentList (T : List (List ℕ)) (r : ℕ) : List ℕ :=
  (List.range T.length).filter fun i => decide (r ∈ T.getD i [])

theorem countTargets_spec (nrank : ℕ) (T : List (List ℕ)) (hlt : ∀ t ∈ T, ∀ r ∈ t, r < nrank) :
    ∃ c, countTargets (List.replicate nrank 0) T = .ok c ∧ c.length = nrank ∧
      ∀ r < nrank, c.getD r 0 = (T.flatten).count r := by
  unfold countTargets
  have hlt' : ∀ r ∈ T.flatten, r < nrank := by
    intro r hr
    obtain ⟨t, ht, hr⟩ := List.mem_flatten.1 hr
    exact hlt t ht r hr
  have gen : ∀ (l : List ℕ) (acc : List ℕ), acc.length = nrank → (∀ r ∈ l, r < nrank) →
      ∃ c, l.foldlM (fun (acc : List ℕ) (t : ℕ) =>
        if t < acc.length then (Except.ok (acc.modify t (· + 1)) : Except FillErr (List ℕ))
        else .error .outOfBounds) acc = .ok c ∧ c.length = nrank ∧
        ∀ r < nrank, c.getD r 0 = acc.getD r 0 + l.count r := by
    intro l
    induction l with
    | nil => intro acc h _; exact ⟨acc, rfl, h, by simp⟩
    | cons a l ih =>
      intro acc h hl
      have ha := hl a (by simp)
      rw [List.foldlM_cons, if_pos (by omega)]
      obtain ⟨c, h1, h2, h3⟩ := ih (acc.modify a (· + 1)) (by simp [h]) (fun r hr => hl r (by simp [hr]))
      refine ⟨c, h1, h2, fun r hr => ?_⟩
      rw [h3 r hr, List.count_cons]
      have e1 : (acc.modify a (· + 1)).getD r 0 = acc.getD r 0 + if a = r then 1 else 0 := by
        rw [List.getD_eq_getElem _ _ (by simp; omega), List.getElem_modify,
          List.getD_eq_getElem _ _ (by omega)]
        split <;> simp
      rw [e1]
      by_cases h : a = r <;> simp [h] <;> omega
  obtain ⟨c, h1, h2, h3⟩ := gen T.flatten (List.replicate nrank 0) (by simp) hlt'
  refine ⟨c, h1, h2, fun r hr => ?_⟩
  rw [h3 r hr, List.getD_eq_getElem _ _ (by simpa using hr)]
  simp

theorem sentList_cons (t : List ℕ) (T : List (List ℕ)) (r : ℕ) :
    sentList (t :: T) r = (if r ∈ t then [0] else []) ++ (sentList T r).map (· + 1) := by
  unfold sentList
  rw [List.length_cons, List.range_succ_eq_map, List.filter_cons]
  have : (List.map Nat.succ (List.range T.length)).filter (fun i => decide (r ∈ (t :: T).getD i []))
      = ((List.range T.length).filter fun i => decide (r ∈ T.getD i [])).map (· + 1) := by
    rw [List.filter_map]
    rfl
  rw [this]
  by_cases h : r ∈ t <;> simp [h]

theorem count_flatten_eq_sentList (T : List (List ℕ)) (hnd : ∀ t ∈ T, t.Nodup) (r : ℕ) :
    T.flatten.count r = (sentList T r).length := by
  induction T with
  | nil => simp [sentList]
  | cons t T ih =>
    rw [List.flatten_cons, List.count_append, ih (fun t ht => hnd t (by simp [ht])), sentList_cons]
    by_cases h : r ∈ t
    · rw [List.count_eq_one_of_mem (hnd t (by simp)) h]; simp [h, Nat.add_comm]
    · rw [List.count_eq_zero_of_not_mem h]; simp [h]

/-- Writing at offset `sum of earlier block lengths + k` is writing into block `t` at `k`. -/
theorem set_flatten {α : Type*} (B : List (List α)) (t k : ℕ) (v : α) (b : List α)
    (ht : B[t]? = some b) (hk : k < b.length) :
    B.flatten.set (((B.take t).map List.length).sum + k) v = (B.set t (b.set k v)).flatten := by
  induction B generalizing t with
  | nil => simp at ht
  | cons a B ih =>
    cases t with
    | zero =>
      simp only [List.getElem?_cons_zero, Option.some_inj] at ht
      subst ht
      simp [List.set_append_left _ _ hk]
    | succ t =>
      simp only [List.getElem?_cons_succ] at ht
      simp only [List.take_succ_cons, List.map_cons, List.sum_cons, List.flatten_cons,
        List.set_cons_succ]
      rw [List.set_append_right _ _ (by omega), ← ih t ht]
      congr 2
      omega

theorem cumsumFrom_getElem? (acc : ℕ) (l : List ℕ) (t : ℕ) (ht : t < l.length) :
    (cumsumFrom acc l)[t]? = some (acc + (l.take (t + 1)).sum) := by
  induction l generalizing acc t with
  | nil => simp at ht
  | cons a l ih =>
    cases t with
    | zero => simp [cumsumFrom]
    | succ t =>
      simp only [cumsumFrom, List.getElem?_cons_succ]
      rw [ih _ _ (by simpa using ht)]
      simp [add_assoc]

theorem cumsumFrom_length (acc : ℕ) (l : List ℕ) : (cumsumFrom acc l).length = l.length := by
  induction l generalizing acc with
  | nil => rfl
  | cons a l ih => simp [cumsumFrom, ih]

theorem fillOffsets_getElem? (l : List ℕ) (t : ℕ) (ht : t ≤ l.length) :
    (fillOffsets l)[t]? = some (l.take t).sum := by
  unfold fillOffsets cumsum
  cases t with
  | zero => simp
  | succ t =>
    rw [List.getElem?_cons_succ, cumsumFrom_getElem? _ _ _ (by omega)]
    simp

theorem fillOffsets_length (l : List ℕ) : (fillOffsets l).length = l.length + 1 := by
  simp [fillOffsets, cumsum, cumsumFrom_length]

/-- Contents of the index array after the pairs `done` have been pushed: per rank the pushed particles
followed by unset slots. -/
def fillState (cnt : List ℕ) (done : List (ℕ × ℕ)) : List (List (Option ℕ)) :=
  cnt.zipIdx.map fun cr =>
    ((done.filter fun e => e.2 = cr.2).map fun e => some e.1) ++
      List.replicate (cr.1 - (done.filter fun e => e.2 = cr.2).length) none

/-- The offsets after the pairs `done` have been pushed. -/
def offState (cnt : List ℕ) (done : List (ℕ × ℕ)) : List ℕ :=
  (fillOffsets cnt).zipIdx.map fun or => or.1 + (done.filter fun e => e.2 = or.2).length

theorem push_all (cnt : List ℕ) (todo done : List (ℕ × ℕ))
    (hlt : ∀ e ∈ todo, e.2 < cnt.length)
    (hcap : ∀ r < cnt.length, ((done ++ todo).filter fun e => e.2 = r).length ≤ cnt.getD r 0) :
    todo.foldlM (fun st (e : ℕ × ℕ) => pushIndex e.1 st e.2)
        ((fillState cnt done).flatten, offState cnt done)
      = .ok ((fillState cnt (done ++ todo)).flatten, offState cnt (done ++ todo)) := by
  induction todo generalizing done with
  | nil => simp; rfl
  | cons e todo ih =>
    obtain ⟨i, t⟩ := e
    have ht : t < cnt.length := hlt (i, t) (by simp)
    rw [List.foldlM_cons]
    set d := (done.filter fun e => e.2 = t).length with hd
    have hcap_t := hcap t ht
    have hdlt : d < cnt.getD t 0 := by
      rw [List.filter_append] at hcap_t
      simp only [List.filter_cons, decide_true, if_true, List.length_append, List.length_cons] at hcap_t
      omega
    have hcnt : cnt.getD t 0 = cnt[t] := List.getD_eq_getElem _ _ ht
    have hoff : (offState cnt done)[t]? = some ((cnt.take t).sum + d) := by
      unfold offState
      rw [List.getElem?_map, List.getElem?_zipIdx, fillOffsets_getElem? _ _ (by omega)]
      simp [hd]
    have hblk : (fillState cnt done)[t]? = some
        (((done.filter fun e => e.2 = t).map fun e => some e.1) ++
          List.replicate (cnt[t] - d) none) := by
      unfold fillState
      rw [List.getElem?_map, List.getElem?_zipIdx, List.getElem?_eq_getElem ht]
      simp [hd]
    have hlens : (fillState cnt done).map List.length = cnt := by
      unfold fillState
      rw [List.map_map]
      apply List.ext_getElem?
      intro r
      rw [List.getElem?_map, List.getElem?_zipIdx]
      rcases Nat.lt_or_ge r cnt.length with hr | hr
      · rw [List.getElem?_eq_getElem hr]
        simp only [Option.map_some, Function.comp, List.length_append, List.length_map,
          List.length_replicate, Nat.zero_add, Option.some_inj]
        have := hcap r hr
        rw [List.filter_append, List.length_append, List.getD_eq_getElem _ _ hr] at this
        omega
      · rw [List.getElem?_eq_none hr]; rfl
    have hlens' : ((fillState cnt done).take t).map List.length = cnt.take t := by
      rw [List.map_take, hlens]
    have hflen : (fillState cnt done).flatten.length = cnt.sum := by
      rw [List.length_flatten, hlens]
    have hsum : (cnt.take t).sum + cnt[t] ≤ cnt.sum := by
      have : cnt.sum = (cnt.take t).sum + (cnt.drop t).sum := by
        rw [← List.sum_append, List.take_append_drop]
      rw [this, List.drop_eq_getElem_cons ht, List.sum_cons]
      omega
    have hpush : pushIndex i ((fillState cnt done).flatten, offState cnt done) t =
        .ok ((fillState cnt (done ++ [(i, t)])).flatten, offState cnt (done ++ [(i, t)])) := by
      unfold pushIndex
      simp only [hoff]
      rw [if_pos (by rw [hflen]; omega)]
      congr 2
      · rw [← hlens', set_flatten _ _ _ _ _ hblk (by simp [← hd]; omega)]
        congr 1
        apply List.ext_getElem?
        intro r
        have htl : t < (fillState cnt done).length := by
          simp [fillState, ht]
        rw [List.getElem?_set]
        by_cases hrt : t = r
        · subst hrt
          rw [if_pos rfl, if_pos htl]
          unfold fillState
          rw [List.getElem?_map, List.getElem?_zipIdx, List.getElem?_eq_getElem ht]
          simp only [Option.map_some, Nat.zero_add, Option.some_inj]
          rw [List.filter_append]
          simp only [List.filter_cons, decide_true, if_true, List.filter_nil, List.map_append,
            List.map_cons, List.map_nil, List.length_append, List.length_cons, List.length_nil,
            ← hd]
          rw [List.set_append_right _ _ (by simp [← hd])]
          simp only [List.length_map, ← hd, Nat.sub_self]
          obtain ⟨m, hm⟩ : ∃ m, cnt[t] - d = m + 1 := ⟨cnt[t] - d - 1, by omega⟩
          rw [hm, List.replicate_succ, List.set_cons_zero]
          have : cnt[t] - (d + (0 + 1)) = m := by omega
          rw [this]
          simp
        · rw [if_neg hrt]
          unfold fillState
          rw [List.getElem?_map, List.getElem?_map]
          rcases Nat.lt_or_ge r cnt.length with hr | hr
          · rw [List.getElem?_zipIdx, List.getElem?_eq_getElem hr]
            simp [List.filter_append, List.filter_cons, hrt]
          · rw [List.getElem?_zipIdx, List.getElem?_eq_none hr]; rfl
      · apply List.ext_getElem?
        intro r
        have htl : t < (offState cnt done).length := by
          simp [offState, fillOffsets_length]; omega
        rw [List.getElem?_set]
        by_cases hrt : t = r
        · subst hrt
          rw [if_pos rfl, if_pos htl]
          unfold offState
          rw [List.getElem?_map, List.getElem?_zipIdx, fillOffsets_getElem? _ _ (by omega)]
          simp [List.filter_append, List.filter_cons, ← hd]
          omega
        · rw [if_neg hrt]
          unfold offState
          rw [List.getElem?_map, List.getElem?_map]
          rcases Nat.lt_or_ge r (cnt.length + 1) with hr | hr
          · rw [List.getElem?_zipIdx, fillOffsets_getElem? _ _ (by omega)]
            simp [List.filter_append, List.filter_cons, hrt]
          · rw [List.getElem?_zipIdx, List.getElem?_eq_none (by rw [fillOffsets_length]; omega)]; rfl
    simp only [bind, Except.bind]
    rw [hpush]
    simp only
    rw [ih (done ++ [(i, t)]) (fun e he => hlt e (by simp [he])) (by
      intro r hr
      have := hcap r hr
      simpa using this)]
    simp

/-- All pushes of mode 1 in order, as (particle, rank) pairs. -/
def pushes (T : List (List ℕ)) : List (ℕ × ℕ) :=
  T.zipIdx.flatMap fun ti => ti.1.map fun r => (ti.2, r)

theorem foldlM_zipIdx_pushes (l : List (List ℕ × ℕ)) (st : List (Option ℕ) × List ℕ) :
    l.foldlM (fun st (ti : List ℕ × ℕ) => ti.1.foldlM (pushIndex ti.2) st) st =
      (l.flatMap fun ti => ti.1.map fun r => (ti.2, r)).foldlM
        (fun st (e : ℕ × ℕ) => pushIndex e.1 st e.2) st := by
  induction l generalizing st with
  | nil => rfl
  | cons a l ih =>
    rw [List.foldlM_cons, List.flatMap_cons, List.foldlM_append, List.foldlM_map]
    congr 1
    funext st'
    exact ih st'

theorem pushes_filter_aux (T : List (List ℕ)) (hnd : ∀ t ∈ T, t.Nodup) (r k : ℕ) :
    ((T.zipIdx k).flatMap fun ti => ti.1.map fun r => (ti.2, r)).filter (fun e => e.2 = r) =
      (sentList T r).map fun i => (k + i, r) := by
  induction T generalizing k with
  | nil => simp [sentList]
  | cons t T ih =>
    rw [List.zipIdx_cons, List.flatMap_cons, List.filter_append,
      ih (fun t ht => hnd t (by simp [ht])), sentList_cons, List.map_append]
    congr 1
    · have : ((t.map fun r' => (k, r')).filter fun e => e.2 = r) = (t.filter fun r' => r' = r).map fun r' => (k, r') := by
        rw [List.filter_map]; rfl
      rw [this]
      have hnt := hnd t (by simp)
      by_cases h : r ∈ t
      · have : t.filter (fun r' => r' = r) = [r] := by
          have h1 : t.filter (fun r' => decide (r' = r)) = List.replicate (t.count r) r := by
            rw [← List.filter_eq]
          rw [h1, List.count_eq_one_of_mem hnt h]; rfl
        simp [this, h]
      · have : t.filter (fun r' => r' = r) = [] := by
          rw [List.filter_eq_nil_iff]
          intro a ha hh
          simp only [decide_eq_true_eq] at hh
          exact h (hh ▸ ha)
        simp [this, h]
    · rw [List.map_map]
      apply List.map_congr_left
      intro i _
      simp [Nat.add_assoc, Nat.add_comm 1]

theorem pushes_filter (T : List (List ℕ)) (hnd : ∀ t ∈ T, t.Nodup) (r : ℕ) :
    (pushes T).filter (fun e => e.2 = r) = (sentList T r).map fun i => (i, r) := by
  have := pushes_filter_aux T hnd r 0
  simpa [pushes] using this

theorem fillIndices_spec (T : List (List ℕ)) (cnt : List ℕ) (hnd : ∀ t ∈ T, t.Nodup)
    (hlt : ∀ t ∈ T, ∀ r ∈ t, r < cnt.length)
    (hcnt : ∀ r < cnt.length, cnt.getD r 0 = (sentList T r).length) :
    fillIndices cnt T =
      .ok (((List.range cnt.length).flatMap fun r => sentList T r).map some) := by
  unfold fillIndices
  have h0 : (List.replicate ((fillOffsets cnt).getLastD 0) (none : Option ℕ), fillOffsets cnt) =
      ((fillState cnt []).flatten, offState cnt []) := by
    congr 1
    · have e1 : (fillOffsets cnt).getLastD 0 = cnt.sum := by
        rw [List.getLastD_eq_getLast?, List.getLast?_eq_getElem?, fillOffsets_length]
        simp only [Nat.add_sub_cancel]
        rw [fillOffsets_getElem? _ _ le_rfl]
        simp
      rw [e1]
      unfold fillState
      simp only [List.filter_nil, List.map_nil, List.length_nil, Nat.sub_zero, List.nil_append]
      have : (cnt.zipIdx.map fun cr => List.replicate cr.1 (none : Option ℕ)) =
          cnt.map fun c => List.replicate c none := by
        rw [show (fun cr : ℕ × ℕ => List.replicate cr.1 (none : Option ℕ)) =
          (fun c => List.replicate c none) ∘ Prod.fst from rfl, ← List.map_map, List.zipIdx_map_fst]
      rw [this]
      clear hlt hcnt e1 this
      induction cnt with
      | nil => rfl
      | cons a l ih => rw [List.sum_cons, List.map_cons, List.flatten_cons, ← ih, List.replicate_append_replicate]
    · unfold offState
      simp
  simp only
  rw [h0, foldlM_zipIdx_pushes]
  rw [← pushes, push_all cnt (pushes T) [] (by
      intro e he
      simp only [pushes, List.mem_flatMap, List.mem_map] at he
      obtain ⟨ti, h1, r, hr, rfl⟩ := he
      exact hlt ti.1 (List.fst_mem_of_mem_zipIdx h1) r hr)
    (by
      intro r hr
      rw [List.nil_append, pushes_filter T hnd, hcnt r hr]
      simp)]
  simp only [bind, Except.bind, pure, Except.pure, List.nil_append]
  congr 1
  unfold fillState
  rw [List.map_flatMap, List.flatMap]
  congr 1
  apply List.ext_getElem?
  intro r
  rw [List.getElem?_map, List.getElem?_map, List.getElem?_zipIdx]
  rcases Nat.lt_or_ge r cnt.length with hr | hr
  · rw [List.getElem?_eq_getElem hr, List.getElem?_range hr]
    simp only [Option.map_some, Nat.zero_add, Option.some_inj]
    rw [pushes_filter T hnd]
    have := hcnt r hr
    rw [List.getD_eq_getElem _ _ hr] at this
    simp [this]
  · rw [List.getElem?_eq_none hr, List.getElem?_eq_none (by simpa using hr)]; rfl

end Pmesh
