import Verif.Spec.CheckGrad
import Verif.Props.Field

namespace Pmesh

section
variable {W X ι : Type}

theorem Runs.mapRet {V R S : Type} (g : R → S) {ps : List (Prog V R)} {rs : List R} (h : Runs ps rs) :
    Runs (ps.map (Prog.mapRet g)) (rs.map g) := by
  induction h with
  | done rs =>
    have := Runs.done (V := V) (rs.map g)
    rw [List.map_map] at this ⊢
    exact this
  | step op vs ks rs hlen hne h ih =>
    have e : (List.zipWith (Prog.coll op) vs ks).map (Prog.mapRet g) = List.zipWith (Prog.coll op) vs
        (ks.map fun k ws => (k ws).mapRet g) := by
      rw [List.map_zipWith, List.zipWith_map_right]
      rfl
    rw [e]
    refine .step op _ _ _ (by simpa using hlen) hne ?_
    rw [List.map_map] at ih ⊢
    exact ih

theorem AllReturn.mapRet {V R S : Type} (g : R → S) {n : ℕ} {p : ℕ → Prog V R} {f : ℕ → R} (h : AllReturn n p f) :
    AllReturn n (fun r => (p r).mapRet g) (fun r => g (f r)) := by
  unfold AllReturn at *
  have := Runs.mapRet g h
  rwa [List.map_map, List.map_map] at this

/-! ## Rows -/

theorem rowRange_return {R : Type} {n : ℕ} (hn : 0 < n) (pos : ℕ → List (List ℝ)) {k : ℕ → ℕ → ℕ → Prog (GMsg W) R} {f : ℕ → R}
    (h : AllReturn n (fun r => k r ((List.range r).map fun q => (pos q).length).sum
      ((List.range (r + 1)).map fun q => (pos q).length).sum) f) :
    AllReturn n (fun r => rowRange r (pos r) (k r)) f := by
  unfold rowRange
  refine AllReturn.coll hn ?_
  refine AllReturn.coll hn ?_
  refine AllReturn.congr (fun r hr => ?_) (fun _ _ => rfl) h
  have e : ∀ m ≤ n, ((List.map GMsg.toCount ((List.range n).map fun r => GMsg.count (W := W) (pos r).length)).take m) =
      (List.range m).map fun q => (pos q).length := by
    intro m hm
    rw [List.map_map, ← List.map_take, List.take_range, min_eq_left hm]
    rfl
  rw [e r (by omega), e (r + 1) (by omega)]

theorem mem_pairIndex {n m : ℕ} {i : ℕ × ℕ} : i ∈ pairIndex n m ↔ i.1 < n ∧ i.2 < m := by
  obtain ⟨a, b⟩ := i
  simp [pairIndex]

/-- Every global row is on one rank. -/
theorem row_owner {n : ℕ} (len : ℕ → ℕ) {k : ℕ} (hk : k < ((List.range n).map len).sum) :
    ∃ r < n, ((List.range r).map len).sum ≤ k ∧ k < ((List.range (r + 1)).map len).sum := by
  induction n with
  | zero => simp at hk
  | succ n ih =>
    by_cases h : k < ((List.range n).map len).sum
    · obtain ⟨r, h1, h2⟩ := ih h
      exact ⟨r, by omega, h2⟩
    · exact ⟨n, by omega, by omega, hk⟩

theorem rowStart_mono (len : ℕ → ℕ) {a b : ℕ} (h : a ≤ b) : ((List.range a).map len).sum ≤ ((List.range b).map len).sum := by
  induction h with
  | refl => exact le_refl _
  | step _ ih => rw [List.range_succ, List.map_append, List.sum_append]; omega

theorem row_owner_unique (len : ℕ → ℕ) {k r q : ℕ} (h1 : ((List.range r).map len).sum ≤ k)
    (h2 : k < ((List.range (r + 1)).map len).sum) (h3 : ((List.range q).map len).sum ≤ k)
    (h4 : k < ((List.range (q + 1)).map len).sum) : q = r := by
  rcases lt_trichotomy q r with h | h | h
  · have := rowStart_mono len (show q + 1 ≤ r from h); omega
  · exact h
  · have := rowStart_mono len (show r + 1 ≤ q from h); omega

theorem sum_len_congr {n : ℕ} {len : ℕ → ℕ} {xs : ℕ → List (List ℝ)} {r : ℕ} (hr : r ≤ n) (h : ∀ r < n, (xs r).length = len r) :
    ((List.range r).map fun q => (xs q).length).sum = ((List.range r).map len).sum := by
  congr 1
  apply List.map_congr_left
  intro q hq
  rw [List.mem_range] at hq
  exact h q (by omega)

theorem rowInput_ok {n : ℕ} (hn : 0 < n) (len : ℕ → ℕ) (dim : ℕ) :
    (rowInput (W := W)).OK n (pairIndex ((List.range n).map len).sum dim) (RowsHold n len dim) where
  get := by
    intro xs v hx i hi
    obtain ⟨h1, h2⟩ := mem_pairIndex.1 hi
    obtain ⟨r0, hr0, hlo, hhi⟩ := row_owner len h1
    show AllReturn n (fun r => gradRowGet r (xs r) i) _
    unfold gradRowGet
    refine rowRange_return hn xs ?_
    refine AllReturn.coll hn ?_
    refine AllReturn.congr (fun _ _ => rfl) (fun r hr => ?_) (AllReturn.ret n _)
    congr 1
    rw [List.map_map]
    have hx0 := hx r0 hr0
    have hi0 : i.1 - ((List.range r0).map len).sum < len r0 := by
      rw [List.range_succ, List.map_append, List.sum_append] at hhi
      simp at hhi
      omega
    have hval := hx0.2.2 _ hi0 i.2 h2
    rw [show ((List.range r0).map len).sum + (i.1 - ((List.range r0).map len).sum) = i.1 by omega] at hval
    symm
    refine Eq.trans ?_ (sum_pick' hr0 fun _ => v i)
    congr 1
    apply List.map_congr_left
    intro r hr
    rw [List.mem_range] at hr
    show (if i.1 ≥ _ ∧ i.1 < _ then _ else (0 : ℝ)) = _
    rw [sum_len_congr (show r ≤ n by omega) (fun q hq => (hx q hq).1), sum_len_congr (show r + 1 ≤ n by omega) (fun q hq => (hx q hq).1)]
    by_cases e : r = r0
    · subst e
      rw [if_pos ⟨hlo, hhi⟩, if_pos rfl]
      exact hval
    · rw [if_neg e, if_neg]
      rintro ⟨h3, h4⟩
      exact e (row_owner_unique len hlo hhi h3 h4)
  perturb := by
    intro xs v hx i hi e
    obtain ⟨h1, h2⟩ := mem_pairIndex.1 hi
    obtain ⟨r0, hr0, hlo, hhi⟩ := row_owner len h1
    have hi0 : i.1 - ((List.range r0).map len).sum < len r0 := by
      rw [List.range_succ, List.map_append, List.sum_append] at hhi
      simp at hhi
      omega
    set j := i.1 - ((List.range r0).map len).sum with hj
    have hji : ((List.range r0).map len).sum + j = i.1 := by omega
    set xs' : ℕ → List (List ℝ) := fun r => if r = r0 then
      (xs r0).set j (((xs r0).getD j []).set i.2 (((xs r0).getD j []).getD i.2 0 + e)) else xs r with hxs'
    refine ⟨xs', ?_, ?_⟩
    · show AllReturn n (fun r => gradRowPerturb r (xs r) i e) _
      unfold gradRowPerturb
      refine rowRange_return hn xs ?_
      have hp : ∀ r < n, (if i.1 ≥ ((List.range r).map fun q => (xs q).length).sum ∧
          i.1 < ((List.range (r + 1)).map fun q => (xs q).length).sum then
          Prog.coll (R := Except GradErr (List (List ℝ))) .allreduce (GMsg.num (W := W)
            (((xs r).getD (i.1 - ((List.range r).map fun q => (xs q).length).sum) []).getD i.2 0 + e -
              ((xs r).getD (i.1 - ((List.range r).map fun q => (xs q).length).sum) []).getD i.2 0)) fun _ =>
            .ret (.ok ((xs r).set (i.1 - ((List.range r).map fun q => (xs q).length).sum)
              (((xs r).getD (i.1 - ((List.range r).map fun q => (xs q).length).sum) []).set i.2
                (((xs r).getD (i.1 - ((List.range r).map fun q => (xs q).length).sum) []).getD i.2 0 + e))))
          else .coll .allreduce (.num (0 - 0)) fun _ => .ret (.ok (xs r))) =
          .coll .allreduce (.num (if r = r0 then ((xs r).getD j []).getD i.2 0 + e - ((xs r).getD j []).getD i.2 0 else 0 - 0))
            fun _ => .ret (.ok (xs' r)) := by
        intro r hr
        rw [sum_len_congr (show r ≤ n by omega) (fun q hq => (hx q hq).1), sum_len_congr (show r + 1 ≤ n by omega) (fun q hq => (hx q hq).1)]
        by_cases h : r = r0
        · subst h
          rw [if_pos ⟨hlo, hhi⟩, if_pos rfl]
          simp only [hxs', if_true]
          rfl
        · rw [if_neg h, if_neg]
          · simp only [hxs', if_neg h]
          · rintro ⟨h3, h4⟩
            exact h (row_owner_unique len hlo hhi h3 h4)
      refine AllReturn.congr hp (fun _ _ => rfl) ?_
      exact AllReturn.coll hn (AllReturn.ret n _)
    · intro r hr
      obtain ⟨hl, hrow, hv⟩ := hx r hr
      by_cases h : r = r0
      · subst h
        simp only [hxs', if_true]
        refine ⟨by rw [List.length_set, hl], ?_, ?_⟩
        · intro row hmem
          rcases List.mem_or_eq_of_mem_set hmem with h | h
          · exact hrow row h
          · rw [h, List.length_set]
            have : (xs r).getD j [] ∈ xs r := by
              rw [List.getD_eq_getElem _ _ (by omega)]; exact List.getElem_mem _
            exact hrow _ this
        · intro a ha d hd
          have hlj : ((xs r).getD j []).length = dim := by
            apply hrow
            rw [List.getD_eq_getElem _ _ (by omega)]; exact List.getElem_mem _
          by_cases haj : a = j
          · rw [haj, hji]
            have e1 : ((xs r).set j (((xs r).getD j []).set i.2 (((xs r).getD j []).getD i.2 0 + e))).getD j [] =
                ((xs r).getD j []).set i.2 (((xs r).getD j []).getD i.2 0 + e) := by
              rw [List.getD_eq_getElem _ _ (by rw [List.length_set]; omega), List.getElem_set_self]
            rw [e1]
            by_cases hdi : d = i.2
            · subst hdi
              rw [List.getD_eq_getElem _ _ (by rw [List.length_set]; omega), List.getElem_set_self, hv j hi0 _ h2, hji]
              rw [show ((i.1, i.2) : ℕ × ℕ) = i from rfl, Function.update_self]
            · rw [Function.update_of_ne (fun h => hdi (congrArg Prod.snd h))]
              rw [List.getD_eq_getElem _ _ (by rw [List.length_set]; omega), List.getElem_set_ne (Ne.symm hdi)]
              rw [← List.getD_eq_getElem _ 0 (by omega), hv j hi0 d hd, hji]
          · have : (((List.range r).map len).sum + a, d) ≠ i := fun h => haj (by
              have := congrArg Prod.fst h
              dsimp only at this
              omega)
            rw [Function.update_of_ne this, ← hv a ha d hd]
            congr 1
            rw [List.getD_eq_getElem _ _ (by rw [List.length_set]; omega), List.getElem_set_ne (Ne.symm haj),
              ← List.getD_eq_getElem _ [] (by omega)]
      · simp only [hxs', if_neg h]
        refine ⟨hl, hrow, ?_⟩
        intro a ha d hd
        rw [hv a ha d hd, Function.update_of_ne]
        rintro rfl
        dsimp only at hlo hhi
        refine h (row_owner_unique len hlo hhi (by omega) ?_)
        rw [List.range_succ, List.map_append, List.sum_append]
        simp
        omega
  sub := by
    intro xs ys v u hx hy r hr
    obtain ⟨h1, h2, h3⟩ := hx r hr
    obtain ⟨h4, h5, h6⟩ := hy r hr
    refine ⟨?_, ?_, ?_⟩
    · show (List.zipWith _ _ _).length = _
      rw [List.length_zipWith, h1, h4, min_self]
    · intro row hmem
      obtain ⟨k, hk, rfl⟩ := List.mem_iff_getElem.1 hmem
      have hk' : k < len r := by
        have : (List.zipWith (List.zipWith (· - ·)) (xs r) (ys r)).length = len r := by
          rw [List.length_zipWith, h1, h4, min_self]
        rw [← this]; exact hk
      have : ∀ h, (List.zipWith (List.zipWith (· - ·)) (xs r) (ys r))[k]'h = List.zipWith (· - ·) ((xs r)[k]'(by omega)) ((ys r)[k]'(by omega)) :=
        fun h => List.getElem_zipWith
      show ((List.zipWith (List.zipWith (· - ·)) (xs r) (ys r))[k]'hk).length = dim
      rw [show (List.zipWith (List.zipWith (· - ·)) (xs r) (ys r))[k]'hk = _ from this hk, List.length_zipWith, h2 _ (List.getElem_mem _), h5 _ (List.getElem_mem _), min_self]
    · intro i hi d hd
      have e1 : (List.zipWith (List.zipWith (· - ·)) (xs r) (ys r)).getD i [] =
          List.zipWith (· - ·) ((xs r).getD i []) ((ys r).getD i []) := by
        rw [List.getD_eq_getElem _ _ (by rw [List.length_zipWith, h1, h4, min_self]; exact hi), List.getElem_zipWith,
          List.getD_eq_getElem _ _ (by omega), List.getD_eq_getElem _ _ (by omega)]
      show ((List.zipWith (List.zipWith (· - ·)) (xs r) (ys r)).getD i []).getD d 0 = _
      have hlx : ((xs r).getD i []).length = dim := by
        apply h2; rw [List.getD_eq_getElem _ _ (by omega)]; exact List.getElem_mem _
      have hly : ((ys r).getD i []).length = dim := by
        apply h5; rw [List.getD_eq_getElem _ _ (by omega)]; exact List.getElem_mem _
      rw [e1, List.getD_eq_getElem _ _ (by rw [List.length_zipWith, hlx, hly, min_self]; exact hd), List.getElem_zipWith,
        ← List.getD_eq_getElem _ 0 (by omega), ← List.getD_eq_getElem _ 0 (by omega), h3 i hi d hd, h6 i hi d hd]

/-! ## Fields -/

theorem fieldGet_return {t : Tiling} (ht : t.OK) (hfull : t.cshape = t.nmesh) {f : ℕ → List ℕ → ℝ} {v : List ℕ → ℝ}
    (hf : t.Holds f v) {i : List ℕ} (hi : ValidIndex t.cshape i) :
    AllReturn t.nrank (fun r => fieldGet (W := W) t r (f r) i) fun _ => .ok (v i) := by
  have hv : ValidIndex t.nmesh i := hfull ▸ hi
  have h := C27_cgetitem t ht (fun g => ((v g, 0) : Cx ℝ)) (fun r c => (f r c, 0)) (fun r hr c hc => by beta_reduce; rw [hf r hr c hc])
    .whole (i.map (Nat.cast : ℕ → ℤ)) (inRange_cast hv)
  rw [meant_cast hv] at h
  have h2 := AllReturn.mapRet (fun o : Option (Cx ℝ) => match o with
    | none => Except.error GradErr.index
    | some z => .ok z.1) (AllReturn.embed (f := GMsg.cx (W := W)) (g := GMsg.toCx) (fun _ => rfl) h)
  refine AllReturn.congr (fun _ _ => rfl) (fun r hr => ?_) h2
  simp [hi, getPart]

theorem fieldInput_ok {t : Tiling} (ht : t.OK) (hfull : t.cshape = t.nmesh) :
    (fieldInput (W := W) t).OK t.nrank (ndindex t.cshape) t.Holds where
  get := fun xs v hx i hi => fieldGet_return ht hfull hx (mem_ndindex.1 hi)
  perturb := by
    intro xs v hx i hi e
    have hi' := mem_ndindex.1 hi
    have hv : ValidIndex t.nmesh i := hfull ▸ hi'
    obtain ⟨f', h1, h2⟩ := C27_csetitem_real t ht (fun g => ((v g, 0) : Cx ℝ)) (fun r c => (xs r c, 0))
      (fun r hr c hc => by beta_reduce; rw [hx r hr c hc]) (i.map (Nat.cast : ℕ → ℤ)) (inRange_cast hv) (by rw [meant_cast hv]; exact hi') (v i + e, 0)
    rw [meant_cast hv] at h2
    refine ⟨fun r c => (f' r c).1, ?_, ?_⟩
    · refine AllReturn.andThen (fieldGet_return ht hfull hx hi') ?_
      have h3 := AllReturn.mapRet (fun o : Option ((List ℕ → Cx ℝ) × Cx ℝ) => match o with
        | none => Except.error GradErr.index
        | some z => .ok fun c => (z.1 c).1) (AllReturn.embed (f := GMsg.cx (W := W)) (g := GMsg.toCx) (fun _ => rfl) h1)
      exact h3
    · intro r hr c hc
      show (f' r c).1 = _
      rw [h2 r hr c hc]
      beta_reduce
      by_cases h : t.global r c = i
      · rw [if_pos h, h, Function.update_self]
      · rw [if_neg h, Function.update_of_ne h]
  sub := by
    intro xs ys v u hx hy r hr c hc
    show xs r c - ys r c = _
    rw [hx r hr c hc, hy r hr c hc]

end
end Pmesh
