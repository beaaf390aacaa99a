import Verif.Model.Window
import Verif.Lemmas.Index
import Verif.Spec.Window
import Mathlib.Tactic.Ring
import Mathlib.Tactic.Linarith
import Mathlib.Data.List.GetD

set_option linter.unusedSectionVars false

namespace Pmesh

/-! ### the `rel` odometer -/

def valRev (S : ℕ) : List ℕ → ℕ
  | [] => 0
  | a :: l => a + S * valRev S l

theorem valRev_append (S : ℕ) (l : List ℕ) (d : ℕ) : valRev S (l ++ [d]) = valRev S l + S ^ l.length * d := by
  induction l with
  | nil => simp [valRev]
  | cons a l ih => simp [valRev, ih, pow_succ]; ring

theorem cOrder_replicate (S : ℕ) : ∀ (n : ℕ) (rel : List ℕ), rel.length = n →
    cOrder (List.replicate n S) rel = valRev S rel.reverse := by
  intro n
  induction n with
  | zero => intro rel h; simp [List.length_eq_zero_iff.mp h, cOrder, valRev]
  | succ n ih =>
    intro rel h
    match rel, h with
    | d :: ds, h =>
      have h' : ds.length = n := by simpa using h
      simp only [List.replicate_succ, cOrder, List.prod_replicate, List.reverse_cons, valRev_append, List.length_reverse]
      rw [ih ds h', h']; ring

theorem relCarry_spec (S : ℕ) (hS : 0 < S) : ∀ (rest : List ℕ) (a : ℕ), (a ≤ S ∨ rest = []) →
    (∀ x ∈ rest.dropLast, x < S) →
    (relCarry S (a :: rest)).length = rest.length + 1 ∧
    valRev S (relCarry S (a :: rest)) = valRev S (a :: rest) ∧
    ∀ x ∈ (relCarry S (a :: rest)).dropLast, x < S := by
  intro rest
  induction rest with
  | nil => intro a _ _; simp [relCarry]
  | cons b rest ih =>
    intro a ha hr
    have ha' : a ≤ S := by simpa using ha
    have hb : b + 1 ≤ S ∨ rest = [] := by
      cases rest with
      | nil => right; rfl
      | cons c r => left; have := hr b (by simp); omega
    have hr' : ∀ x ∈ rest.dropLast, x < S := by
      intro x hx
      cases rest with
      | nil => simp at hx
      | cons c r => exact hr x (by simp only [List.dropLast_cons₂]; exact List.mem_cons_of_mem _ hx)
    rw [relCarry]
    split
    · next h =>
      obtain ⟨h1, h2, h3⟩ := ih (b + 1) hb hr'
      refine ⟨by simp [h1], by simp [valRev] at h2 ⊢; rw [h2, h]; ring, ?_⟩
      intro x hx
      have hne : relCarry S ((b + 1) :: rest) ≠ [] := by intro h; simp [h] at h1
      rw [List.dropLast_cons_of_ne_nil hne] at hx
      rcases List.mem_cons.mp hx with rfl | hx
      · exact hS
      · exact h3 x hx
    · next h =>
      obtain ⟨h1, h2, h3⟩ := ih b (by rcases hb with h | h <;> [left; right] <;> [omega; exact h]) hr'
      refine ⟨by simp [h1], by simp only [valRev] at h2 ⊢; rw [h2], ?_⟩
      intro x hx
      have hne : relCarry S (b :: rest) ≠ [] := by intro h; simp [h] at h1
      rw [List.dropLast_cons_of_ne_nil hne] at hx
      rcases List.mem_cons.mp hx with rfl | hx
      · omega
      · exact h3 x hx

theorem relNext_spec (S : ℕ) (hS : 0 < S) (rel : List ℕ) (hne : rel ≠ [])
    (ht : ∀ x ∈ rel.tail, x < S) :
    (relNext S rel).length = rel.length ∧
    valRev S (relNext S rel).reverse = valRev S rel.reverse + 1 ∧
    ∀ x ∈ (relNext S rel).tail, x < S := by
  unfold relNext
  match hrev : rel.reverse with
  | [] => simp at hrev; exact absurd hrev hne
  | a :: rest =>
    have hrel : rel = rest.reverse ++ [a] := by
      have := congrArg List.reverse hrev
      simpa using this
    have hlen : rel.length = rest.length + 1 := by rw [hrel]; simp
    have ha : a + 1 ≤ S ∨ rest = [] := by
      rcases List.eq_nil_or_concat rest with h | ⟨r, c, h⟩
      · right; exact h
      · left
        have : a ∈ rel.tail := by rw [hrel, h]; simp
        have := ht a this; omega
    have hr : ∀ x ∈ rest.dropLast, x < S := by
      intro x hx
      apply ht
      rw [hrel]
      rcases List.eq_nil_or_concat rest with h | ⟨r, c, h⟩
      · simp [h] at hx
      · subst h; simp at hx; simp [hx]
    obtain ⟨h1, h2, h3⟩ := relCarry_spec S hS rest (a + 1) ha hr
    refine ⟨by simp [h1, hlen], ?_, ?_⟩
    · simp only [List.reverse_reverse, h2]; simp only [valRev]; ring
    · intro x hx
      apply h3
      simpa [List.tail_reverse] using hx

theorem relLoop_eq_drop (S n : ℕ) (hS : 0 < S) (hn : 0 < n) : ∀ (fuel : ℕ) (rel : List ℕ), rel.length = n →
    (∀ x ∈ rel.tail, x < S) → valRev S rel.reverse ≤ S ^ n → S ^ n < valRev S rel.reverse + fuel →
    relLoop S fuel rel = some ((ndindex (List.replicate n S)).drop (valRev S rel.reverse)) := by
  intro fuel
  induction fuel with
  | zero => intro rel _ _ h h'; omega
  | succ fuel ih =>
    intro rel hl ht hv hf
    obtain ⟨d, ds, rfl⟩ : ∃ d ds, rel = d :: ds := by
      cases rel with
      | nil => simp at hl; omega
      | cons d ds => exact ⟨d, ds, rfl⟩
    simp only [List.tail_cons] at ht
    have hc : valRev S (d :: ds).reverse = cOrder (List.replicate n S) (d :: ds) := (cOrder_replicate S n _ hl).symm
    have hval : valRev S (d :: ds).reverse = valRev S ds.reverse + S ^ ds.length * d := by
      simp [valRev_append]
    have hn' : n = ds.length + 1 := by simpa using hl.symm
    have hvd : ValidIndex (List.replicate ds.length S) ds := by
      rw [ValidIndex]
      clear hc hval hv hf hl hn' ih
      induction ds with
      | nil => simp
      | cons a l ih => exact List.Forall₂.cons (ht a (by simp)) (ih (fun x hx => ht x (by simp [hx])))
    rw [relLoop]
    simp only [List.head?_cons, Option.some.injEq]
    split
    · next h =>
      have : (ndindex (List.replicate n S)).drop (valRev S (d :: ds).reverse) = [] := by
        apply List.drop_eq_nil_of_le
        rw [ndindex_length, List.prod_replicate, hval, h, hn', pow_succ]; omega
      rw [this]
    · next h =>
      have hd : d < S := by
        by_contra hcon
        have hd : S + 1 ≤ d := by omega
        have : S ^ ds.length * (S + 1) ≤ S ^ ds.length * d := Nat.mul_le_mul_left _ hd
        have hp : 0 < S ^ ds.length := Nat.pow_pos hS
        rw [hval, hn', pow_succ] at hv
        nlinarith
      have hvi : ValidIndex (List.replicate n S) (d :: ds) := by
        rw [hn', List.replicate_succ]; exact List.Forall₂.cons hd hvd
      obtain ⟨h1, h2, h3⟩ := relNext_spec S hS (d :: ds) (by simp) ht
      have hlt : valRev S (d :: ds).reverse < S ^ n := by
        have := cOrder_lt hvi
        rwa [← hc, List.prod_replicate] at this
      rw [ih (relNext S (d :: ds)) (h1.trans hl) h3 (by omega) (by omega), h2]
      have hget := ndindex_getElem? hvi
      rw [← hc] at hget
      simp only [Option.map_some, Option.some.injEq]
      obtain ⟨hlt', hge⟩ := List.getElem?_eq_some_iff.mp hget
      rw [List.drop_eq_getElem_cons hlt', hge]

/-- The `while(rel[0] != s2)` loop runs its body once for each point of the stencil, in C order, and ends. -/
theorem relLoop_eq (S n : ℕ) (hS : 0 < S) (hn : 0 < n) :
    relLoop S (S ^ n + 1) (List.replicate n 0) = some (ndindex (List.replicate n S)) := by
  have hz : ∀ m, valRev S (List.replicate m 0) = 0 := by
    intro m; induction m with
    | zero => rfl
    | succ m ih => simp [List.replicate_succ, valRev, ih]
  rw [relLoop_eq_drop S n hS hn _ _ (by simp)]
  · simp [hz]
  · intro x hx
    have := List.mem_of_mem_tail hx
    simp at this; omega
  · simp [hz]
  · simp [hz]

section
variable {K : Type*} [Field K] [LinearOrder K] [IsStrictOrderedRing K] [FloorRing K]

/-! ### the accesses as a product stencil -/

/-- Accesses of a product stencil: on each axis a list of (cell, value). -/
def stencilOps : List (PAxis K) → List (List (ℤ × K)) → List (ℤ × K)
  | ax :: axs, st :: sts => st.flatMap fun p =>
      if 0 ≤ p.1 ∧ p.1 < (ax.size : ℤ) then (stencilOps axs sts).map fun q => (p.1 * ax.stride + q.1, p.2 * q.2) else []
  | _, _ => [(0, 1)]

/-- One point of a product stencil. -/
def stencilPt : List (PAxis K) → List (List (ℤ × K)) → List ℕ → Option (ℤ × K)
  | ax :: axs, st :: sts, r :: rs =>
    let p := st.getD r (0, 0)
    if 0 ≤ p.1 ∧ p.1 < (ax.size : ℤ) then (stencilPt axs sts rs).map fun q => (p.1 * ax.stride + q.1, p.2 * q.2)
    else none
  | _, _, _ => some (0, 1)

theorem flatMap_range_getD {α β : Type*} (l : List α) (d : α) (f : α → List β) :
    (List.range l.length).flatMap (fun r => f (l.getD r d)) = l.flatMap f := by
  induction l with
  | nil => simp
  | cons a l ih =>
    rw [List.length_cons, List.range_succ_eq_map, List.flatMap_cons, List.flatMap_map]
    simp only [List.getD_cons_zero, List.getD_cons_succ, List.flatMap_cons]
    rw [← ih]

theorem filterMap_stencilPt (S : ℕ) : ∀ (axes : List (PAxis K)) (sts : List (List (ℤ × K))),
    sts.length = axes.length → (∀ st ∈ sts, st.length = S) →
    (ndindex (List.replicate axes.length S)).filterMap (stencilPt axes sts) = stencilOps axes sts := by
  intro axes
  induction axes with
  | nil =>
    intro sts h _
    have : sts = [] := List.length_eq_zero_iff.mp (by simpa using h)
    subst this
    simp [ndindex, stencilPt, stencilOps]
  | cons ax axs ih =>
    intro sts h hS
    match sts, h, hS with
    | st :: sts, h, hS =>
      have hih := ih sts (by simpa using h) (fun s hs => hS s (by simp [hs]))
      have hst : st.length = S := hS st (by simp)
      simp only [List.length_cons, List.replicate_succ, ndindex, List.filterMap_flatMap, stencilOps]
      rw [← flatMap_range_getD st (0, 0), hst]
      congr 1
      funext r
      rw [List.filterMap_map]
      split
      · next hc =>
        rw [← hih, List.map_filterMap]
        congr 1
        funext t
        simp only [Function.comp, stencilPt]
        rw [if_pos hc]
      · next hc =>
        apply List.filterMap_eq_nil_iff.mpr
        intro t _
        simp only [Function.comp, stencilPt]
        rw [if_neg hc]

/-! ### generic painter -/

/-- Wrapped cell of the generic code. -/
def genWrap (period : ℕ) (t : ℤ) : ℤ := if 0 < period then wrapLoop t period else t

/-- Stencil of one axis of the generic code. -/
def genStencil (k : Kern K) (w : Win K) (ax : PAxis K) (x : K) : List (ℤ × K) :=
  (List.range w.support).map fun (r : ℕ) =>
    (genWrap ax.period ((fillAxis k w ax x).1 + r), (fillAxis k w ax x).2.getD r 0)

theorem pointLoop_eq (k : Kern K) (w : Win K) : ∀ (axes : List (PAxis K)) (pos : List K) (rel : List ℕ),
    pos.length = axes.length → ValidIndex (List.replicate axes.length w.support) rel → ∀ (ind : ℤ) (kernel : K),
    pointLoop axes (List.zipWith (fillAxis k w) axes pos) rel ind kernel =
      (stencilPt axes (List.zipWith (genStencil k w) axes pos) rel).map fun q => (ind + q.1, kernel * q.2) := by
  intro axes
  induction axes with
  | nil =>
    intro pos rel h hv ind kernel
    simp [pointLoop, stencilPt]
  | cons ax axs ih =>
    intro pos rel h hv ind kernel
    match pos, h with
    | x :: xs, h =>
      match rel, hv with
      | r :: rs, hv =>
        rw [List.length_cons, List.replicate_succ] at hv
        obtain ⟨hr, hrs⟩ : r < w.support ∧ ValidIndex (List.replicate axs.length w.support) rs := by
          cases hv with | cons h1 h2 => exact ⟨h1, h2⟩
        simp only [List.zipWith_cons_cons, pointLoop, stencilPt]
        have hg : (genStencil k w ax x).getD r (0, 0) =
            (genWrap ax.period ((fillAxis k w ax x).1 + r), (fillAxis k w ax x).2.getD r 0) := by
          unfold genStencil
          rw [List.getD_eq_getElem _ _ (by simpa using hr)]
          simp
        rw [hg]
        have hw : (if 0 < ax.period then wrapLoop ((fillAxis k w ax x).1 + (r : ℤ)) ax.period
          else (fillAxis k w ax x).1 + (r : ℤ)) = genWrap ax.period ((fillAxis k w ax x).1 + r) := rfl
        rw [hw]
        generalize genWrap ax.period ((fillAxis k w ax x).1 + r) = t
        by_cases h1 : t ≥ ax.size
        · rw [if_pos h1, if_neg (by omega)]; rfl
        · rw [if_neg h1]
          by_cases h2 : t < 0
          · rw [if_pos h2, if_neg (by omega)]; rfl
          · rw [if_neg h2, if_pos (by omega), ih xs rs (by simpa using h) hrs]
            rw [Option.map_map]
            congr 1
            funext q
            simp only [Function.comp, Prod.mk.injEq]
            constructor <;> ring

theorem genericAccess_eq (k : Kern K) (w : Win K) (axes : List (PAxis K)) (pos : List K) (hne : axes ≠ [])
    (hS : 0 < w.support) (hl : pos.length = axes.length) :
    genericAccess k w axes pos = some (stencilOps axes (List.zipWith (genStencil k w) axes pos)) := by
  unfold genericAccess
  rw [relLoop_eq _ _ hS (List.length_pos_of_ne_nil hne)]
  simp only [Option.map_some, Option.some.injEq]
  rw [← filterMap_stencilPt w.support axes _ (by simp [hl])]
  · apply List.filterMap_congr
    intro rel hrel
    rw [pointLoop_eq k w axes pos rel hl (mem_ndindex.mp hrel)]
    cases stencilPt axes (List.zipWith (genStencil k w) axes pos) rel <;> simp
  · intro st hst
    obtain ⟨i, hi, rfl⟩ := List.getElem_of_mem hst
    simp [genStencil]

/-! ### tuned painters -/

/-- Stencil of one axis of the tuned code. -/
def tunedStencil (t : Tuned) (ax : PAxis K) (x : K) : List (ℤ × K) :=
  List.zip ((tunedSetup t ax x).1.map (tunedWrap ax.period)) (tunedSetup t ax x).2

theorem tunedSetup_length (t : Tuned) (ax : PAxis K) (x : K) :
    (tunedSetup t ax x).1.length = (Tuned.kern t : Kern K).native ∧
    (tunedSetup t ax x).2.length = (Tuned.kern t : Kern K).native := by
  cases t <;> simp only [tunedSetup, Tuned.kern, nearestK, linearK, quadraticK, cubicK] <;> split <;> simp

theorem paintTable_eq (t : Tuned) (n : ℕ) (hn : n = 1 ∨ n = 2 ∨ n = 3) :
    t.paintTable n = ndindex (List.replicate n (Tuned.kern t : Kern ℚ).native) := by
  rcases hn with rfl | rfl | rfl <;> cases t <;> decide +kernel

theorem readTable_eq (t : Tuned) (n : ℕ) (hn : n = 1 ∨ n = 2 ∨ n = 3) :
    t.readTable n = ndindex (List.replicate n (Tuned.kern t : Kern ℚ).native) := by
  rcases hn with rfl | rfl | rfl <;> cases t <;> decide +kernel

theorem native_rat (t : Tuned) : (Tuned.kern t : Kern ℚ).native = (Tuned.kern t : Kern K).native := by
  cases t <;> rfl

theorem getD_zip {α β : Type*} (l : List α) (l' : List β) (a : α) (b : β) (i : ℕ) (h : i < l.length)
    (h' : i < l'.length) : (List.zip l l').getD i (a, b) = (l.getD i a, l'.getD i b) := by
  rw [List.getD_eq_getElem _ _ (by simp; omega), List.getD_eq_getElem _ _ h, List.getD_eq_getElem _ _ h']
  simp

theorem tunedAccess_eq (S : ℕ) : ∀ (axes : List (PAxis K)) (ijk : List (List ℤ)) (v : List (List K)) (abc : List ℕ),
    ijk.length = axes.length → v.length = axes.length → (∀ l ∈ ijk, l.length = S) → (∀ l ∈ v, l.length = S) →
    ValidIndex (List.replicate axes.length S) abc →
    tunedAccess axes ijk v abc = stencilPt axes (List.zipWith List.zip ijk v) abc := by
  intro axes
  induction axes with
  | nil =>
    intro ijk v abc h1 h2 _ _ hv
    have e1 : ijk = [] := List.length_eq_zero_iff.mp (by simpa using h1)
    have e2 : v = [] := List.length_eq_zero_iff.mp (by simpa using h2)
    subst e1; subst e2
    simp [tunedAccess, tunedAddr, stencilPt]
  | cons ax axs ih =>
    intro ijk v abc h1 h2 h3 h4 hv
    match ijk, v, abc, h1, h2, h3, h4, hv with
    | i0 :: is, v0 :: vs, a :: as, h1, h2, h3, h4, hv =>
      rw [List.length_cons, List.replicate_succ] at hv
      obtain ⟨hr, hrs⟩ : a < S ∧ ValidIndex (List.replicate axs.length S) as := by
        cases hv with | cons h1 h2 => exact ⟨h1, h2⟩
      have hih := ih is vs as (by simpa using h1) (by simpa using h2) (fun l hl => h3 l (by simp [hl]))
        (fun l hl => h4 l (by simp [hl])) hrs
      have hi0 := h3 i0 (by simp)
      have hv0 := h4 v0 (by simp)
      simp only [List.zipWith_cons_cons, stencilPt]
      rw [getD_zip i0 v0 0 0 a (by omega) (by omega), ← hih]
      simp only [tunedAccess, List.zipWith_cons_cons, tunedAddr, List.prod_cons]
      by_cases hc : 0 > i0.getD a 0 ∨ (ax.size : ℤ) ≤ i0.getD a 0
      · rw [if_pos hc, if_neg (by omega)]; rfl
      · rw [if_neg hc, if_pos (by omega)]
        rw [Option.map_map, Option.map_map]; rfl

theorem zipWith_zip_cells (t : Tuned) (axes : List (PAxis K)) (pos : List K) :
    List.zipWith List.zip (tunedCells t axes pos) (tunedVals t axes pos) = List.zipWith (tunedStencil t) axes pos := by
  unfold tunedCells tunedVals
  induction axes generalizing pos with
  | nil => simp
  | cons ax axs ih =>
    cases pos with
    | nil => simp
    | cons x xs => simp only [List.zipWith_cons_cons, ih]; rfl

theorem tunedCells_len (t : Tuned) (axes : List (PAxis K)) (pos : List K) :
    ∀ l ∈ tunedCells t axes pos, l.length = (Tuned.kern t : Kern K).native := by
  intro l hl
  obtain ⟨i, hi, rfl⟩ := List.getElem_of_mem hl
  simp [tunedCells, (tunedSetup_length t _ _).1]

theorem tunedVals_len (t : Tuned) (axes : List (PAxis K)) (pos : List K) :
    ∀ l ∈ tunedVals t axes pos, l.length = (Tuned.kern t : Kern K).native := by
  intro l hl
  obtain ⟨i, hi, rfl⟩ := List.getElem_of_mem hl
  simp [tunedVals, (tunedSetup_length t _ _).2]

theorem tunedStencil_len (t : Tuned) (axes : List (PAxis K)) (pos : List K) :
    ∀ l ∈ List.zipWith (tunedStencil t) axes pos, l.length = (Tuned.kern t : Kern K).native := by
  intro l hl
  obtain ⟨i, hi, rfl⟩ := List.getElem_of_mem hl
  simp [tunedStencil, (tunedSetup_length t _ _).2, (tunedSetup_length t _ _).1]

theorem tunedReads_eq (t : Tuned) (axes : List (PAxis K)) (pos : List K)
    (hn : axes.length = 1 ∨ axes.length = 2 ∨ axes.length = 3) (hl : pos.length = axes.length) :
    tunedReads t axes pos = stencilOps axes (List.zipWith (tunedStencil t) axes pos) := by
  unfold tunedReads
  rw [readTable_eq t _ hn, native_rat (K := K),
    ← filterMap_stencilPt _ axes _ (by simp [hl]) (tunedStencil_len t axes pos)]
  apply List.filterMap_congr
  intro abc habc
  rw [tunedAccess_eq (Tuned.kern t : Kern K).native axes _ _ _ (by simp [tunedCells, hl]) (by simp [tunedVals, hl])
    (tunedCells_len t axes pos) (tunedVals_len t axes pos) (mem_ndindex.mp habc), zipWith_zip_cells]

theorem stencilOps_weight (ax : PAxis K) (axs : List (PAxis K)) (st : List (ℤ × K)) (sts : List (List (ℤ × K))) (w : K) :
    stencilOps (ax :: axs) (st.map (fun p => (p.1, p.2 * w)) :: sts) =
      (stencilOps (ax :: axs) (st :: sts)).map fun q => (q.1, w * q.2) := by
  simp only [stencilOps, List.flatMap_map, List.map_flatMap]
  congr 1
  funext p
  split
  · rw [List.map_map]
    apply List.map_congr_left
    intro q _
    simp only [Function.comp, Prod.mk.injEq, true_and]
    ring
  · simp

theorem tunedWrites_eq (t : Tuned) (axes : List (PAxis K)) (pos : List K) (w : K)
    (hn : axes.length = 1 ∨ axes.length = 2 ∨ axes.length = 3) (hl : pos.length = axes.length) :
    tunedWrites t axes pos w =
      (stencilOps axes (List.zipWith (tunedStencil t) axes pos)).map fun q => (q.1, w * q.2) := by
  match axes, pos, hn, hl with
  | [], _, hn, _ => simp at hn
  | ax :: axs, x :: xs, hn, hl =>
    unfold tunedWrites
    rw [paintTable_eq t _ hn, native_rat (K := K)]
    have hv : tunedVals t (ax :: axs) (x :: xs) = (tunedSetup t ax x).2 :: tunedVals t axs xs := rfl
    have hc : tunedCells t (ax :: axs) (x :: xs) =
      (tunedSetup t ax x).1.map (tunedWrap ax.period) :: tunedCells t axs xs := rfl
    rw [List.zipWith_cons_cons, ← stencilOps_weight]
    rw [← filterMap_stencilPt (Tuned.kern t : Kern K).native (ax :: axs) _ (by simp at hl ⊢; omega)]
    · apply List.filterMap_congr
      intro abc habc
      rw [hv]
      simp only
      rw [tunedAccess_eq (Tuned.kern t : Kern K).native (ax :: axs) _ _ _ (by simp [tunedCells] at hl ⊢; omega)
        (by simp [tunedVals] at hl ⊢; omega) (tunedCells_len t _ _) _ (mem_ndindex.mp habc)]
      · rw [hc, List.zipWith_cons_cons, zipWith_zip_cells]
        congr 1
        unfold tunedStencil
        rw [List.zip_map_right]
        congr 1
      · intro l hl'
        rcases List.mem_cons.mp hl' with rfl | h
        · simp [(tunedSetup_length t _ _).2]
        · exact tunedVals_len t axs xs l h
    · intro l hl'
      rcases List.mem_cons.mp hl' with rfl | h
      · simp [tunedStencil, (tunedSetup_length t _ _).2, (tunedSetup_length t _ _).1]
      · exact tunedStencil_len t axs xs l h

/-! ### all painters -/

/-- Window used for a particle. -/
def partWin (P : Painter K) (h : K) : Win K := windowInfo P.kern.native (P.support * h)

/-- Stencil of a painter on one axis. -/
def axisStencil (P : Painter K) (h : K) (ax : PAxis K) (x : K) : List (ℤ × K) :=
  match fastMethod P (partWin P h) with
  | some t => tunedStencil t ax x
  | none => genStencil P.kern (partWin P h) ax x

theorem windowInfo_support_pos {native : ℕ} (hn : 0 < native) (s : K) : 0 < (windowInfo native s).support := by
  unfold windowInfo
  simp only
  split
  · exact hn
  · next h =>
    have hs : 0 < s := not_le.mp h
    have h0 : 0 ≤ ⌊s⌋ := Int.floor_nonneg.mpr hs.le
    by_cases hf : 0 < ⌊s⌋.toNat
    · omega
    · have : ⌊s⌋.toNat = 0 := by omega
      rw [this]
      simp [hs.ne']

theorem fastMethod_dim {P : Painter K} {w : Win K} {t : Tuned} (h : fastMethod P w = some t) :
    P.tuned = some t ∧ (P.axes.length = 1 ∨ P.axes.length = 2 ∨ P.axes.length = 3) ∧
    w.support = (Tuned.kern t : Kern K).native ∧ ∀ ax ∈ P.axes, ax.order ≤ 1 := by
  unfold fastMethod at h
  cases ht : P.tuned with
  | none => simp [ht] at h
  | some t' =>
    simp only [ht] at h
    split at h
    · simp at h
    · next h1 =>
      split at h
      · simp at h
      · next h2 =>
        split at h
        · simp at h
        · next h3 =>
          split at h
          · next h4 =>
            have : t' = t := by simpa using h
            subst this
            refine ⟨rfl, h4, not_not.mp h3, ?_⟩
            intro ax hax
            rw [List.take_of_length_le (by omega)] at h1
            simp only [List.any_eq_true, decide_eq_true_eq, not_exists, not_and, not_lt] at h1
            exact h1 ax hax
          · simp at h

theorem paintWrites_eq (P : Painter K) (pos : List K) (weight h : K) (hn : 0 < P.kern.native) (hne : P.axes ≠ [])
    (hl : pos.length = P.axes.length) :
    paintWrites P pos weight h =
      some ((stencilOps P.axes (List.zipWith (axisStencil P h) P.axes pos)).map fun q => (q.1, weight * q.2)) := by
  unfold paintWrites axisStencil partWin
  simp only
  cases hf : fastMethod P (windowInfo P.kern.native (↑P.support * h)) with
  | none =>
    simp only
    rw [genericAccess_eq _ _ _ _ hne (windowInfo_support_pos hn _) hl]
    rfl
  | some t =>
    simp only
    rw [tunedWrites_eq t _ _ _ (fastMethod_dim hf).2.1 hl]

theorem readoutReads_eq (P : Painter K) (pos : List K) (h : K) (hn : 0 < P.kern.native) (hne : P.axes ≠ [])
    (hl : pos.length = P.axes.length) :
    readoutReads P pos h = some (stencilOps P.axes (List.zipWith (axisStencil P h) P.axes pos)) := by
  unfold readoutReads axisStencil partWin
  simp only
  cases hf : fastMethod P (windowInfo P.kern.native (↑P.support * h)) with
  | none => simp only; rw [genericAccess_eq _ _ _ _ hne (windowInfo_support_pos hn _) hl]
  | some t => simp only; rw [tunedReads_eq t _ _ (fastMethod_dim hf).2.1 hl]

/-! ### the effect on the array -/

/-- Weight of a stencil in one cell. -/
def cw (st : List (ℤ × K)) (c : ℤ) : K := (st.map fun p => if p.1 = c then p.2 else 0).sum

def cwProd : List (List (ℤ × K)) → List ℕ → K
  | st :: sts, c :: cs => cw st c * cwProd sts cs
  | _, _ => 1

theorem sum_range_ite (n : ℕ) (t : ℤ) (v : K) (G : ℤ → K) :
    ((List.range n).map fun (c : ℕ) => (if t = (c : ℤ) then v else 0) * G c).sum =
      if 0 ≤ t ∧ t < n then v * G t else 0 := by
  induction n with
  | zero => simp
  | succ n ih =>
    rw [List.range_succ, List.map_append, List.sum_append, ih]
    simp only [List.map_cons, List.map_nil, List.sum_cons, List.sum_nil, add_zero]
    by_cases h : t = n
    · subst h; simp
    · rw [if_neg h]
      by_cases h' : 0 ≤ t ∧ t < n
      · rw [if_pos h', if_pos (by push_cast; omega)]; ring
      · rw [if_neg h', if_neg (by push_cast; omega)]; ring

theorem sum_map_add {α : Type*} (l : List α) (f g : α → K) :
    (l.map fun x => f x + g x).sum = (l.map f).sum + (l.map g).sum := by
  induction l with
  | nil => simp
  | cons a l ih => simp only [List.map_cons, List.sum_cons, ih]; ring

theorem sum_cw (n : ℕ) (st : List (ℤ × K)) (G : ℤ → K) :
    ((List.range n).map fun (c : ℕ) => cw st c * G c).sum =
      (st.map fun p => if 0 ≤ p.1 ∧ p.1 < (n : ℤ) then p.2 * G p.1 else 0).sum := by
  induction st with
  | nil => simp [cw]
  | cons p st ih =>
    simp only [cw, List.map_cons, List.sum_cons, add_mul] at ih ⊢
    rw [sum_map_add, ih, sum_range_ite]

theorem sum_flatMap' {α β : Type*} (l : List α) (f : α → List β) (g : β → K) :
    ((l.flatMap f).map g).sum = (l.map fun a => ((f a).map g).sum).sum := by
  induction l with
  | nil => simp
  | cons a l ih => simp [ih]

theorem sum_mul_left' {α : Type*} (l : List α) (r : K) (f : α → K) :
    (l.map fun b => r * f b).sum = r * (l.map f).sum := by
  induction l with
  | nil => simp
  | cons a l ih => simp [ih, mul_add]

/-- Accesses of a product stencil, seen from the array: a sum over its elements. -/
theorem sum_stencilOps : ∀ (axes : List (PAxis K)) (sts : List (List (ℤ × K))), sts.length = axes.length →
    ∀ f : ℤ → K, ((stencilOps axes sts).map fun p => p.2 * f p.1).sum =
      ((ndindex (shapeOf axes)).map fun c => cwProd sts c * f (elemAddr axes c)).sum := by
  intro axes
  induction axes with
  | nil =>
    intro sts h f
    have : sts = [] := List.length_eq_zero_iff.mp (by simpa using h)
    subst this
    simp [stencilOps, ndindex, shapeOf, cwProd, elemAddr]
  | cons ax axs ih =>
    intro sts h f
    match sts, h with
    | st :: sts, h =>
      have hih := ih sts (by simpa using h)
      simp only [stencilOps, shapeOf, List.map_cons, ndindex]
      rw [sum_flatMap', sum_flatMap']
      have hR : ∀ a : ℕ, (List.map (fun c => cwProd (st :: sts) c * f (elemAddr (ax :: axs) c))
          (List.map (fun t => a :: t) (ndindex (List.map (·.size) axs)))).sum =
          cw st a * ((stencilOps axs sts).map fun p => p.2 * f (a * ax.stride + p.1)).sum := by
        intro a
        rw [hih (fun z => f (a * ax.stride + z)), List.map_map, ← sum_mul_left']
        congr 1
        apply List.map_congr_left
        intro c _
        simp only [Function.comp, cwProd, elemAddr]
        ring
      simp only [hR]
      rw [sum_cw ax.size st (fun a => ((stencilOps axs sts).map fun p => p.2 * f (a * ax.stride + p.1)).sum)]
      congr 1
      apply List.map_congr_left
      intro p _
      split
      · rw [List.map_map, ← sum_mul_left']
        congr 1
        apply List.map_congr_left
        intro q _
        simp only [Function.comp]
        ring
      · simp

theorem foldl_memAdd (ws : List (ℤ × K)) (mem : ℤ → K) (a : ℤ) :
    ws.foldl (fun mem p => memAdd mem p.1 p.2) mem a = mem a + (ws.map fun p => if p.1 = a then p.2 else 0).sum := by
  induction ws generalizing mem with
  | nil => simp
  | cons p ws ih =>
    simp only [List.foldl_cons, ih, List.map_cons, List.sum_cons]
    unfold memAdd
    by_cases h : p.1 = a
    · subst h; simp; ring
    · rw [Function.update_of_ne (Ne.symm h), if_neg h]; ring

theorem foldl_add_eq (rs : List (ℤ × K)) (mem : ℤ → K) (v : K) :
    rs.foldl (fun value a => value + a.2 * mem a.1) v = v + (rs.map fun a => a.2 * mem a.1).sum := by
  induction rs generalizing v with
  | nil => simp
  | cons p rs ih => simp only [List.foldl_cons, ih, List.map_cons, List.sum_cons]; ring

theorem mem_stencilOps_addr : ∀ (axes : List (PAxis K)) (sts : List (List (ℤ × K))), sts.length = axes.length →
    ∀ p ∈ stencilOps axes sts, ∃ c, ValidIndex (shapeOf axes) c ∧ p.1 = elemAddr axes c := by
  intro axes
  induction axes with
  | nil =>
    intro sts h p hp
    have : sts = [] := List.length_eq_zero_iff.mp (by simpa using h)
    subst this
    simp [stencilOps] at hp
    exact ⟨[], List.Forall₂.nil, by simp [hp, elemAddr]⟩
  | cons ax axs ih =>
    intro sts h p hp
    match sts, h with
    | st :: sts, h =>
      simp only [stencilOps, List.mem_flatMap] at hp
      obtain ⟨q, _, hp⟩ := hp
      split at hp
      · next hc =>
        obtain ⟨r, hr, rfl⟩ := List.mem_map.mp hp
        obtain ⟨c, hcv, hce⟩ := ih sts (by simpa using h) r hr
        have hq : q.1.toNat < ax.size := by omega
        refine ⟨q.1.toNat :: c, List.Forall₂.cons hq hcv, ?_⟩
        simp only [elemAddr, hce]
        congr 2
        omega
      · simp at hp

/-- Increment of one memory cell by painting one particle. -/
theorem paintOne_eq (P : Painter K) (mem : ℤ → K) (pos : List K) (weight h : K) (hn : 0 < P.kern.native)
    (hne : P.axes ≠ []) (hl : pos.length = P.axes.length) :
    paintOne P mem pos weight h = some fun a => mem a + weight *
      ((ndindex (shapeOf P.axes)).map fun c =>
        cwProd (List.zipWith (axisStencil P h) P.axes pos) c * (if elemAddr P.axes c = a then 1 else 0)).sum := by
  unfold paintOne
  rw [paintWrites_eq P pos weight h hn hne hl]
  simp only [Option.map_some, Option.some.injEq]
  funext a
  rw [foldl_memAdd, ← sum_stencilOps P.axes _ (by simp [hl]) (fun b => if b = a then 1 else 0), ← sum_mul_left',
    List.map_map]
  congr 2
  apply List.map_congr_left
  intro q _
  simp only [Function.comp]
  split <;> simp

theorem readoutOne_eq (P : Painter K) (mem : ℤ → K) (pos : List K) (h : K) (hn : 0 < P.kern.native)
    (hne : P.axes ≠ []) (hl : pos.length = P.axes.length) :
    readoutOne P mem pos h = some ((ndindex (shapeOf P.axes)).map fun c =>
        cwProd (List.zipWith (axisStencil P h) P.axes pos) c * mem (elemAddr P.axes c)).sum := by
  unfold readoutOne
  rw [readoutReads_eq P pos h hn hne hl]
  simp only [Option.map_some, Option.some.injEq]
  rw [foldl_add_eq, zero_add, sum_stencilOps P.axes _ (by simp [hl])]

end
end Pmesh
