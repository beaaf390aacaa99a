import Verif.Model.Helpers
import Verif.Spec.Layout
import Verif.Lemmas.Spmd
import Verif.Lemmas.OldPM
import Mathlib.Algebra.Field.Rat
import Mathlib.Tactic.NormNum

/-!
# C96 and C97: small collective helpers

C96: a function decorated with `FromRoot` gives all ranks the value that rank 0 computes.  If it raises on rank 0 the other
ranks wait forever.

C97: `ParticleMeshVectorSpace.dot` of arrays is the inner product over all ranks.  For arrays of positions, with one row for each
particle and one column for each axis, it never is.
-/

namespace Pmesh

/-- **C96.**  `func` is called on rank 0 only: whatever it would do on other ranks, all ranks get the value of rank 0. -/
theorem C96_value {E A : Type} {n : ℕ} (hn : 0 < n) (func : ℕ → Except E A) {a : A} (h : func 0 = .ok a) :
    AllReturn n (fun r => fromRoot r (func r)) fun _ => .ok (some a) := by
  refine AllReturn.congr (p' := fun r => .coll .bcast (if r = 0 then some a else none) fun vs => .ret (.ok (vs.getD 0 none)))
    (fun r _ => ?_) (fun _ _ => rfl) ?_
  · unfold fromRoot
    by_cases hr : r = 0
    · subst hr; simp [h]
    · simp [hr]
  · refine AllReturn.coll hn ?_
    refine AllReturn.congr (fun _ _ => rfl) (fun r _ => ?_) (AllReturn.ret n _)
    rw [List.getD_eq_getElem _ _ (by simpa using hn)]
    simp

example := C96_value (n := 3) (E := String) (by decide) (fun r => if r = 0 then .ok 7 else .error "file not found") rfl

/-- **C96, the exception.**  On a single rank the caller sees the exception; on more ranks the program hangs. -/
theorem C96_violated_exception {E A : Type} {n : ℕ} (func : ℕ → Except E A) {e : E} (h : func 0 = .error e) :
    AllReturn 1 (fun r => fromRoot r (func r)) (fun _ => .error e) ∧
      (2 ≤ n → Deadlocks n fun r => fromRoot r (func r)) := by
  constructor
  · refine AllReturn.congr (fun r hr => ?_) (fun _ _ => rfl) (AllReturn.ret 1 _)
    obtain rfl : r = 0 := by omega
    simp [fromRoot, h]
  · intro hn
    refine Deadlocks.of_mixed (a := 0) (b := 1) (by omega) (by omega) (r := .error e) (op := .bcast) (v := none) ?_ ?_
      (k := fun vs => .ret (.ok (vs.getD 0 none)))
    · simp [fromRoot, h]
    · simp [fromRoot]

example := C96_violated_exception (A := ℕ) (n := 2) (fun _ => .error "file not found") rfl

section
variable {K : Type} [Field K]

theorem total_num (l : List K) (hl : l ≠ []) : DotRes.total (l.map DotRes.num) = some (.num l.sum) := by
  obtain ⟨x, l, rfl⟩ := List.exists_cons_of_ne_nil hl
  show List.foldl _ _ _ = _
  clear hl
  induction l generalizing x with
  | nil => simp
  | cons y l ih => 
    simp only [List.map_cons, List.foldl_cons]
    rw [ih (x + y)]
    simp [add_assoc]

theorem total_mat {vs : List (DotRes K)} (h : ∀ v ∈ vs, ∃ m, v = .mat m) (x : K) : DotRes.total vs ≠ some (.num x) := by
  cases vs with
  | nil => simp [DotRes.total]
  | cons v vs =>
    obtain ⟨m, rfl⟩ := h v (by simp)
    replace h := fun w hw => h w (List.mem_cons_of_mem _ hw)
    show List.foldl _ _ _ ≠ _
    induction vs generalizing m with
    | nil => simp
    | cons w vs ih =>
      obtain ⟨m', rfl⟩ := h w (by simp)
      exact ih _ fun w hw => h w (List.mem_cons_of_mem _ hw)

/-- **C97.**  For arrays with one number for each particle `dot` is the sum over the particles of all ranks. -/
theorem C97_vectors_partial {n : ℕ} (hn : 0 < n) (q : ℕ → ℕ) (a b : ℕ → List K) (ha : ∀ r < n, (a r).length = q r)
    (hb : ∀ r < n, (b r).length = q r) :
    AllReturn n (fun r => vsDot (q r) (.vec (a r)) (.vec (b r))) fun _ =>
      .ok (.num ((List.range n).map fun r => dot (a r) (b r)).sum) := by
  refine AllReturn.congr (p' := fun r => .coll .allreduce (.num (dot (a r) (b r))) fun vs => match DotRes.total vs with
      | none => .ret (.error .type)
      | some y => .ret (.ok y)) (fun r hr => ?_) (fun _ _ => rfl) ?_
  · simp [vsDot, NdArr.len, NdArr.dot, ha r hr, hb r hr, dot]
    rfl
  · refine AllReturn.coll hn ?_
    have : (List.range n).map (fun r => DotRes.num (dot (a r) (b r))) = ((List.range n).map fun r => dot (a r) (b r)).map .num := by
      rw [List.map_map]; rfl
    rw [this, total_num _ (by simp; omega)]
    exact AllReturn.ret n _

example := C97_vectors_partial (K := ℚ) (n := 2) (by decide) (fun r => r) (fun r => if r = 0 then [] else [3])
  (fun r => if r = 0 then [] else [5]) (by decide) (by decide)

/-- **C97, positions.**  Arrays of positions have `d` columns.  If no rank has exactly `d` particles, all ranks raise ValueError; if
some ranks have, the others raise and those wait forever; in no case is the result a number. -/
theorem C97_violated_positions {n : ℕ} (q : ℕ → ℕ) (d : ℕ) (a b : ℕ → List (List K)) (ha : ∀ r < n, (a r).length = q r)
    (hb : ∀ r < n, (b r).length = q r) :
    ((∀ r < n, q r ≠ d) → AllReturn n (fun r => vsDot (q r) (.mat d (a r)) (.mat d (b r))) fun _ => .error .value) ∧
      ((∃ r < n, q r = d) → (∃ r < n, q r ≠ d) → Deadlocks n fun r => vsDot (q r) (.mat d (a r)) (.mat d (b r))) ∧
      ∀ f, AllReturn n (fun r => vsDot (q r) (.mat d (a r)) (.mat d (b r))) f → ∀ r < n, ∀ x, f r ≠ .ok (.num x) := by
  have hne : ∀ r < n, q r ≠ d → vsDot (q r) (.mat d (a r)) (.mat d (b r)) = .ret (.error .value) := by
    intro r hr h
    simp [vsDot, NdArr.len, NdArr.dot, ha r hr, hb r hr, Ne.symm h]
  have heq : ∀ r < n, q r = d → ∃ m, vsDot (q r) (.mat d (a r)) (.mat d (b r)) = .coll .allreduce (.mat m)
      fun vs => match DotRes.total vs with
      | none => .ret (.error .type)
      | some y => .ret (.ok y) := by
    intro r hr h
    simp only [vsDot, NdArr.len, NdArr.dot, ha r hr, hb r hr, h, and_self, if_true]
    exact ⟨_, rfl⟩
  have h1 : (∀ r < n, q r ≠ d) → AllReturn n (fun r => vsDot (q r) (.mat d (a r)) (.mat d (b r))) fun _ => .error .value := fun h =>
    AllReturn.congr (fun r hr => hne r hr (h r hr)) (fun _ _ => rfl) (AllReturn.ret n _)
  have h2 : (∃ r < n, q r = d) → (∃ r < n, q r ≠ d) → Deadlocks n fun r => vsDot (q r) (.mat d (a r)) (.mat d (b r)) := by
    rintro ⟨r, hr, h⟩ ⟨r', hr', h'⟩
    obtain ⟨m, hm⟩ := heq r hr h
    exact Deadlocks.of_mixed hr' hr (hne r' hr' h') hm
  refine ⟨h1, h2, fun f hf r hr x hx => ?_⟩
  by_cases hd : ∃ r < n, q r = d
  · by_cases hd' : ∃ r < n, q r ≠ d
    · exact h2 hd hd' _ hf
    · have hall : ∀ r < n, q r = d := fun r hr => by_contra fun h => hd' ⟨r, hr, h⟩
      have : ∀ r, ∃ m, r < n → vsDot (q r) (.mat d (a r)) (.mat d (b r)) = .coll .allreduce (.mat m) fun vs => match DotRes.total vs with
          | none => .ret (.error .type)
          | some y => .ret (.ok y) := by
        intro r
        by_cases hr : r < n
        · obtain ⟨m, hm⟩ := heq r hr (hall r hr); exact ⟨m, fun _ => hm⟩
        · exact ⟨[], fun h => absurd h hr⟩
      choose m hm using this
      have hn : 0 < n := by omega
      cases ht : DotRes.total ((List.range n).map fun r => DotRes.mat (m r)) with
      | none =>
        have h3 : AllReturn n (fun r => vsDot (q r) (.mat d (a r)) (.mat d (b r))) fun _ => .error .type := by
          refine AllReturn.congr (fun r hr => hm r hr) (fun _ _ => rfl) (AllReturn.coll hn ?_)
          rw [ht]
          exact AllReturn.ret n _
        have := AllReturn.unique hf h3 r hr
        rw [hx] at this
        cases this
      | some y =>
        have h3 : AllReturn n (fun r => vsDot (q r) (.mat d (a r)) (.mat d (b r))) fun _ => .ok y := by
          refine AllReturn.congr (fun r hr => hm r hr) (fun _ _ => rfl) (AllReturn.coll hn ?_)
          rw [ht]
          exact AllReturn.ret n _
        have := AllReturn.unique hf h3 r hr
        rw [hx] at this
        cases this
        exact total_mat (by simp) x ht
  · have h3 := h1 fun r hr h => hd ⟨r, hr, h⟩
    have := AllReturn.unique hf h3 r hr
    rw [hx] at this
    cases this

theorem total_table (p c : ℕ) {A : Type} (L : List A) (hL : L ≠ []) (M : A → ℕ → ℕ → K) :
    DotRes.total (L.map fun r => DotRes.mat ((List.range p).map fun i => (List.range c).map fun j => M r i j)) =
      some (.mat ((List.range p).map fun i => (List.range c).map fun j => (L.map fun r => M r i j).sum)) := by
  cases L with
  | nil => exact absurd rfl hL
  | cons r L =>
    simp only [List.map_cons, DotRes.total, List.sum_cons]
    clear hL
    obtain ⟨m, hm⟩ : ∃ m, m = M r := ⟨_, rfl⟩
    rw [← hm]
    clear hm
    induction L generalizing m with
    | nil => simp
    | cons y L ih =>
      simp only [List.map_cons, List.foldl_cons, List.sum_cons]
      have : List.zipWith (List.zipWith (· + ·)) ((List.range p).map fun i => (List.range c).map fun j => m i j)
          ((List.range p).map fun i => (List.range c).map fun j => M y i j) = (List.range p).map fun i => (List.range c).map fun j => m i j + M y i j := by
        simp [List.zipWith_map, List.zipWith_self]
      rw [this, ih]
      simp only [add_assoc]

theorem zipWith_range {A B C : Type*} (f : A → B → C) (x0 : A) (y0 : B) : ∀ (a : List A) (b : List B) (n : ℕ), a.length = n → b.length = n →
    List.zipWith f a b = (List.range n).map fun k => f (a.getD k x0) (b.getD k y0) := by
  intro a b n ha hb
  apply List.ext_getElem
  · simp [ha, hb]
  · intro k h1 h2
    simp at h1
    simp [h1]

theorem map_range {A B : Type*} (f : A → B) (x0 : A) (a : List A) (n : ℕ) (ha : a.length = n) : a.map f = (List.range n).map fun k => f (a.getD k x0) := by
  apply List.ext_getElem
  · simp [ha]
  · intro k h1 h2
    simp at h1
    simp [h1]

theorem vsDot_table {n : ℕ} (hn : 0 < n) (q : ℕ → ℕ) (a b : ℕ → NdArr K) (p c : ℕ) (M : ℕ → ℕ → ℕ → K) (ha : ∀ r < n, (a r).len = q r) (hb : ∀ r < n, (b r).len = q r)
    (h : ∀ r < n, (a r).dot (b r) = some (.mat ((List.range p).map fun i => (List.range c).map fun j => M r i j))) :
    AllReturn n (fun r => vsDot (q r) (a r) (b r)) fun _ =>
      .ok (.mat ((List.range p).map fun i => (List.range c).map fun j => ((List.range n).map fun r => M r i j).sum)) := by
  refine AllReturn.congr (p' := fun r => .coll .allreduce (.mat ((List.range p).map fun i => (List.range c).map fun j => M r i j)) fun vs => match DotRes.total vs with
      | none => .ret (.error .type)
      | some y => .ret (.ok y)) (fun r hr => ?_) (fun _ _ => rfl) (AllReturn.coll hn ?_)
  · simp only [vsDot, ha r hr, hb r hr, and_self, if_true, h r hr]
    rfl
  · rw [total_table _ _ _ (by simp; omega)]
    exact AllReturn.ret n _

/-- **C97, as many particles as dimensions.**  If every rank has exactly `d` particles, `dot` of two arrays of positions is, on all ranks, the sum over
the ranks of the product of the two matrices. -/
theorem C97_violated_square {n : ℕ} (hn : 0 < n) (d : ℕ) (a b : ℕ → List (List K)) (ha : ∀ r < n, (a r).length = d ∧ ∀ row ∈ a r, row.length = d)
    (hb : ∀ r < n, (b r).length = d) :
    AllReturn n (fun r => vsDot d (.mat d (a r)) (.mat d (b r))) fun _ => .ok (.mat ((List.range d).map fun i => (List.range d).map fun j =>
      ((List.range n).map fun r => ((List.range d).map fun k => ((a r).getD i []).getD k 0 * ((b r).getD k []).getD j 0).sum).sum)) := by
  refine vsDot_table hn (fun _ => d) _ _ d d _ (fun r hr => (ha r hr).1) (fun r hr => hb r hr) fun r hr => ?_
  simp only [NdArr.dot, hb r hr, if_true]
  rw [map_range _ [] _ _ (ha r hr).1]
  congr 2
  apply List.map_congr_left
  intro i hi
  apply List.map_congr_left
  intro j _
  have hi := List.mem_range.1 hi
  rw [zipWith_range _ 0 [] _ _ d _ (hb r hr)]
  rw [List.getD_eq_getElem _ _ (by rw [(ha r hr).1]; exact hi)]
  exact (ha r hr).2 _ (List.getElem_mem _)

/-- **C97, one number and one position for each particle.**  `dot` of numbers and positions is, on all ranks, the sum of the positions with the numbers
as weights; of positions and numbers, if every rank has as many particles as there are dimensions, the sum of the products of matrix and vector; if none has,
ValueError on all ranks. -/
theorem C97_mixed {n : ℕ} (hn : 0 < n) (q : ℕ → ℕ) (d : ℕ) (v : ℕ → List K) (x : ℕ → List (List K)) (hv : ∀ r < n, (v r).length = q r) (hx : ∀ r < n, (x r).length = q r)
    (hd : ∀ r < n, ∀ row ∈ x r, row.length = d) :
    AllReturn n (fun r => vsDot (q r) (.vec (v r)) (.mat d (x r))) (fun _ => .ok (.mat [(List.range d).map fun j =>
      ((List.range n).map fun r => ((List.range (q r)).map fun i => (v r).getD i 0 * ((x r).getD i []).getD j 0).sum).sum])) ∧
    ((∀ r < n, q r = d) → AllReturn n (fun r => vsDot (q r) (.mat d (x r)) (.vec (v r))) fun _ => .ok (.mat [(List.range d).map fun i =>
      ((List.range n).map fun r => ((List.range d).map fun k => ((x r).getD i []).getD k 0 * (v r).getD k 0).sum).sum])) ∧
    ((∀ r < n, q r ≠ d) → AllReturn n (fun r => vsDot (q r) (.mat d (x r)) (.vec (v r))) fun _ => .error .value) := by
  refine ⟨?_, fun hq => ?_, fun hq => ?_⟩
  · have := vsDot_table hn q (fun r => .vec (v r)) (fun r => .mat d (x r)) 1 d (fun r _ j => ((List.range (q r)).map fun i => (v r).getD i 0 * ((x r).getD i []).getD j 0).sum)
      hv hx fun r hr => ?_
    · simpa using this
    · simp only [NdArr.dot, hv r hr, hx r hr, if_true, List.range_one, List.map_cons, List.map_nil]
      congr 3
      apply List.map_congr_left
      intro j _
      rw [zipWith_range _ 0 [] _ _ (q r) (hv r hr) (hx r hr)]
  · have := vsDot_table hn q (fun r => .mat d (x r)) (fun r => .vec (v r)) 1 d (fun r _ i => ((List.range d).map fun k => ((x r).getD i []).getD k 0 * (v r).getD k 0).sum)
      hx hv fun r hr => ?_
    · simpa using this
    · simp only [NdArr.dot, hv r hr, hq r hr, if_true, List.range_one, List.map_cons, List.map_nil]
      congr 3
      rw [map_range _ [] _ _ ((hx r hr).trans (hq r hr))]
      apply List.map_congr_left
      intro i hi
      have hi := List.mem_range.1 hi
      rw [zipWith_range _ 0 0 _ _ d _ ((hv r hr).trans (hq r hr))]
      rw [List.getD_eq_getElem _ _ (by rw [hx r hr, hq r hr]; exact hi)]
      exact hd r hr _ (List.getElem_mem _)
  · refine AllReturn.congr (fun r hr => ?_) (fun _ _ => rfl) (AllReturn.ret n _)
    simp [vsDot, NdArr.len, NdArr.dot, hv r hr, hx r hr, Ne.symm (hq r hr)]

/-- **C97, assertion.**  A rank on which an array does not have one entry for each particle raises AssertionError before it calls MPI. -/
theorem C97_assertion (q : ℕ) (a b : NdArr K) (h : a.len ≠ q ∨ b.len ≠ q) : vsDot q a b = .ret (.error .assertion) := by
  unfold vsDot
  rw [if_neg]
  rintro ⟨h1, h2⟩
  rcases h with h | h
  · exact h h2
  · exact h (h1 ▸ h2)

example := C97_violated_square (K := ℚ) (n := 2) (by decide) 2 (fun r => [[1, 2], [3, r]]) (fun r => [[r, 1], [5, 7]]) (by simp) (by simp)

example := C97_mixed (K := ℚ) (n := 2) (by decide) (fun r => r) 3 (fun r => if r = 0 then [] else [4]) (fun r => if r = 0 then [] else [[1, 2, 3]]) (by decide) (by decide)
  (by decide)

example : (vsDot 2 (.vec [1, 2]) (.vec [(1 : ℚ)]) : Prog _ _) = .ret (.error .assertion) := C97_assertion 2 _ _ (by simp [NdArr.len])

example : AllReturn 1 (fun _ => vsDot 3 (.mat 2 [[1, 0], [0, 1], [2, 2]]) (.mat 2 [[1, 0], [0, 1], [2, (2 : ℚ)]])) fun _ => .error .value :=
  (C97_violated_positions (n := 1) (fun _ => 3) 2 (fun _ => [[1, 0], [0, 1], [2, 2]]) (fun _ => [[1, 0], [0, 1], [2, (2 : ℚ)]])
    (by decide) (by decide)).1 (by decide)

example : Deadlocks 2 (fun r => vsDot (r + 1) (.mat 2 (List.replicate (r + 1) [1, 0])) (.mat 2 (List.replicate (r + 1) [1, (0 : ℚ)]))) :=
  (C97_violated_positions (n := 2) (fun r => r + 1) 2 _ _ (fun _ _ => by simp) (fun _ _ => by simp)).2.1
    ⟨1, by decide, by decide⟩ ⟨0, by decide, by decide⟩

end

#print axioms C96_value
#print axioms C96_violated_exception
#print axioms C97_vectors_partial
#print axioms C97_violated_positions
#print axioms C97_violated_square
#print axioms C97_mixed
#print axioms C97_assertion

end Pmesh
