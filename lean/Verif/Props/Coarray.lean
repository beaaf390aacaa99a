import Verif.Spec.Coarray
import Verif.Lemmas.CoarrayEnd
import Mathlib.Tactic.IntervalCases

/-!
# C50: coarray transfers deliver to the operation that asked

`sync` on any number of ranks, with any operations, under every schedule of the ranks and of MPI.  Where no rank pulls from a rank that
pushes to it, and no buffer that is pushed is overwritten by a push, every synchronisation ends, in every order, with the pulls and pushes
of the specification.  Both conditions are needed (see the end of this file); the code does not check them.
-/

namespace Pmesh
section
variable {I B M : Type} {get : I → M → B} {put : I → B → M → M} {n : ℕ} {ops : ℕ → List (CoOp I B)} {mem : ℕ → M}

/-- When all ranks have returned, in any order of the events, each array is as specified: the pushes in the order of the ranks, then
the pulls in order, all with the data from before the synchronisation. -/
theorem C50_sync_result_partial (htgt : ∀ r < n, ∀ op ∈ ops r, op.image < n) (hx : NoCross n ops) (hst : PushesStable get put n ops)
    {st : CoState I B M} (h : CoReach get put n ops mem st) (hend : st.ended n) : ∀ r < n, st.mem r = afterSync get put n ops mem r := by
  intro r hr
  obtain ⟨pre, hi⟩ := CoInv.of_reach hst htgt h
  have hp := hi.prog r hr
  rw [hend r hr, List.append_nil] at hp
  rw [hi.memEq r hr, hp]
  exact abs_final r hr hx (htgt r hr)

/-- No state in which everybody waits, even if no send completes before its message is received. -/
theorem C50_sync_never_stuck_partial (htgt : ∀ r < n, ∀ op ∈ ops r, op.image < n) (hx : NoCross n ops) (hst : PushesStable get put n ops)
    {st : CoState I B M} (h : CoReach get put n ops mem st) (hend : ¬ st.ended n) :
    ∃ c st', coExec get put n ops st c = some st' ∧ ((∃ r, c = .run r false) ∨ ∃ a b k, c = .transfer a b k) := by
  obtain ⟨pre, hi⟩ := CoInv.of_reach hst htgt h
  exact co_progress hi hx hend

/-- No execution goes on for ever. -/
theorem C50_sync_terminates (f : ℕ → CoState I B M) : ¬ ∀ k, ∃ c, coExec get put n ops (f k) c = some (f (k + 1)) := by
  intro h
  have hlt : ∀ k, coMeasure n (f (k + 1)) < coMeasure n (f k) := fun k => by
    obtain ⟨c, hc⟩ := h k
    exact exec_measure c hc
  have hle : ∀ k, coMeasure n (f k) + k ≤ coMeasure n (f 0) := by
    intro k
    induction k with
    | zero => simp
    | succ k ih => have := hlt k; omega
  have := hle (coMeasure n (f 0) + 1)
  omega

/-- With `sync(images)` each pending operation is either done now or kept for another `sync`, and its order is kept. -/
theorem C50_images (images : List ℕ) (l : List (CoOp I B)) :
    (coActive images l ++ coKept images l).Perm l ∧ (∀ op ∈ coActive images l, op.image ∈ images) ∧
    (∀ op ∈ coKept images l, op.image ∉ images) ∧ (coActive images l).Sublist l ∧ (coKept images l).Sublist l := by
  refine ⟨?_, ?_, ?_, List.filter_sublist, List.filter_sublist⟩
  · have := List.filter_append_perm (fun op : CoOp I B => decide (op.image ∈ images)) l
    simpa [coActive, coKept] using this
  · intro op h; simpa [coActive] using (List.mem_filter.1 h).2
  · intro op h; simpa [coKept] using (List.mem_filter.1 h).2

/-! ## The same in terms of places

`Indep i j`: an assignment to `j` does not change what is read at `i`. -/

/-- What is assigned at `j` is not seen at `i`. -/
def CoIndep (get : I → M → B) (put : I → B → M → M) (i j : I) : Prop := ∀ b m, get i (put j b m) = get i m

theorem pulls_indep (l : List (CoOp I B)) (i : I) (m : M) (h : ∀ loc src rem, CoOp.pull loc src rem ∈ l → CoIndep get put i loc) :
    get i (l.foldl (doPull get put mem) m) = get i m := by
  induction l generalizing m with
  | nil => rfl
  | cons op l ih =>
    rw [List.foldl_cons, ih _ fun loc src rem hm => h loc src rem (List.mem_cons_of_mem _ hm)]
    cases op with
    | pull loc src rem => exact h loc src rem List.mem_cons_self _ _
    | push => rfl

theorem pushes_indep (s : ℕ) (l : List (I × CoBuf I B)) (i : I) (m : M) (h : ∀ p ∈ l, CoIndep get put i p.1) :
    get i (l.foldl (fun m p => put p.1 (coValue get mem s p.2) m) m) = get i m := by
  induction l generalizing m with
  | nil => rfl
  | cons p l ih =>
    rw [List.foldl_cons, ih _ fun q hq => h q (List.mem_cons_of_mem _ hq)]
    exact h p List.mem_cons_self _ _

theorem ranks_indep (r : ℕ) (L : List ℕ) (i : I) (m : M) (h : ∀ s ∈ L, ∀ p ∈ pushesTo (ops s) r, CoIndep get put i p.1) :
    get i (L.foldl (fun m s => (pushesTo (ops s) r).foldl (fun m p => put p.1 (coValue get mem s p.2) m) m) m) = get i m := by
  induction L generalizing m with
  | nil => rfl
  | cons s L ih =>
    rw [List.foldl_cons, ih _ fun t ht => h t (List.mem_cons_of_mem _ ht)]
    exact pushes_indep s _ i m (h s List.mem_cons_self)

/-- Each pull holds the requested data of the other rank, unless a later pull overwrites it. -/
theorem C50_pull_holds_partial (htgt : ∀ r < n, ∀ op ∈ ops r, op.image < n) (hx : NoCross n ops) (hst : PushesStable get put n ops)
    (hget : ∀ i b m, get i (put i b m) = b)
    {st : CoState I B M} (h : CoReach get put n ops mem st) (hend : st.ended n) {r : ℕ} (hr : r < n)
    {before after : List (CoOp I B)} {loc rem : I} {src : ℕ} (ho : ops r = before ++ .pull loc src rem :: after)
    (hlast : ∀ loc' src' rem', CoOp.pull loc' src' rem' ∈ after → CoIndep get put loc loc') :
    get loc (st.mem r) = get rem (mem src) := by
  rw [C50_sync_result_partial htgt hx hst h hend r hr]
  unfold afterSync
  rw [ho, List.foldl_append, List.foldl_cons, pulls_indep _ _ _ hlast]
  exact hget _ _ _

/-- Each push is stored at the requested place, unless a later push (of that rank or of a higher one) or a pull of the receiver
overwrites it. -/
theorem C50_push_stored_partial (htgt : ∀ r < n, ∀ op ∈ ops r, op.image < n) (hx : NoCross n ops) (hst : PushesStable get put n ops)
    (hget : ∀ i b m, get i (put i b m) = b)
    {st : CoState I B M} (h : CoReach get put n ops mem st) (hend : st.ended n) {r s : ℕ} (hr : r < n) (hs : s < n)
    {before after : List (CoOp I B)} {rem : I} {buf : CoBuf I B} (ho : ops s = before ++ .push r rem buf :: after)
    (hlast : ∀ rem' buf', CoOp.push r rem' buf' ∈ after → CoIndep get put rem rem')
    (hranks : ∀ t < n, s < t → ∀ rem' buf', CoOp.push r rem' buf' ∈ ops t → CoIndep get put rem rem')
    (hpulls : ∀ loc src rem', CoOp.pull loc src rem' ∈ ops r → CoIndep get put rem loc) :
    get rem (st.mem r) = coValue get mem s buf := by
  have hmem : ∀ (l : List (CoOp I B)) p, p ∈ pushesTo l r → CoOp.push r p.1 p.2 ∈ l := by
    intro l p hp
    unfold pushesTo at hp
    rw [List.mem_filterMap] at hp
    obtain ⟨op, hop, he⟩ := hp
    cases op with
    | pull => simp at he
    | push dst rem buf =>
      simp only [Option.ite_none_right_eq_some, Option.some.injEq] at he
      obtain ⟨rfl, rfl⟩ := he
      exact hop
  rw [C50_sync_result_partial htgt hx hst h hend r hr]
  unfold afterSync
  rw [pulls_indep _ _ _ hpulls]
  unfold afterPushes
  obtain ⟨k, hk⟩ : ∃ k, n = s + (k + 1) := ⟨n - s - 1, by omega⟩
  rw [hk, List.range_add, List.foldl_append, List.range_succ_eq_map, List.map_cons, List.foldl_cons, ranks_indep (get := get) (put := put) (mem := mem) (ops := ops) r _ rem]
  · have hp : pushesTo (ops (s + 0)) r = pushesTo before r ++ (rem, buf) :: pushesTo after r := by
      rw [Nat.add_zero, ho]
      unfold pushesTo
      rw [List.filterMap_append, List.filterMap_cons]
      simp
    rw [hp, List.foldl_append, List.foldl_cons, pushes_indep _ _ _ _ fun p hp => hlast p.1 p.2 (hmem _ _ hp)]
    exact hget _ _ _
  · intro t ht p hp
    simp only [List.map_map, List.mem_map, List.mem_range, Function.comp] at ht
    obtain ⟨j, hj, rfl⟩ := ht
    exact hranks _ (by omega) (by omega) p.1 p.2 (hmem _ _ hp)

/-- What nobody pushed to or pulled into is unchanged. -/
theorem C50_sync_untouched_partial (htgt : ∀ r < n, ∀ op ∈ ops r, op.image < n) (hx : NoCross n ops) (hst : PushesStable get put n ops)
    {st : CoState I B M} (h : CoReach get put n ops mem st) (hend : st.ended n) {r : ℕ} (hr : r < n) (i : I)
    (hpush : ∀ s < n, ∀ p ∈ pushesTo (ops s) r, CoIndep get put i p.1)
    (hpulls : ∀ loc src rem, CoOp.pull loc src rem ∈ ops r → CoIndep get put i loc) : get i (st.mem r) = get i (mem r) := by
  rw [C50_sync_result_partial htgt hx hst h hend r hr]
  unfold afterSync
  rw [pulls_indep _ _ _ hpulls]
  exact ranks_indep r _ i _ fun s hs p hp => hpush s (List.mem_range.1 hs) p hp

end

/-! ## Examples: arrays of integers -/

def rowGet (i : ℕ) (m : ℕ → ℤ) : ℤ := m i

def rowPut (i : ℕ) (b : ℤ) (m : ℕ → ℤ) : ℕ → ℤ := fun x => if x = i then b else m x

theorem row_get_put (i : ℕ) (b : ℤ) (m : ℕ → ℤ) : rowGet i (rowPut i b m) = b := by simp [rowGet, rowPut]

theorem row_indep {i j : ℕ} (h : i ≠ j) : CoIndep rowGet rowPut i j := by
  intro b m
  simp [rowGet, rowPut, h]

theorem reach_foldlM {I B M : Type} {get : I → M → B} {put : I → B → M → M} {n : ℕ} {ops : ℕ → List (CoOp I B)} {mem : ℕ → M}
    (cs : List CoChoice) : ∀ {st st' : CoState I B M}, CoReach get put n ops mem st → cs.foldlM (coExec get put n ops) st = some st' →
      CoReach get put n ops mem st' := by
  induction cs with
  | nil => intro st st' h he; cases he; exact h
  | cons c cs ih =>
    intro st st' h he
    rw [List.foldlM_cons] at he
    cases hc : coExec get put n ops st c with
    | none => rw [hc] at he; cases he
    | some s =>
      rw [hc] at he
      exact ih (.step c h hc) he

/-- Rank 0 pulls place 0 of rank 1 into its place 1; rank 2 pushes its place 2 to place 2 of rank 1 and the number 9 to place 2 of rank 0. -/
def exCoOps : ℕ → List (CoOp ℕ ℤ)
  | 0 => [.pull 1 1 0]
  | 2 => [.push 1 2 (.view 2), .push 0 2 (.val 9)]
  | _ => []

def exCoMem (r i : ℕ) : ℤ := 10 * r + i

def exCoRun : List CoChoice :=
  [.run 2 false, .run 2 false, .run 0 false, .run 0 false, .transfer 2 0 0, .run 0 false, .run 1 false, .transfer 1 0 0, .run 1 false,
   .run 1 false, .transfer 2 1 0, .run 1 false, .run 1 false, .run 0 false, .run 2 false]

/-- The first `w` places of each rank, and whether all have returned. -/
def coSummary (n w : ℕ) (st : CoState ℕ ℤ (ℕ → ℤ)) : List (List ℤ) × Bool :=
  ((List.range n).map fun r => (List.range w).map (st.mem r), (List.range n).all fun r => (st.todo r).isEmpty)

theorem ended_of_summary {n w : ℕ} {st : CoState ℕ ℤ (ℕ → ℤ)} (h : (coSummary n w st).2 = true) : st.ended n := by
  intro r hr
  unfold coSummary at h
  simp only [List.all_eq_true, List.mem_range, List.isEmpty_iff] at h
  exact h r hr

theorem exCo_targets : ∀ r < 3, ∀ op ∈ exCoOps r, op.image < 3 := by
  intro r hr op ho
  interval_cases r <;> simp only [exCoOps, List.mem_cons, List.not_mem_nil, or_false] at ho
  · subst ho; decide
  · rcases ho with rfl | rfl <;> decide

theorem exCo_noCross : NoCross 3 exCoOps := by
  intro a ha b hb
  interval_cases a <;> interval_cases b <;> simp [exCoOps, pushesTo, pullsFrom]

theorem exCo_stable : PushesStable rowGet rowPut 3 exCoOps := by
  intro r hr d rem i hm a ha
  interval_cases r <;> simp [exCoOps] at hm
  simp [recvActions, exCoOps, pushesTo, List.range_succ] at ha

/-- One of its executions ends, with the arrays of the theorems. -/
example : ∃ st, CoReach rowGet rowPut 3 exCoOps exCoMem st ∧ st.ended 3 ∧
    coSummary 3 3 st = ([[0, 10, 9], [10, 11, 22], [20, 21, 22]], true) ∧
    rowGet 1 (st.mem 0) = rowGet 0 (exCoMem 1) ∧ rowGet 2 (st.mem 0) = 9 ∧ rowGet 0 (st.mem 0) = rowGet 0 (exCoMem 0) := by
  have h : (exCoRun.foldlM (coExec rowGet rowPut 3 exCoOps) (coInit 3 exCoOps exCoMem)).map (coSummary 3 3) =
      some ([[0, 10, 9], [10, 11, 22], [20, 21, 22]], true) := by decide +kernel
  obtain ⟨st, hst, hs⟩ := Option.map_eq_some_iff.1 h
  have hr := reach_foldlM _ .init hst
  have he : st.ended 3 := ended_of_summary (by rw [hs])
  refine ⟨st, hr, he, hs, ?_, ?_, ?_⟩
  · exact C50_pull_holds_partial exCo_targets exCo_noCross exCo_stable row_get_put hr he (by omega) (before := []) (after := []) rfl (by simp)
  · refine C50_push_stored_partial exCo_targets exCo_noCross exCo_stable row_get_put hr he (r := 0) (s := 2) (by omega) (by omega)
      (before := [.push 1 2 (.view 2)]) (after := []) (buf := .val 9) rfl (by simp) (by intro t h1 h2; omega) ?_
    intro loc src rem hm
    simp only [exCoOps, List.mem_cons, CoOp.pull.injEq, List.not_mem_nil, or_false] at hm
    exact row_indep (by omega)
  · refine C50_sync_untouched_partial exCo_targets exCo_noCross exCo_stable hr he (by omega) 0 ?_ ?_
    · intro s hs p hp
      interval_cases s <;> simp [exCoOps, pushesTo] at hp
      subst hp
      exact row_indep (by decide)
    · intro loc src rem hm
      simp only [exCoOps, List.mem_cons, CoOp.pull.injEq, List.not_mem_nil, or_false] at hm
      exact row_indep (by omega)

/-- The first state of the example is not the end, and somebody can go on. -/
example : ∃ c st', coExec rowGet rowPut 3 exCoOps (coInit 3 exCoOps exCoMem) c = some st' ∧ ((∃ r, c = .run r false) ∨ ∃ a b k, c = .transfer a b k) :=
  C50_sync_never_stuck_partial exCo_targets exCo_noCross exCo_stable .init (by
    intro h
    have := h 0 (by omega)
    simp [coInit, coProg] at this)

/-! ## A pull from a rank that pushes to the puller: the messages are swapped -/

/-- Rank 0 pushes 5 to place 0 of rank 1, rank 1 pulls place 0 of rank 0 to its place 1. -/
def exCross : ℕ → List (CoOp ℕ ℤ)
  | 0 => [.push 1 0 (.val 5)]
  | 1 => [.pull 1 0 0]
  | _ => []

/-- **C50 violated**: whatever the schedule, rank 1 ends with what was pushed in the place of its pull, and with what it pulled in the
place of the push, for the messages from rank 0 are received in the order of sending; and there is such an execution. -/
theorem C50_violated_cross (mem : ℕ → ℕ → ℤ) :
    (∃ st, CoReach rowGet rowPut 2 exCross mem st ∧ st.ended 2) ∧
    ∀ st, CoReach rowGet rowPut 2 exCross mem st → st.ended 2 → rowGet 1 (st.mem 1) = 5 ∧ rowGet 0 (st.mem 1) = rowGet 0 (mem 0) := by
  constructor
  · have h : (([.run 0 false, .run 1 false, .run 0 false, .transfer 0 1 0, .run 1 false, .transfer 0 1 1, .run 0 false, .run 0 false, .run 1 false,
        .run 1 false] : List CoChoice).foldlM (coExec rowGet rowPut 2 exCross) (coInit 2 exCross mem)).map
          (fun st => (List.range 2).all fun r => (st.todo r).isEmpty) = some true := rfl
    obtain ⟨st, hst, hs⟩ := Option.map_eq_some_iff.1 h
    refine ⟨st, reach_foldlM _ .init hst, ?_⟩
    intro r hr
    simp only [List.all_eq_true, List.mem_range, List.isEmpty_iff] at hs
    exact hs r hr
  · intro st h he
    have htgt : ∀ r < 2, ∀ op ∈ exCross r, op.image < 2 := by
      intro r hr op ho
      interval_cases r <;> simp only [exCross, List.mem_cons, List.not_mem_nil, or_false] at ho <;> subst ho <;> decide
    have hst : PushesStable rowGet rowPut 2 exCross := by
      intro r hr d rem i hm
      interval_cases r <;> simp [exCross] at hm
    obtain ⟨pre, hi⟩ := CoInv.of_reach hst htgt h
    have hp := hi.prog 1 (by omega)
    rw [he 1 (by omega), List.append_nil] at hp
    rw [hi.memEq 1 (by omega), hp]
    exact ⟨rfl, rfl⟩

/-- Two ranks that push to each other and pull from each other. -/
def exCrossBoth (r : ℕ) : List (CoOp ℕ ℤ) := [.push (1 - r) 0 (.val 5), .pull 1 (1 - r) 0]

/-- **C50 violated**: `sync` may not return at all.  If the blocking `Send` waits for its receive, both ranks come to a state in which nothing
can happen. -/
theorem C50_violated_deadlock (mem : ℕ → ℕ → ℤ) : ∃ st, CoReach rowGet rowPut 2 exCrossBoth mem st ∧ ¬ st.ended 2 ∧
    ∀ c, (∀ r, c ≠ .run r true) → coExec rowGet rowPut 2 exCrossBoth st c = none := by
  have h : ∃ st, ([.run 0 false, .run 0 false, .run 0 false, .run 1 false, .run 1 false, .run 1 false, .transfer 0 1 0, .transfer 1 0 0] :
      List CoChoice).foldlM (coExec rowGet rowPut 2 exCrossBoth) (coInit 2 exCrossBoth mem) = some st ∧
      (∀ r < 2, (st.chan r (1 - r)) = [.val 5, .val (mem r 0)] ∧ st.chan r r = [] ∧ (st.slot r (1 - r)) = [some 5] ∧ st.slot r r = [] ∧
        ∃ rest, st.todo r = .sendWait (1 - r) :: rest) := by
    refine ⟨_, rfl, ?_⟩
    intro r hr
    interval_cases r
    · exact ⟨rfl, rfl, rfl, rfl, _, rfl⟩
    · exact ⟨rfl, rfl, rfl, rfl, _, rfl⟩
  obtain ⟨st, hst, hs⟩ := h
  refine ⟨st, reach_foldlM _ .init hst, ?_, ?_⟩
  · intro he
    obtain ⟨_, _, _, _, rest, hr⟩ := hs 0 (by omega)
    rw [he 0 (by omega)] at hr
    cases hr
  · obtain ⟨a1, a2, a3, a4, ra, a5⟩ := hs 0 (by omega)
    obtain ⟨b1, b2, b3, b4, rb, b5⟩ := hs 1 (by omega)
    simp only [Nat.sub_zero, Nat.sub_self] at a1 a3 a5 b1 b3 b5
    intro c hc
    cases c with
    | run r eager =>
      cases eager with
      | true => exact absurd rfl (hc r)
      | false =>
        simp only [coExec]
        split_ifs with hr
        · interval_cases r
          · simp [coRun, a5, a1, CoState.delivered, b3]
          · simp [coRun, b5, b1, CoState.delivered, a3]
        · rfl
    | capture a b k =>
      simp only [coExec]
      split_ifs with hab
      · obtain ⟨ha, hb⟩ := hab
        interval_cases a <;> interval_cases b <;> simp only [a1, a2, b1, b2] <;> (rcases k with _ | _ | k <;> simp)
      · rfl
    | transfer a b k =>
      simp only [coExec]
      split_ifs with hab
      · obtain ⟨ha, hb⟩ := hab
        interval_cases a <;> interval_cases b <;> simp only [a1, a2, b1, b2, a3, a4, b3, b4] <;> (rcases k with _ | _ | k <;> simp)
      · rfl

/-! ## A buffer that is overwritten while it is sent -/

/-- Two ranks push their place 1 to each other: `coa(left)[1] = coa[1]`, as in `test_coarray`, pmesh/coarray.py:321-325. -/
def exSwap (r : ℕ) : List (CoOp ℕ ℤ) := [.push (1 - r) 1 (.view 1)]

/-- **C50 violated**: rank 0 receives and stores before its own message is read, and rank 1 gets its own value back. -/
theorem C50_violated_race : ∃ st, CoReach rowGet rowPut 2 exSwap (fun r _ => (r : ℤ)) st ∧ st.ended 2 ∧
    rowGet 1 (st.mem 0) = 1 ∧ rowGet 1 (st.mem 1) = 1 := by
  have h : (([.run 0 false, .run 1 false, .run 0 false, .transfer 1 0 0, .run 0 false, .run 1 false, .transfer 0 1 0, .run 1 false, .run 0 false,
      .run 1 false] : List CoChoice).foldlM (coExec rowGet rowPut 2 exSwap) (coInit 2 exSwap fun r _ => (r : ℤ))).map (coSummary 2 2) =
        some ([[0, 1], [1, 1]], true) := by decide +kernel
  obtain ⟨st, hst, hs⟩ := Option.map_eq_some_iff.1 h
  refine ⟨st, reach_foldlM _ .init hst, ended_of_summary (by rw [hs]), ?_⟩
  have := congrArg Prod.fst hs
  simp [coSummary, List.range_succ] at this
  exact ⟨this.1.2, this.2.2⟩

#print axioms C50_sync_result_partial
#print axioms C50_sync_never_stuck_partial
#print axioms C50_sync_terminates
#print axioms C50_images
#print axioms C50_pull_holds_partial
#print axioms C50_push_stored_partial
#print axioms C50_sync_untouched_partial
#print axioms C50_violated_cross
#print axioms C50_violated_deadlock
#print axioms C50_violated_race

end Pmesh
