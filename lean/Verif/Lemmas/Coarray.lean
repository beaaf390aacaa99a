import Verif.Spec.Coarray
import Mathlib.Data.List.Nodup
import Mathlib.Data.List.GetD
import Mathlib.Tactic.SplitIfs
import Mathlib.Tactic.Common

/-! # Lemmas for `coarray.sync` -/

set_option linter.unusedSectionVars false

namespace Pmesh
section
variable {I B M : Type} (get : I → M → B) (put : I → B → M → M) (n : ℕ) (ops : ℕ → List (CoOp I B)) (mem : ℕ → M)

theorem upd_same {α : Type} (f : ℕ → α) (r : ℕ) (v : α) : upd f r v r = v := if_pos rfl
theorem upd_ne {α : Type} (f : ℕ → α) {r x : ℕ} (v : α) (h : x ≠ r) : upd f r v x = f x := if_neg h

/-! ## What the messages hold -/

/-- The message that an instruction of rank `r` sends to `d`. -/
def msgVal (r d : ℕ) : CoInstr I B → Option B
  | .isend d' buf => if d' = d then some (coValue get mem r buf) else none
  | .sendPost d' i => if d' = d then some (get i (mem r)) else none
  | _ => none

/-- All messages from `r` to `d`. -/
def fullMsgs (r d : ℕ) : List B := (coProg n ops r).filterMap (msgVal get mem r d)

theorem filterMap_starts (l : List (CoOp I B)) (r d : ℕ) :
    (l.map CoOp.start).filterMap (msgVal get mem r d) = (pushesTo l d).map fun p => coValue get mem r p.2 := by
  induction l with
  | nil => rfl
  | cons op l ih =>
    cases op with
    | pull loc src rem =>
      unfold pushesTo at ih ⊢
      simp only [List.map_cons, CoOp.start, List.filterMap_cons, msgVal]
      exact ih
    | push dst rem buf =>
      unfold pushesTo at ih ⊢
      simp only [List.map_cons, CoOp.start, List.filterMap_cons, msgVal]
      by_cases h : dst = d
      · simp only [h, if_true]
        rw [List.map_cons, ← ih]
      · simpa only [h, if_false] using ih

theorem filterMap_sends (l : List (ℕ × I)) (r d : ℕ) :
    (l.flatMap fun a => [(.sendPost a.1 a.2 : CoInstr I B), .sendWait a.1]).filterMap (msgVal get mem r d) =
      (l.filter fun a => decide (a.1 = d)).map fun a => get a.2 (mem r) := by
  induction l with
  | nil => rfl
  | cons a l ih =>
    rw [List.flatMap_cons, List.filterMap_append, ih]
    by_cases h : a.1 = d
    · simp [msgVal, h]
    · simp [msgVal, h]

theorem filterMap_recvs (l : List (ℕ × I)) (r d : ℕ) :
    (l.flatMap fun a => [(.recvPost a.1 : CoInstr I B), .recvWait a.1 a.2]).filterMap (msgVal get mem r d) = [] := by
  induction l with
  | nil => rfl
  | cons a l ih => rw [List.flatMap_cons, List.filterMap_append, ih]; simp [msgVal]

/-- A list made of one group per number, of which one is picked. -/
theorem pick_group {α : Type} (g : ℕ → List α) {d : ℕ} (hd : d < n) :
    ((List.range n).flatMap fun x => (g x).map fun i => (x, i)).filter (fun a => decide (a.1 = d)) = (g d).map fun i => (d, i) := by
  rw [List.filter_flatMap]
  have h : ∀ x, ((g x).map fun i => (x, i)).filter (fun a => decide (a.1 = d)) = if x = d then (g d).map fun i => (d, i) else [] := by
    intro x
    split_ifs with h
    · subst h
      rw [List.filter_eq_self]
      simp
    · rw [List.filter_eq_nil_iff]
      simp [h]
  simp only [h]
  clear h
  induction n with
  | zero => omega
  | succ n ih =>
    rw [List.range_succ, List.flatMap_append]
    by_cases hdn : d = n
    · subst hdn
      have : ((List.range d).flatMap fun x => if x = d then (g d).map fun i => (d, i) else []) = [] := by
        rw [List.flatMap_eq_nil_iff]
        intro x hx
        rw [List.mem_range] at hx
        rw [if_neg (by omega)]
      rw [this]
      simp
    · rw [ih (by omega)]
      simp [Ne.symm hdn]

theorem fullMsgs_eq {r d : ℕ} (hd : d < n) : fullMsgs get n ops mem r d =
    ((pushesTo (ops r) d).map fun p => coValue get mem r p.2) ++ (pullsFrom (ops d) r).map fun i => get i (mem r) := by
  unfold fullMsgs coProg
  rw [List.filterMap_append, List.filterMap_append, List.filterMap_append, filterMap_starts, filterMap_sends, filterMap_recvs]
  unfold sendActions
  rw [pick_group n _ hd]
  simp [msgVal, Function.comp_def, List.filterMap_cons]

/-- The instruction posts a receive for a message from `s`. -/
def posts (s : ℕ) : CoInstr I B → Bool
  | .irecv s' => decide (s' = s)
  | .recvPost s' => decide (s' = s)
  | _ => false

theorem countP_starts (l : List (CoOp I B)) (s : ℕ) : (l.map CoOp.start).countP (posts s) = (pullsFrom l s).length := by
  induction l with
  | nil => rfl
  | cons op l ih =>
    unfold pullsFrom at ih ⊢
    cases op with
    | pull loc src rem =>
      simp only [List.map_cons, CoOp.start, List.countP_cons, posts, List.filterMap_cons, ih]
      by_cases h : src = s <;> simp [h]
    | push dst rem buf => simpa [CoOp.start, posts] using ih

theorem countP_sends (l : List (ℕ × I)) (s : ℕ) :
    (l.flatMap fun a => [(.sendPost a.1 a.2 : CoInstr I B), .sendWait a.1]).countP (posts s) = 0 := by
  induction l with
  | nil => rfl
  | cons a l ih => rw [List.flatMap_cons, List.countP_append, ih]; simp [posts]

theorem countP_recvs (l : List (ℕ × I)) (s : ℕ) :
    (l.flatMap fun a => [(.recvPost a.1 : CoInstr I B), .recvWait a.1 a.2]).countP (posts s) =
      (l.filter fun a => decide (a.1 = s)).length := by
  induction l with
  | nil => rfl
  | cons a l ih =>
    rw [List.flatMap_cons, List.countP_append, ih, List.filter_cons]
    by_cases h : a.1 = s <;> simp [posts, h]; omega

theorem countP_prog {r s : ℕ} (hs : s < n) :
    (coProg n ops r).countP (posts s) = (pullsFrom (ops r) s).length + (pushesTo (ops s) r).length := by
  unfold coProg recvActions
  rw [List.countP_append, List.countP_append, List.countP_append, countP_starts, countP_sends, countP_recvs]
  have := pick_group n (fun s => (pushesTo (ops s) r).map Prod.fst) hs
  simp only [List.map_map, Function.comp_def] at this
  rw [this]
  simp [posts]

/-! ## The state as a function of what each rank has done -/

/-- Receives posted per source, and the local array. -/
def absStep (r : ℕ) (st : (ℕ → ℕ) × M) : CoInstr I B → (ℕ → ℕ) × M
  | .irecv s => (upd st.1 s (st.1 s + 1), st.2)
  | .recvPost s => (upd st.1 s (st.1 s + 1), st.2)
  | .recvWait s i => (st.1, match (fullMsgs get n ops mem s r)[st.1 s - 1]? with
      | some b => put i b st.2
      | none => st.2)
  | .finish => (st.1, finishPulls put (pullSlots (ops r)) (fun s => (fullMsgs get n ops mem s r).map some) st.2)
  | _ => st

def absState (r : ℕ) (pre : List (CoInstr I B)) : (ℕ → ℕ) × M := pre.foldl (absStep get put n ops mem r) (fun _ => 0, mem r)

theorem absState_snoc (r : ℕ) (pre : List (CoInstr I B)) (x : CoInstr I B) :
    absState get put n ops mem r (pre ++ [x]) = absStep get put n ops mem r (absState get put n ops mem r pre) x := by
  simp [absState]

theorem absState_count (r s : ℕ) (pre : List (CoInstr I B)) : (absState get put n ops mem r pre).1 s = pre.countP (posts s) := by
  induction pre using List.reverseRecOn with
  | nil => rfl
  | append_singleton pre x ih =>
    rw [absState_snoc, List.countP_append]
    cases x with
    | irecv s' =>
      simp only [absStep, posts, List.countP_singleton, decide_eq_true_eq, upd]
      by_cases h : s' = s
      · subst h; simp [ih]
      · rw [if_neg (Ne.symm h), if_neg h, ih]; rfl
    | recvPost s' =>
      simp only [absStep, posts, List.countP_singleton, decide_eq_true_eq, upd]
      by_cases h : s' = s
      · subst h; simp [ih]
      · rw [if_neg (Ne.symm h), if_neg h, ih]; rfl
    | _ => exact ih

/-- A message that is not transferred yet holds the data meant. -/
def Resolves (r : ℕ) (m : M) (buf : CoBuf I B) (v : B) : Prop :=
  buf = .val v ∨ ∃ i, buf = .view i ∧ get i m = v ∧ ∃ d rem, CoOp.push d rem (.view i) ∈ ops r

/-- The invariant. -/
structure CoInv (pre : ℕ → List (CoInstr I B)) (st : CoState I B M) : Prop where
  prog : ∀ r < n, pre r ++ st.todo r = coProg n ops r
  chanLen : ∀ r < n, ∀ d, (st.chan r d).length = ((pre r).filterMap (msgVal get mem r d)).length
  chanVal : ∀ r < n, ∀ (d k : ℕ) (buf : CoBuf I B), (st.chan r d)[k]? = some buf →
    st.delivered r d k = true ∨ ∃ v, (fullMsgs get n ops mem r d)[k]? = some v ∧ Resolves get ops r (st.mem r) buf v
  slotLen : ∀ r < n, ∀ s, (st.slot r s).length = (pre r).countP (posts s)
  slotVal : ∀ r < n, ∀ s < n, ∀ (k : ℕ) (b : B), (st.slot r s)[k]? = some (some b) → (fullMsgs get n ops mem s r)[k]? = some b
  memEq : ∀ r < n, st.mem r = (absState get put n ops mem r (pre r)).2

end
end Pmesh
