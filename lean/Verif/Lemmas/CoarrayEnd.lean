import Verif.Lemmas.CoarrayInv
import Mathlib.Algebra.BigOperators.Group.Finset.Basic
import Mathlib.Algebra.Order.BigOperators.Group.Finset
import Mathlib.Algebra.BigOperators.Intervals

/-! # End, progress and termination of `coarray.sync` -/

set_option linter.unusedSectionVars false

namespace Pmesh
section
variable {I B M : Type} {get : I → M → B} {put : I → B → M → M} {n : ℕ} {ops : ℕ → List (CoOp I B)} {mem : ℕ → M}

theorem abs_starts (r : ℕ) (l : List (CoOp I B)) (c : ℕ → ℕ) (m : M) :
    (l.map CoOp.start).foldl (absStep get put n ops mem r) (c, m) = (fun s => c s + (pullsFrom l s).length, m) := by
  induction l generalizing c with
  | nil => rfl
  | cons op l ih =>
    rw [List.map_cons, List.foldl_cons]
    cases op with
    | pull loc src rem =>
      simp only [CoOp.start, absStep]
      rw [ih]
      congr 1
      funext s
      unfold pullsFrom
      simp only [List.filterMap_cons, upd]
      by_cases h : s = src
      · subst h; simp; omega
      · rw [if_neg h, if_neg (Ne.symm h)]
    | push dst rem buf =>
      simp only [CoOp.start, absStep]
      rw [ih]
      rfl

theorem abs_sends (r : ℕ) (l : List (ℕ × I)) (x : (ℕ → ℕ) × M) :
    (l.flatMap fun a => [(.sendPost a.1 a.2 : CoInstr I B), .sendWait a.1]).foldl (absStep get put n ops mem r) x = x := by
  induction l with
  | nil => rfl
  | cons a l ih => rw [List.flatMap_cons, List.foldl_append]; exact ih

theorem abs_group (r s : ℕ) (l : List (I × CoBuf I B)) : ∀ (c : ℕ → ℕ) (m : M),
    (∀ j (hj : j < l.length), (fullMsgs get n ops mem s r)[c s + j]? = some (coValue get mem s (l[j]).2)) →
    ((l.map fun p => (s, p.1)).flatMap fun a => [(.recvPost a.1 : CoInstr I B), .recvWait a.1 a.2]).foldl (absStep get put n ops mem r) (c, m) =
      (upd c s (c s + l.length), l.foldl (fun m p => put p.1 (coValue get mem s p.2) m) m) := by
  induction l with
  | nil =>
    intro c m _
    have : upd c s (c s) = c := by funext x; unfold upd; split_ifs with h <;> simp [h]
    simp [this]
  | cons p l ih =>
    intro c m h
    rw [List.map_cons, List.flatMap_cons, List.foldl_append]
    have h0 := h 0 (by simp)
    simp only [Nat.add_zero, List.getElem_cons_zero] at h0
    simp only [List.foldl_cons, List.foldl_nil, absStep, upd_same, Nat.add_sub_cancel, h0]
    rw [ih]
    · congr 1
      funext x
      unfold upd
      by_cases hxs : x = s
      · simp [hxs]; omega
      · simp [hxs]
    · intro j hj
      have := h (j + 1) (by simp; omega)
      rw [upd_same, Nat.add_assoc, Nat.add_comm 1 j]
      simpa using this

theorem abs_recvs (r : ℕ) (hr : r < n) (hx : NoCross n ops) (L : List ℕ) (hL : L.Nodup) (hLn : ∀ s ∈ L, s < n) : ∀ (c : ℕ → ℕ) (m : M),
    (∀ s ∈ L, c s = (pullsFrom (ops r) s).length) →
    ∃ c', ((L.flatMap fun s => (pushesTo (ops s) r).map fun p => (s, p.1)).flatMap fun a =>
        [(.recvPost a.1 : CoInstr I B), .recvWait a.1 a.2]).foldl (absStep get put n ops mem r) (c, m) =
      (c', L.foldl (fun m s => (pushesTo (ops s) r).foldl (fun m p => put p.1 (coValue get mem s p.2) m) m) m) := by
  induction L with
  | nil => intro c m _; exact ⟨c, rfl⟩
  | cons s L ih =>
    intro c m hc
    rw [List.flatMap_cons, List.flatMap_append, List.foldl_append, abs_group]
    · obtain ⟨c', h⟩ := ih (List.nodup_cons.1 hL).2 (fun s hs => hLn s (List.mem_cons_of_mem _ hs)) (upd c s (c s + (pushesTo (ops s) r).length))
        ((pushesTo (ops s) r).foldl (fun m p => put p.1 (coValue get mem s p.2) m) m) (by
          intro s' hs'
          rw [upd_ne _ _ (by rintro rfl; exact (List.nodup_cons.1 hL).1 hs')]
          exact hc s' (List.mem_cons_of_mem _ hs'))
      exact ⟨c', h⟩
    · intro j hj
      have hcs := hc s (by simp)
      rcases hx s (hLn s (by simp)) r hr with h0 | h0
      · rw [h0] at hj; simp at hj
      · rw [hcs, h0, fullMsgs_eq get n ops mem hr, List.length_nil, Nat.zero_add, List.getElem?_append_left (by simpa using hj),
          List.getElem?_map, List.getElem?_eq_getElem hj]
        rfl

theorem finish_eq (r : ℕ) (l : List (CoOp I B)) : ∀ (q : ℕ → List (Option B)) (m : M),
    (∀ s, ∀ k (hk : k < (pullsFrom l s).length), (q s)[k]? = some (some (get (pullsFrom l s)[k] (mem s)))) →
    finishPulls put (pullSlots l) q m = l.foldl (doPull get put mem) m := by
  induction l with
  | nil => intros; rfl
  | cons op l ih =>
    intro q m h
    cases op with
    | push dst rem buf =>
      have := ih q m h
      unfold pullSlots at *
      simpa only [List.filterMap_cons, List.foldl_cons, doPull] using this
    | pull loc src rem =>
      have hcons : ∀ s, pullsFrom (.pull loc src rem :: l) s = if src = s then rem :: pullsFrom l s else pullsFrom l s := by
        intro s
        unfold pullsFrom
        simp only [List.filterMap_cons]
        by_cases hs : src = s <;> simp [hs]
      have h0 := h src 0 (by rw [hcons]; simp)
      have hh : (q src).headD none = some (get rem (mem src)) := by
        rw [List.headD_eq_head?_getD, List.head?_eq_getElem?, h0]
        simp [hcons]
      have hps : pullSlots (.pull loc src rem :: l) = (loc, src) :: pullSlots l := rfl
      rw [hps, List.foldl_cons]
      unfold finishPulls
      rw [hh]
      refine ih _ _ ?_
      intro s k hk
      by_cases hs : s = src
      · subst hs
        rw [upd_same, List.getElem?_tail]
        have := h s (k + 1) (by rw [hcons, if_pos rfl]; simpa using hk)
        rw [this]
        simp [hcons]
      · rw [upd_ne _ _ hs]
        have := h s k (by rw [hcons, if_neg (Ne.symm hs)]; exact hk)
        rw [this]
        simp [hcons, Ne.symm hs]

theorem abs_final (r : ℕ) (hr : r < n) (hx : NoCross n ops) (htgt : ∀ op ∈ ops r, op.image < n) :
    (absState get put n ops mem r (coProg n ops r)).2 = afterSync get put n ops mem r := by
  unfold absState coProg
  rw [List.foldl_append, List.foldl_append, List.foldl_append, abs_starts, abs_sends]
  unfold recvActions
  obtain ⟨c', h⟩ := abs_recvs (get := get) (put := put) (mem := mem) r hr hx (List.range n) List.nodup_range (fun s hs => List.mem_range.1 hs)
    (fun s => 0 + (pullsFrom (ops r) s).length) (mem r) (fun s _ => by omega)
  rw [h]
  simp only [List.foldl_cons, List.foldl_nil, absStep]
  unfold afterSync afterPushes
  apply finish_eq r
  intro s k hk
  have hsn : s < n := by
    by_contra hns
    have : pullsFrom (ops r) s = [] := by
      unfold pullsFrom
      rw [List.filterMap_eq_nil_iff]
      intro op hop
      have := htgt op hop
      cases op with
      | push => rfl
      | pull loc src rem =>
        simp only [CoOp.image] at this
        simp only [ite_eq_right_iff, reduceCtorEq, imp_false]
        omega
    rw [this] at hk
    simp at hk
  rcases hx s hsn r hr with h0 | h0
  · rw [fullMsgs_eq get n ops mem hr, h0]
    simp [hk]
  · rw [h0] at hk; simp at hk

/-! ## Progress -/

theorem sendPost_before (l : List (ℕ × I)) : ∀ (p rest : List (CoInstr I B)) (d : ℕ),
    (l.flatMap fun a => [(.sendPost a.1 a.2 : CoInstr I B), .sendWait a.1]) = p ++ .sendWait d :: rest → ∃ i, .sendPost d i ∈ p := by
  induction l with
  | nil => intro p rest d h; simp at h
  | cons a l ih =>
    intro p rest d h
    rw [List.flatMap_cons] at h
    match p, h with
    | [], h => simp at h
    | [x], h =>
      simp only [List.cons_append, List.nil_append, List.cons.injEq] at h
      obtain ⟨h1, h2, _⟩ := h
      cases h2
      exact ⟨a.2, by simp [← h1]⟩
    | x :: y :: p, h =>
      simp only [List.cons_append, List.nil_append, List.cons.injEq] at h
      obtain ⟨i, hi⟩ := ih p rest d h.2.2
      exact ⟨i, by simp [hi]⟩

theorem recvPost_before (l : List (ℕ × I)) : ∀ (p rest : List (CoInstr I B)) (s : ℕ) (i : I),
    (l.flatMap fun a => [(.recvPost a.1 : CoInstr I B), .recvWait a.1 a.2]) = p ++ .recvWait s i :: rest → .recvPost s ∈ p := by
  induction l with
  | nil => intro p rest d i h; simp at h
  | cons a l ih =>
    intro p rest s i h
    rw [List.flatMap_cons] at h
    match p, h with
    | [], h => simp at h
    | [x], h =>
      simp only [List.cons_append, List.nil_append, List.cons.injEq] at h
      obtain ⟨h1, h2, _⟩ := h
      cases h2
      simp [← h1]
    | x :: y :: p, h =>
      simp only [List.cons_append, List.nil_append, List.cons.injEq] at h
      have := ih p rest s i h.2.2
      simp [this]

/-- A split of a list at an element that is not in its first part. -/
theorem split_after {α : Type} {pre rest U V : List α} {x : α} (h : pre ++ x :: rest = U ++ V) (hx : x ∉ U) :
    ∃ t, pre = U ++ t ∧ V = t ++ x :: rest := by
  rcases List.append_eq_append_iff.1 h with ⟨a, h1, h2⟩ | ⟨a, h1, h2⟩
  · cases a with
    | nil => exact ⟨[], by simpa using h1.symm, by simpa using h2.symm⟩
    | cons y a =>
      simp only [List.cons_append, List.cons.injEq] at h2
      exact absurd (by rw [h1, ← h2.1]; simp) hx
  · exact ⟨a, h1, h2⟩

/-- A split at an element that is not in the second part. -/
theorem split_before {α : Type} {pre rest U V : List α} {x : α} (h : pre ++ x :: rest = U ++ V) (hx : x ∉ V) :
    ∃ t, U = pre ++ x :: t ∧ rest = t ++ V := by
  rcases List.append_eq_append_iff.1 h with ⟨a, h1, h2⟩ | ⟨a, h1, h2⟩
  · cases a with
    | nil => exact absurd (by simp at h2; simp [← h2]) hx
    | cons y a =>
      simp only [List.cons_append, List.cons.injEq] at h2
      obtain ⟨rfl, h2⟩ := h2
      exact ⟨a, h1, h2⟩
  · exact absurd (by simp [h2]) hx

theorem not_start (l : List (CoOp I B)) {x : CoInstr I B} (hx : (∀ d buf, x ≠ .isend d buf) ∧ ∀ s, x ≠ .irecv s) : x ∉ l.map CoOp.start := by
  intro h
  obtain ⟨op, _, rfl⟩ := List.mem_map.1 h
  cases op with
  | pull loc src rem => exact hx.2 src rfl
  | push dst rem buf => exact hx.1 dst buf rfl

/-- A rank that is past the start of its operations has posted them. -/
theorem started {pre : ℕ → List (CoInstr I B)} {st : CoState I B M} (h : CoInv get put n ops mem pre st) {r : ℕ} (hr : r < n)
    (hp : ∀ x rest, st.todo r = x :: rest → (∀ d buf, x ≠ .isend d buf) ∧ ∀ s, x ≠ .irecv s) :
    (∀ d, (pushesTo (ops r) d).length ≤ (st.chan r d).length) ∧ ∀ s, (pullsFrom (ops r) s).length ≤ (st.slot r s).length := by
  have key : ∃ t, pre r = (ops r).map CoOp.start ++ t := by
    have hprog := h.prog r hr
    cases htodo : st.todo r with
    | nil =>
      rw [htodo, List.append_nil] at hprog
      rw [hprog]
      exact ⟨_, by unfold coProg; rw [List.append_assoc, List.append_assoc]⟩
    | cons x rest =>
      rw [htodo] at hprog
      unfold coProg at hprog
      rw [List.append_assoc, List.append_assoc] at hprog
      obtain ⟨t, ht, _⟩ := split_after hprog (not_start _ (hp x rest htodo))
      exact ⟨t, ht⟩
  obtain ⟨t, ht⟩ := key
  constructor
  · intro d
    rw [h.chanLen r hr d, ht, List.filterMap_append, filterMap_starts]
    simp
  · intro s
    rw [h.slotLen r hr s, ht, List.countP_append, countP_starts]
    simp

theorem chan_le {pre : ℕ → List (CoInstr I B)} {st : CoState I B M} (h : CoInv get put n ops mem pre st) {r d : ℕ} (hr : r < n) (hd : d < n) :
    (st.chan r d).length ≤ (pushesTo (ops r) d).length + (pullsFrom (ops d) r).length := by
  have : (fullMsgs get n ops mem r d).length = (pushesTo (ops r) d).length + (pullsFrom (ops d) r).length := by
    rw [fullMsgs_eq get n ops mem hd]; simp
  rw [← this, h.chanLen r hr d]
  unfold fullMsgs
  rw [← h.prog r hr, List.filterMap_append]
  simp

theorem slot_le {pre : ℕ → List (CoInstr I B)} {st : CoState I B M} (h : CoInv get put n ops mem pre st) {r s : ℕ} (hr : r < n) (hs : s < n) :
    (st.slot r s).length ≤ (pullsFrom (ops r) s).length + (pushesTo (ops s) r).length := by
  rw [← countP_prog n ops hs, h.slotLen r hr s, ← h.prog r hr, List.countP_append]
  omega

/-- Some rank can go on or some message can be transferred, without the help of a send that completes early. -/
theorem co_progress {pre : ℕ → List (CoInstr I B)} {st : CoState I B M} (h : CoInv get put n ops mem pre st) (hx : NoCross n ops)
    (hend : ¬ st.ended n) : ∃ c st', coExec get put n ops st c = some st' ∧
      ((∃ r, c = .run r false) ∨ ∃ a b k, c = .transfer a b k) := by
  by_contra hno
  push Not at hno
  have hrun : ∀ r < n, coRun get put n ops st r false = none := by
    intro r hr
    cases hc : coRun get put n ops st r false with
    | none => rfl
    | some st' => exact absurd rfl ((hno (.run r false) st' (by simp [coExec, hr, hc])).1 r)
  have hdel : ∀ a < n, ∀ b < n, ∀ k, k < (st.chan a b).length → k < (st.slot b a).length → st.delivered a b k = true := by
    intro a ha b hb k h1 h2
    rw [delivered_iff]
    cases hc : (st.slot b a)[k] with
    | some v => exact ⟨v, by rw [List.getElem?_eq_getElem h2, hc]⟩
    | none =>
      exfalso
      have : coExec get put n ops st (.transfer a b k) ≠ none := by
        simp [coExec, ha, hb, List.getElem?_eq_getElem h1, List.getElem?_eq_getElem h2, hc]
      obtain ⟨st', hst'⟩ := Option.ne_none_iff_exists'.1 this
      exact absurd rfl ((hno _ st' hst').2 a b k)
  have hkind : ∀ r < n, ∀ x rest, st.todo r = x :: rest → (∃ d, x = .sendWait d) ∨ (∃ s i, x = .recvWait s i) ∨ x = .finish := by
    intro r hr x rest htodo
    have := hrun r hr
    unfold coRun at this
    rw [htodo] at this
    cases x <;> simp at this ⊢
  have hst : ∀ r < n, (∀ d, (pushesTo (ops r) d).length ≤ (st.chan r d).length) ∧ ∀ s, (pullsFrom (ops r) s).length ≤ (st.slot r s).length := by
    intro r hr
    apply started h hr
    intro x rest htodo
    rcases hkind r hr x rest htodo with ⟨d, rfl⟩ | ⟨s, i, rfl⟩ | rfl <;> simp
  have hsend : ∀ r < n, ∀ d rest, st.todo r ≠ .sendWait d :: rest := by
    intro r hr d rest htodo
    have hprog := h.prog r hr
    rw [htodo] at hprog
    have hprog' := hprog
    unfold coProg at hprog'
    rw [List.append_assoc, List.append_assoc] at hprog'
    obtain ⟨t, ht, ht'⟩ := split_after hprog' (not_start _ (by simp))
    obtain ⟨t2, ht2, _⟩ := split_before ht'.symm (by simp)
    obtain ⟨i, hi⟩ := sendPost_before _ _ _ _ ht2
    have hin : CoInstr.sendPost d i ∈ pre r := by rw [ht]; simp [hi]
    have hact : (d, i) ∈ sendActions n ops r := by
      have : CoInstr.sendPost d i ∈ ((sendActions n ops r).flatMap fun a => [(.sendPost a.1 a.2 : CoInstr I B), .sendWait a.1]) := by
        rw [ht2]; simp [hi]
      simp only [List.mem_flatMap, List.mem_cons, List.not_mem_nil, or_false, reduceCtorEq, CoInstr.sendPost.injEq] at this
      obtain ⟨a, ha, h1, h2⟩ := this
      rw [h1, h2]
      exact ha
    unfold sendActions at hact
    simp only [List.mem_flatMap, List.mem_range, List.mem_map, Prod.mk.injEq] at hact
    obtain ⟨d', hd, i', hi', rfl, rfl⟩ := hact
    have hpush : pushesTo (ops r) d' = [] := by
      rcases hx r hr d' hd with h0 | h0
      · exact h0
      · rw [h0] at hi'; simp at hi'
    have hpos : 0 < (st.chan r d').length := by
      rw [h.chanLen r hr d']
      apply List.length_pos_of_mem (a := get i' (mem r))
      exact List.mem_filterMap.2 ⟨_, hin, by simp [msgVal]⟩
    have hle := chan_le h hr hd
    rw [hpush] at hle
    have := (hst d' hd).2 r
    have hd2 := hdel r hr d' hd ((st.chan r d').length - 1) (by omega) (by simp at hle; omega)
    have hr2 := hrun r hr
    unfold coRun at hr2
    rw [htodo] at hr2
    simp [hd2] at hr2
  have hrecv : ∀ r < n, ∀ s i rest, st.todo r ≠ .recvWait s i :: rest := by
    intro r hr s i rest htodo
    have hprog := h.prog r hr
    rw [htodo] at hprog
    have hprog' := hprog
    unfold coProg at hprog'
    rw [List.append_assoc ((ops r).map CoOp.start ++ _)] at hprog'
    obtain ⟨t, ht, ht'⟩ := split_after hprog' (by
      rw [List.mem_append]
      rintro (h1 | h1)
      · exact not_start _ (by simp) h1
      · simp at h1)
    obtain ⟨t2, ht2, _⟩ := split_before ht'.symm (by simp)
    have hi := recvPost_before _ _ _ _ _ ht2
    have hin : CoInstr.recvPost s ∈ pre r := by rw [ht]; simp [hi]
    have hact := recvWait_mem (todo_mem h hr htodo)
    have hs := coSource_lt hact
    have hpull : pullsFrom (ops r) s = [] := by
      rcases hx s hs r hr with h0 | h0
      · exfalso
        unfold recvActions at hact
        simp only [List.mem_flatMap, List.mem_range, List.mem_map, Prod.mk.injEq] at hact
        obtain ⟨s', _, p, hp, rfl, _⟩ := hact
        rw [h0] at hp
        simp at hp
      · exact h0
    have hpos : 0 < (st.slot r s).length := by
      rw [h.slotLen r hr s, List.countP_pos_iff]
      exact ⟨_, hin, by simp [posts]⟩
    have hle := slot_le h hr hs
    rw [hpull] at hle
    have := (hst s hs).1 r
    have hd2 := hdel s hs r hr ((st.slot r s).length - 1) (by simp at hle; omega) (by omega)
    obtain ⟨v, hv⟩ := delivered_iff.1 hd2
    have hr2 := hrun r hr
    unfold coRun at hr2
    rw [htodo] at hr2
    simp [List.getLast?_eq_getElem?, hv] at hr2
  have hfin : ∀ r < n, st.todo r = [] ∨ st.todo r = [.finish] := by
    intro r hr
    cases htodo : st.todo r with
    | nil => exact Or.inl rfl
    | cons x rest =>
      rcases hkind r hr x rest htodo with ⟨d, rfl⟩ | ⟨s, i, rfl⟩ | rfl
      · exact absurd htodo (hsend r hr d rest)
      · exact absurd htodo (hrecv r hr s i rest)
      · rw [(finish_last h hr htodo).1]
        exact Or.inr rfl
  have hall : ∀ a < n, ∀ b < n, (st.chan a b).length = (pushesTo (ops a) b).length + (pullsFrom (ops b) a).length ∧
      (st.slot b a).length = (pullsFrom (ops b) a).length + (pushesTo (ops a) b).length := by
    intro a ha b hb
    have h1 : ∀ r < n, ∃ t, coProg n ops r = pre r ++ t ∧ (t = [] ∨ t = [.finish]) := fun r hr => ⟨_, (h.prog r hr).symm, hfin r hr⟩
    constructor
    · obtain ⟨t, ht, ht'⟩ := h1 a ha
      have : (fullMsgs get n ops mem a b).length = (pushesTo (ops a) b).length + (pullsFrom (ops b) a).length := by
        rw [fullMsgs_eq get n ops mem hb]; simp
      rw [← this, h.chanLen a ha b]
      unfold fullMsgs
      rw [ht, List.filterMap_append]
      rcases ht' with rfl | rfl <;> simp [msgVal, List.filterMap_cons]
    · obtain ⟨t, ht, ht'⟩ := h1 b hb
      rw [← countP_prog n ops ha, h.slotLen b hb a, ht, List.countP_append]
      rcases ht' with rfl | rfl <;> simp [posts]
  unfold CoState.ended at hend
  push Not at hend
  obtain ⟨r, hr, hne⟩ := hend
  have htodo : st.todo r = [.finish] := (hfin r hr).resolve_left hne
  have hr2 := hrun r hr
  unfold coRun at hr2
  rw [htodo] at hr2
  simp only [ite_eq_right_iff, reduceCtorEq, imp_false] at hr2
  apply hr2
  rw [Bool.and_eq_true, List.all_eq_true, List.all_eq_true]
  constructor
  · intro s hs
    rw [List.mem_range] at hs
    rw [List.all_eq_true]
    intro o ho
    obtain ⟨k, hk, rfl⟩ := List.getElem_of_mem ho
    obtain ⟨h1, h2⟩ := hall s hs r hr
    obtain ⟨v, hv⟩ := delivered_iff.1 (hdel s hs r hr k (by omega) hk)
    rw [List.getElem?_eq_getElem hk] at hv
    simp only [Option.some.injEq] at hv
    rw [hv]
    rfl
  · intro d hd
    rw [List.mem_range] at hd
    rw [List.all_eq_true]
    intro k hk
    rw [List.mem_range] at hk
    obtain ⟨h1, h2⟩ := hall r hr d hd
    rw [hdel r hr d hd k hk (by omega)]
    rfl

/-! ## Termination -/

def CoBuf.isView : CoBuf I B → Bool
  | .view _ => true
  | .val _ => false

/-- What rank `r` and MPI still have to do for it. -/
def coWork (n : ℕ) (st : CoState I B M) (r : ℕ) : ℕ :=
  3 * (st.todo r).length + ∑ d ∈ Finset.range n, ((st.chan r d).countP CoBuf.isView + (st.slot r d).countP Option.isNone)

def coMeasure (n : ℕ) (st : CoState I B M) : ℕ := ∑ r ∈ Finset.range n, coWork n st r

theorem measure_lt {st st' : CoState I B M} {r : ℕ} (hr : r < n) (ho : ∀ r', r' ≠ r → coWork n st' r' = coWork n st r')
    (hlt : coWork n st' r < coWork n st r) : coMeasure n st' < coMeasure n st := by
  unfold coMeasure
  apply Finset.sum_lt_sum
  · intro r' _
    by_cases h : r' = r
    · subst h; exact hlt.le
    · exact (ho r' h).le
  · exact ⟨r, Finset.mem_range.2 hr, hlt⟩

theorem sum_le_add_one {f g : ℕ → ℕ} (n d : ℕ) (h : ∀ x, x ≠ d → f x ≤ g x) (hd : f d ≤ g d + 1) :
    ∑ x ∈ Finset.range n, f x ≤ ∑ x ∈ Finset.range n, g x + 1 := by
  have h1 : ∀ x ∈ Finset.range n, f x ≤ g x + if x = d then 1 else 0 := by
    intro x _
    split_ifs with hx
    · subst hx; exact hd
    · exact h x hx
  refine (Finset.sum_le_sum h1).trans ?_
  rw [Finset.sum_add_distrib, Finset.sum_ite_eq']
  split_ifs <;> omega

theorem countP_set_lt {α : Type} (p : α → Bool) (l : List α) (k : ℕ) (x y : α) (hk : l[k]? = some x) (hx : p x = true) (hy : p y = false) :
    (l.set k y).countP p < l.countP p := by
  induction l generalizing k with
  | nil => simp at hk
  | cons a l ih =>
    cases k with
    | zero =>
      simp at hk
      subst hk
      simp [hx, hy]
    | succ k =>
      simp at hk
      simp only [List.set_cons_succ, List.countP_cons]
      have := ih k hk
      omega

theorem exec_measure {st st' : CoState I B M} (c : CoChoice) (hs : coExec get put n ops st c = some st') :
    coMeasure n st' < coMeasure n st := by
  cases c with
  | run r eager =>
    simp only [coExec] at hs
    split_ifs at hs with hr
    unfold coRun at hs
    have hpure : ∀ (x : CoInstr I B) rest (m : ℕ → M), st.todo r = x :: rest →
        coMeasure n { st with todo := upd st.todo r rest, mem := m } < coMeasure n st := by
      intro x rest m htodo
      refine measure_lt hr ?_ ?_
      · intro r' h'
        simp only [coWork, upd_ne _ _ h']
      · simp only [coWork, upd_same, htodo, List.length_cons]
        omega
    have hchan : ∀ (x : CoInstr I B) rest d buf, st.todo r = x :: rest → coMeasure n { st with
        todo := upd st.todo r rest, chan := upd st.chan r (upd (st.chan r) d (st.chan r d ++ [buf])) } < coMeasure n st := by
      intro x rest d buf htodo
      refine measure_lt hr ?_ ?_
      · intro r' h'
        simp only [coWork, upd_ne _ _ h']
      · simp only [coWork, upd_same, htodo, List.length_cons]
        have := sum_le_add_one n d (f := fun d' => (upd (st.chan r) d (st.chan r d ++ [buf]) d').countP CoBuf.isView +
          (st.slot r d').countP Option.isNone) (g := fun d' => (st.chan r d').countP CoBuf.isView + (st.slot r d').countP Option.isNone)
          (by intro x hx; rw [upd_ne _ _ hx]) (by
            rw [upd_same, List.countP_append]
            have : [buf].countP CoBuf.isView ≤ 1 := List.countP_le_length
            omega)
        omega
    have hslot : ∀ (x : CoInstr I B) rest s, st.todo r = x :: rest → coMeasure n { st with
        todo := upd st.todo r rest, slot := upd st.slot r (upd (st.slot r) s (st.slot r s ++ [none])) } < coMeasure n st := by
      intro x rest s htodo
      refine measure_lt hr ?_ ?_
      · intro r' h'
        simp only [coWork, upd_ne _ _ h']
      · simp only [coWork, upd_same, htodo, List.length_cons]
        have := sum_le_add_one n s (f := fun d' => (st.chan r d').countP CoBuf.isView +
          (upd (st.slot r) s (st.slot r s ++ [none]) d').countP Option.isNone) (g := fun d' => (st.chan r d').countP CoBuf.isView + (st.slot r d').countP Option.isNone)
          (by intro x hx; rw [upd_ne _ _ hx]) (by
            rw [upd_same, List.countP_append]
            simp
            omega)
        omega
    split at hs
    · cases hs
    · rename_i htodo; cases hs; exact hchan _ _ _ _ htodo
    · rename_i htodo; cases hs; exact hslot _ _ _ htodo
    · rename_i htodo; cases hs; exact hchan _ _ _ _ htodo
    · rename_i htodo
      split_ifs at hs
      cases hs
      exact hpure _ _ _ htodo
    · rename_i htodo; cases hs; exact hslot _ _ _ htodo
    · rename_i htodo
      split at hs
      · cases hs; exact hpure _ _ _ htodo
      · cases hs
    · rename_i htodo
      split_ifs at hs
      cases hs
      exact hpure _ _ _ htodo
  | capture a b k =>
    simp only [coExec] at hs
    split_ifs at hs with hab
    split at hs
    · rename_i i hk
      cases hs
      refine measure_lt hab.1 ?_ ?_
      · intro r' h'
        simp only [coWork, upd_ne _ _ h']
      · simp only [coWork, upd_same]
        refine Nat.add_lt_add_left ?_ _
        apply Finset.sum_lt_sum
        · intro d _
          by_cases hd : d = b
          · subst hd
            rw [upd_same]
            have := countP_set_lt CoBuf.isView _ k _ (.val (get i (st.mem a))) hk rfl rfl
            omega
          · rw [upd_ne _ _ hd]
        · refine ⟨b, Finset.mem_range.2 hab.2, ?_⟩
          rw [upd_same]
          have := countP_set_lt CoBuf.isView _ k _ (.val (get i (st.mem a))) hk rfl rfl
          omega
    · cases hs
  | transfer a b k =>
    simp only [coExec] at hs
    split_ifs at hs with hab
    split at hs
    · rename_i buf hk hslot
      cases hs
      refine measure_lt hab.2 ?_ ?_
      · intro r' h'
        simp only [coWork, upd_ne _ _ h']
      · simp only [coWork, upd_same]
        refine Nat.add_lt_add_left ?_ _
        apply Finset.sum_lt_sum
        · intro d _
          by_cases hd : d = a
          · subst hd
            rw [upd_same]
            have := countP_set_lt Option.isNone _ k _ (some (st.read get d buf)) hslot rfl rfl
            omega
          · rw [upd_ne _ _ hd]
        · refine ⟨a, Finset.mem_range.2 hab.1, ?_⟩
          rw [upd_same]
          have := countP_set_lt Option.isNone _ k _ (some (st.read get a buf)) hslot rfl rfl
          omega
    · cases hs

end
end Pmesh
