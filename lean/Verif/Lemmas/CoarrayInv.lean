import Verif.Lemmas.Coarray
import Mathlib.Tactic.Push

/-! # The invariant of `coarray.sync` -/

set_option linter.unusedSectionVars false

namespace Pmesh
section
variable {I B M : Type} {get : I → M → B} {put : I → B → M → M} {n : ℕ} {ops : ℕ → List (CoOp I B)} {mem : ℕ → M}

theorem delivered_iff {st : CoState I B M} {a b k : ℕ} : st.delivered a b k = true ↔ ∃ v, (st.slot b a)[k]? = some (some v) := by
  unfold CoState.delivered
  split
  · rename_i v h; simp [h]
  · rename_i h
    simp only [Bool.false_eq_true, false_iff]
    rintro ⟨v, hv⟩
    exact h v hv

theorem CoInv.init : CoInv get put n ops mem (fun _ => []) (coInit n ops mem) where
  prog := fun _ _ => rfl
  chanLen := fun _ _ _ => rfl
  chanVal := by intro r _ d k buf h; simp [coInit] at h
  slotLen := fun _ _ _ => rfl
  slotVal := by intro r _ s _ k b h; simp [coInit] at h
  memEq := fun _ _ => rfl

/-- An instruction of rank `r` preserves the invariant if it changes the state as the instruction says. -/
theorem CoInv.run {pre : ℕ → List (CoInstr I B)} {st st' : CoState I B M} (h : CoInv get put n ops mem pre st) {r : ℕ} (hr : r < n)
    {x : CoInstr I B} {rest : List (CoInstr I B)} (htodo : st.todo r = x :: rest) (htodo' : st'.todo = upd st.todo r rest)
    (hchO : ∀ r', r' ≠ r → st'.chan r' = st.chan r')
    (hch : ∀ d, (msgVal get mem r d x = none ∧ st'.chan r d = st.chan r d) ∨
      ∃ v buf, msgVal get mem r d x = some v ∧ st'.chan r d = st.chan r d ++ [buf] ∧ Resolves get ops r (st'.mem r) buf v)
    (hslO : ∀ r', r' ≠ r → st'.slot r' = st.slot r')
    (hsl : ∀ s, (posts s x = false ∧ st'.slot r s = st.slot r s) ∨ (posts s x = true ∧ st'.slot r s = st.slot r s ++ [none]))
    (hmO : ∀ r', r' ≠ r → st'.mem r' = st.mem r')
    (hm : st'.mem r = (absStep get put n ops mem r (absState get put n ops mem r (pre r)) x).2)
    (hstab : ∀ (d k : ℕ) (buf : CoBuf I B) (v : B), (st.chan r d)[k]? = some buf → st.delivered r d k = false →
      Resolves get ops r (st.mem r) buf v → Resolves get ops r (st'.mem r) buf v) :
    CoInv get put n ops mem (upd pre r (pre r ++ [x])) st' := by
  have happ : ∀ a b, ∃ l, st'.slot a b = st.slot a b ++ l := by
    intro a b
    by_cases ha : a = r
    · subst ha
      rcases hsl b with ⟨_, h⟩ | ⟨_, h⟩
      · exact ⟨[], by simp [h]⟩
      · exact ⟨_, h⟩
    · exact ⟨[], by simp [hslO a ha]⟩
  have hmono : ∀ {a b k : ℕ}, st.delivered a b k = true → st'.delivered a b k = true := by
    intro a b k hd
    rw [delivered_iff] at hd ⊢
    obtain ⟨v, hv⟩ := hd
    obtain ⟨l, hl⟩ := happ b a
    refine ⟨v, ?_⟩
    rw [hl, List.getElem?_append_left (List.getElem?_eq_some_iff.1 hv).1]
    exact hv
  have hprog : ∀ r' < n, upd pre r (pre r ++ [x]) r' ++ st'.todo r' = coProg n ops r' := by
    intro r' hr'
    rw [htodo']
    by_cases hrr : r' = r
    · subst hrr
      rw [upd_same, upd_same, List.append_assoc, List.singleton_append, ← htodo]
      exact h.prog _ hr'
    · rw [upd_ne _ _ hrr, upd_ne _ _ hrr]
      exact h.prog _ hr'
  refine ⟨hprog, ?_, ?_, ?_, ?_, ?_⟩
  · intro r' hr' d
    by_cases hrr : r' = r
    · subst hrr
      rw [upd_same, List.filterMap_append, List.length_append, ← h.chanLen _ hr' d]
      rcases hch d with ⟨h1, h2⟩ | ⟨v, buf, h1, h2, _⟩
      · rw [h2]; simp [List.filterMap_cons, h1]
      · rw [h2]; simp [List.filterMap_cons, h1]
    · rw [upd_ne _ _ hrr, hchO _ hrr]
      exact h.chanLen _ hr' d
  · intro r' hr' d k buf hk
    by_cases hrr : r' = r
    · subst hrr
      have old : (st.chan r' d)[k]? = some buf → st'.delivered r' d k = true ∨
          ∃ v, (fullMsgs get n ops mem r' d)[k]? = some v ∧ Resolves get ops r' (st'.mem r') buf v := by
        intro hk
        rcases Bool.eq_false_or_eq_true (st.delivered r' d k) with hd | hd
        · exact Or.inl (hmono hd)
        · rcases h.chanVal _ hr' d k buf hk with h1 | ⟨v, h1, h2⟩
          · rw [hd] at h1; cases h1
          · exact Or.inr ⟨v, h1, hstab d k buf v hk hd h2⟩
      rcases hch d with ⟨h1, h2⟩ | ⟨v, buf', h1, h2, h3⟩
      · rw [h2] at hk
        exact old hk
      · rw [h2] at hk
        by_cases hlt : k < (st.chan r' d).length
        · rw [List.getElem?_append_left hlt] at hk
          exact old hk
        · rw [List.getElem?_append_right (by omega)] at hk
          have hk0 : k = (st.chan r' d).length := by
            have := (List.getElem?_eq_some_iff.1 hk).1
            simp at this
            omega
          subst hk0
          simp at hk
          subst hk
          refine Or.inr ⟨v, ?_, h3⟩
          unfold fullMsgs
          rw [← h.prog _ hr', htodo, List.filterMap_append, h.chanLen _ hr' d, List.getElem?_append_right le_rfl]
          simp [List.filterMap_cons, h1]
    · rw [hchO _ hrr] at hk
      rw [hmO _ hrr]
      rcases h.chanVal _ hr' d k buf hk with h1 | h1
      · exact Or.inl (hmono h1)
      · exact Or.inr h1
  · intro r' hr' s
    by_cases hrr : r' = r
    · subst hrr
      rw [upd_same, List.countP_append, ← h.slotLen _ hr' s]
      rcases hsl s with ⟨h1, h2⟩ | ⟨h1, h2⟩
      · rw [h2]; simp [h1]
      · rw [h2]; simp [h1]
    · rw [upd_ne _ _ hrr, hslO _ hrr]
      exact h.slotLen _ hr' s
  · intro r' hr' s hs k b hk
    by_cases hrr : r' = r
    · subst hrr
      rcases hsl s with ⟨h1, h2⟩ | ⟨h1, h2⟩
      · rw [h2] at hk
        exact h.slotVal _ hr' s hs k b hk
      · rw [h2] at hk
        by_cases hlt : k < (st.slot r' s).length
        · rw [List.getElem?_append_left hlt] at hk
          exact h.slotVal _ hr' s hs k b hk
        · rw [List.getElem?_append_right (by omega)] at hk
          have := (List.getElem?_eq_some_iff.1 hk).1
          have hk0 : k - (st.slot r' s).length = 0 := by simp at this; omega
          rw [hk0] at hk
          simp at hk
    · rw [hslO _ hrr] at hk
      exact h.slotVal _ hr' s hs k b hk
  · intro r' hr'
    by_cases hrr : r' = r
    · subst hrr
      rw [upd_same, absState_snoc, hm]
    · rw [upd_ne _ _ hrr, hmO _ hrr]
      exact h.memEq _ hr'

theorem finishPulls_congr (l : List (I × ℕ)) : ∀ (q q' : ℕ → List (Option B)) (m : M),
    (∀ s, ∀ k < (l.filter fun p => decide (p.2 = s)).length, (q s)[k]? = (q' s)[k]?) → finishPulls put l q m = finishPulls put l q' m := by
  induction l with
  | nil => intros; rfl
  | cons p l ih =>
    intro q q' m h
    obtain ⟨loc, s⟩ := p
    have hhead : (q s).headD none = (q' s).headD none := by
      have := h s 0 (by simp)
      rw [List.headD_eq_head?_getD, List.headD_eq_head?_getD, List.head?_eq_getElem?, List.head?_eq_getElem?, this]
    unfold finishPulls
    rw [hhead]
    apply ih
    intro s' k hk
    by_cases hs : s' = s
    · subst hs
      rw [upd_same, upd_same, List.getElem?_tail, List.getElem?_tail]
      apply h
      simp
      omega
    · rw [upd_ne _ _ hs, upd_ne _ _ hs]
      apply h
      rw [List.filter_cons, if_neg (by simpa using Ne.symm hs)]
      exact hk

theorem pullSlots_count (l : List (CoOp I B)) (s : ℕ) :
    ((pullSlots l).filter fun p => decide (p.2 = s)).length = (pullsFrom l s).length := by
  induction l with
  | nil => rfl
  | cons op l ih =>
    unfold pullSlots pullsFrom at *
    cases op with
    | pull loc src rem =>
      simp only [List.filterMap_cons, List.filter_cons, decide_eq_true_eq]
      by_cases h : src = s <;> simp [h, ih]
    | push dst rem buf => simpa only [List.filterMap_cons] using ih

theorem todo_mem {pre : ℕ → List (CoInstr I B)} {st : CoState I B M} (h : CoInv get put n ops mem pre st) {r : ℕ} (hr : r < n)
    {x : CoInstr I B} {rest : List (CoInstr I B)} (htodo : st.todo r = x :: rest) : x ∈ coProg n ops r := by
  rw [← h.prog r hr, htodo]
  simp

theorem isend_mem {r d : ℕ} {buf : CoBuf I B} (h : CoInstr.isend d buf ∈ coProg n ops r) : ∃ rem, CoOp.push d rem buf ∈ ops r := by
  unfold coProg at h
  simp only [List.mem_append, List.mem_flatMap, List.mem_cons, List.not_mem_nil, or_false, reduceCtorEq, and_false, exists_false, List.mem_map] at h
  obtain ⟨op, h1, h2⟩ := h
  cases op with
  | pull => cases h2
  | push dst rem b => cases h2; exact ⟨rem, h1⟩

theorem recvWait_mem {r s : ℕ} {i : I} (h : CoInstr.recvWait s i ∈ coProg n ops r) : (s, i) ∈ recvActions n ops r := by
  unfold coProg at h
  simp only [List.mem_append, List.mem_flatMap, List.mem_cons, List.not_mem_nil, or_false, reduceCtorEq, and_false, exists_false, false_or,
    List.mem_map, CoInstr.recvWait.injEq, or_assoc] at h
  rcases h with ⟨op, h1, h2⟩ | ⟨a, h1, h2, h3⟩
  · cases op <;> cases h2
  · subst h2 h3; exact h1

theorem coSource_lt {r s : ℕ} {i : I} (h : (s, i) ∈ recvActions n ops r) : s < n := by
  unfold recvActions at h
  simp only [List.mem_flatMap, List.mem_range, List.mem_map, Prod.mk.injEq] at h
  obtain ⟨a, ha, _, _, rfl, _⟩ := h
  exact ha

/-- The finishing instruction is the last. -/
theorem finish_last {pre : ℕ → List (CoInstr I B)} {st : CoState I B M} (h : CoInv get put n ops mem pre st) {r : ℕ} (hr : r < n)
    {rest : List (CoInstr I B)} (htodo : st.todo r = .finish :: rest) : rest = [] ∧
      ∀ s < n, (pre r).countP (posts s) = (pullsFrom (ops r) s).length + (pushesTo (ops s) r).length := by
  have hp := h.prog r hr
  rw [htodo] at hp
  have hrest : rest = [] := by
    unfold coProg at hp
    set body := (ops r).map CoOp.start ++ ((sendActions n ops r).flatMap fun a => [.sendPost a.1 a.2, .sendWait a.1]) ++
      ((recvActions n ops r).flatMap fun a => [.recvPost a.1, .recvWait a.1 a.2]) with hbody
    have hnot : CoInstr.finish ∉ body := by
      rw [hbody]
      simp only [List.mem_append, List.mem_flatMap, List.mem_cons, List.not_mem_nil, or_false, reduceCtorEq, and_false, exists_false,
        List.mem_map, not_exists, not_and]
      intro op _
      cases op <;> simp [CoOp.start]
    have hlen : (pre r).length = body.length := by
      by_contra hne
      have hl : (pre r).length + rest.length = body.length := by
        have := congrArg List.length hp
        simp at this
        omega
      have h1 : body[(pre r).length]? = some .finish := by
        have h2 : (body ++ [CoInstr.finish])[(pre r).length]? = some .finish := by rw [← hp]; simp
        rwa [List.getElem?_append_left (by omega)] at h2
      exact hnot (List.mem_of_getElem? h1)
    have := congrArg List.length hp
    simp at this
    apply List.eq_nil_of_length_eq_zero
    omega
  refine ⟨hrest, ?_⟩
  intro s hs
  rw [← countP_prog n ops hs, ← h.prog r hr, htodo, hrest, List.countP_append]
  simp [posts]

/-- An element that is not in the second part of a list is in the first part, with what is before it. -/
theorem before_of_not_mem {α : Type} {pre rest U V : List α} {x : α} (h : pre ++ x :: rest = U ++ V) (hx : x ∉ V) : ∀ y ∈ pre, y ∈ U := by
  have hlt : pre.length < U.length := by
    by_contra hge
    push Not at hge
    apply hx
    have h1 : (U ++ V)[pre.length]? = some x := by rw [← h]; simp
    rw [List.getElem?_append_right hge] at h1
    exact List.mem_of_getElem? h1
  have h2 : pre = U.take pre.length := by
    have := congrArg (List.take pre.length) h
    rwa [List.take_left, List.take_append_of_le_length hlt.le] at this
  intro y hy
  rw [h2] at hy
  exact List.mem_of_mem_take hy

/-- Before a rank starts to receive, its array is as before the synchronisation. -/
theorem absState_mem (r : ℕ) (p : List (CoInstr I B)) (hp : ∀ y ∈ p, y ∈ (ops r).map CoOp.start ++
    ((sendActions n ops r).flatMap fun a => [.sendPost a.1 a.2, .sendWait a.1])) : (absState get put n ops mem r p).2 = mem r := by
  induction p using List.reverseRecOn with
  | nil => rfl
  | append_singleton p y ih =>
    rw [absState_snoc]
    have ih' := ih fun y hy => hp y (by simp [hy])
    have hy := hp y (by simp)
    simp only [List.mem_append, List.mem_flatMap, List.mem_cons, List.not_mem_nil, or_false, List.mem_map] at hy
    rcases hy with ⟨op, _, rfl⟩ | ⟨a, _, rfl | rfl⟩
    · cases op <;> exact ih'
    · exact ih'
    · exact ih'

theorem mem_before_send {pre : ℕ → List (CoInstr I B)} {st : CoState I B M} (h : CoInv get put n ops mem pre st) {r : ℕ} (hr : r < n)
    {x : CoInstr I B} {rest : List (CoInstr I B)} (htodo : st.todo r = x :: rest)
    (hx : (∃ d buf, x = .isend d buf) ∨ ∃ d i, x = .sendPost d i) : st.mem r = mem r := by
  rw [h.memEq r hr]
  apply absState_mem
  have hp := h.prog r hr
  rw [htodo] at hp
  unfold coProg at hp
  rw [List.append_assoc ((ops r).map CoOp.start ++ _)] at hp
  refine before_of_not_mem hp ?_
  rcases hx with ⟨d, buf, rfl⟩ | ⟨d, i, rfl⟩ <;>
  simp

theorem chan_target {pre : ℕ → List (CoInstr I B)} {st : CoState I B M} (h : CoInv get put n ops mem pre st)
    (htgt : ∀ r < n, ∀ op ∈ ops r, op.image < n) {r d k : ℕ} (hr : r < n) {buf : CoBuf I B} (hk : (st.chan r d)[k]? = some buf) : d < n := by
  have hlt := (List.getElem?_eq_some_iff.1 hk).1
  rw [h.chanLen r hr d] at hlt
  obtain ⟨y, hy, hy'⟩ := List.mem_filterMap.1 (List.getElem_mem hlt)
  have hy2 : y ∈ coProg n ops r := by rw [← h.prog r hr]; simp [hy]
  cases y with
  | isend d' buf' =>
    simp only [msgVal] at hy'
    split_ifs at hy' with hd
    subst hd
    obtain ⟨rem, hrem⟩ := isend_mem hy2
    exact htgt r hr _ hrem
  | sendPost d' i =>
    simp only [msgVal] at hy'
    split_ifs at hy' with hd
    subst hd
    unfold coProg sendActions at hy2
    simp only [List.mem_append, List.mem_flatMap, List.mem_cons, List.not_mem_nil, or_false, reduceCtorEq, and_false, exists_false,
      List.mem_map, CoInstr.sendPost.injEq, List.mem_range] at hy2
    rcases hy2 with ⟨op, _, h2⟩ | ⟨a, ⟨d, hd, _, _, rfl⟩, rfl, _⟩
    · cases op <;> cases h2
    · exact hd
  | _ => cases hy'

theorem CoInv.exec (hst : PushesStable get put n ops) (htgt : ∀ r < n, ∀ op ∈ ops r, op.image < n)
    {pre : ℕ → List (CoInstr I B)} {st st' : CoState I B M} (h : CoInv get put n ops mem pre st) (c : CoChoice)
    (hs : coExec get put n ops st c = some st') : ∃ pre', CoInv get put n ops mem pre' st' := by
  cases c with
  | run r eager =>
    simp only [coExec] at hs
    split_ifs at hs with hr
    unfold coRun at hs
    have triv : ∀ (d k : ℕ) (buf : CoBuf I B) (v : B), (st.chan r d)[k]? = some buf → st.delivered r d k = false →
      Resolves get ops r (st.mem r) buf v → Resolves get ops r (st.mem r) buf v := fun _ _ _ _ _ _ h => h
    split at hs
    · cases hs
    · -- isend
      rename_i d buf rest htodo
      cases hs
      obtain ⟨rem, hrem⟩ := isend_mem (todo_mem h hr htodo)
      refine ⟨_, h.run hr htodo rfl (fun r' h' => upd_ne _ _ h') ?_ (fun _ _ => rfl) (fun s => Or.inl ⟨rfl, rfl⟩) (fun _ _ => rfl)
        (h.memEq r hr) triv⟩
      intro d'
      by_cases hd : d' = d
      · subst hd
        refine Or.inr ⟨coValue get mem r buf, buf, by simp [msgVal], by simp [upd_same], ?_⟩
        cases buf with
        | val b => exact Or.inl rfl
        | view i =>
          refine Or.inr ⟨i, rfl, ?_, _, rem, hrem⟩
          show get i (st.mem r) = get i (mem r)
          rw [mem_before_send h hr htodo (Or.inl ⟨_, _, rfl⟩)]
      · exact Or.inl ⟨by simp [msgVal, Ne.symm hd], by simp [upd_same, upd_ne _ _ hd]⟩
    · -- irecv
      rename_i s rest htodo
      cases hs
      refine ⟨_, h.run hr htodo rfl (fun _ _ => rfl) (fun d => Or.inl ⟨rfl, rfl⟩) (fun r' h' => upd_ne _ _ h') ?_ (fun _ _ => rfl)
        (h.memEq r hr) triv⟩
      intro s'
      by_cases hd : s' = s
      · subst hd
        exact Or.inr ⟨by simp [posts], by simp [upd_same]⟩
      · exact Or.inl ⟨by simp [posts, Ne.symm hd], by simp [upd_same, upd_ne _ _ hd]⟩
    · -- sendPost
      rename_i d i rest htodo
      cases hs
      refine ⟨_, h.run hr htodo rfl (fun r' h' => upd_ne _ _ h') ?_ (fun _ _ => rfl) (fun s => Or.inl ⟨rfl, rfl⟩) (fun _ _ => rfl)
        (h.memEq r hr) triv⟩
      intro d'
      by_cases hd : d' = d
      · subst hd
        refine Or.inr ⟨get i (mem r), .val (get i (st.mem r)), by simp [msgVal], by simp [upd_same], Or.inl ?_⟩
        rw [mem_before_send h hr htodo (Or.inr ⟨_, _, rfl⟩)]
      · exact Or.inl ⟨by simp [msgVal, Ne.symm hd], by simp [upd_same, upd_ne _ _ hd]⟩
    · -- sendWait
      rename_i d rest htodo
      split_ifs at hs
      cases hs
      exact ⟨_, h.run hr htodo rfl (fun _ _ => rfl) (fun d => Or.inl ⟨rfl, rfl⟩) (fun _ _ => rfl) (fun s => Or.inl ⟨rfl, rfl⟩)
        (fun _ _ => rfl) (h.memEq r hr) triv⟩
    · -- recvPost
      rename_i s rest htodo
      cases hs
      refine ⟨_, h.run hr htodo rfl (fun _ _ => rfl) (fun d => Or.inl ⟨rfl, rfl⟩) (fun r' h' => upd_ne _ _ h') ?_ (fun _ _ => rfl)
        (h.memEq r hr) triv⟩
      intro s'
      by_cases hd : s' = s
      · subst hd
        exact Or.inr ⟨by simp [posts], by simp [upd_same]⟩
      · exact Or.inl ⟨by simp [posts, Ne.symm hd], by simp [upd_same, upd_ne _ _ hd]⟩
    · -- recvWait
      rename_i s i rest htodo
      split at hs
      · rename_i b hlast
        cases hs
        have hmem := recvWait_mem (todo_mem h hr htodo)
        refine ⟨_, h.run hr htodo rfl (fun _ _ => rfl) (fun d => Or.inl ⟨rfl, rfl⟩) (fun _ _ => rfl) (fun s => Or.inl ⟨rfl, rfl⟩)
          (fun r' h' => upd_ne _ _ h') ?_ ?_⟩
        · rw [List.getLast?_eq_getElem?, h.slotLen r hr s] at hlast
          have := h.slotVal r hr s (coSource_lt hmem) _ b hlast
          simp only [upd_same, absStep, absState_count, this, h.memEq r hr]
        · intro d k buf v _ _ hres
          rcases hres with h1 | ⟨j, h1, h2, d', rem', h3⟩
          · exact Or.inl h1
          · refine Or.inr ⟨j, h1, ?_, d', rem', h3⟩
            simp only [upd_same]
            rw [hst r hr _ _ _ h3 _ hmem]
            exact h2
      · cases hs
    · -- finish
      rename_i rest htodo
      split_ifs at hs with hg
      cases hs
      rw [Bool.and_eq_true, List.all_eq_true, List.all_eq_true] at hg
      obtain ⟨hg1, hg2⟩ := hg
      obtain ⟨hrest, hcount⟩ := finish_last h hr htodo
      refine ⟨_, h.run hr htodo rfl (fun _ _ => rfl) (fun d => Or.inl ⟨rfl, rfl⟩) (fun _ _ => rfl) (fun s => Or.inl ⟨rfl, rfl⟩)
        (fun r' h' => upd_ne _ _ h') ?_ ?_⟩
      · simp only [upd_same, absStep]
        rw [← h.memEq r hr]
        apply finishPulls_congr
        intro s k hk
        rw [pullSlots_count] at hk
        have hsn : s < n := by
          by_contra hns
          have : pullsFrom (ops r) s = [] := by
            unfold pullsFrom
            rw [List.filterMap_eq_nil_iff]
            intro op hop
            have := htgt r hr op hop
            cases op with
            | push => rfl
            | pull loc src rem =>
              simp only [CoOp.image] at this
              simp only [ite_eq_right_iff, reduceCtorEq, imp_false]
              omega
          rw [this] at hk
          simp at hk
        have hlt : k < (st.slot r s).length := by
          rw [h.slotLen r hr s, hcount s hsn]
          omega
        have := List.all_eq_true.1 (hg1 s (List.mem_range.2 hsn)) _ (List.getElem_mem hlt)
        obtain ⟨b, hb⟩ := Option.isSome_iff_exists.1 this
        have hk' : (st.slot r s)[k]? = some (some b) := by rw [List.getElem?_eq_getElem hlt, hb]
        rw [hk', List.getElem?_map, h.slotVal r hr s hsn k b hk']
        rfl
      · intro d k buf v hk hd hres
        rcases hres with h1 | ⟨j, h1, _, d', rem', h3⟩
        · exact Or.inl h1
        · exfalso
          subst h1
          have := List.all_eq_true.1 (hg2 d (List.mem_range.2 (chan_target h htgt hr hk))) k
            (List.mem_range.2 (List.getElem?_eq_some_iff.1 hk).1)
          rw [hd, hk] at this
          simp at this
  | capture a b k =>
    simp only [coExec] at hs
    split_ifs at hs with hab
    split at hs
    · rename_i i hk
      cases hs
      refine ⟨pre, h.prog, ?_, ?_, h.slotLen, h.slotVal, h.memEq⟩
      · intro r hr d
        rw [← h.chanLen r hr d]
        by_cases hra : r = a
        · subst hra
          by_cases hdb : d = b
          · subst hdb; simp [upd_same]
          · simp [upd_same, upd_ne _ _ hdb]
        · simp [upd_ne _ _ hra]
      · intro r hr d k' buf hk'
        show st.delivered r d k' = true ∨ _
        by_cases hra : r = a
        · subst hra
          by_cases hdb : d = b
          · subst hdb
            simp only [upd_same] at hk'
            rw [List.getElem?_set] at hk'
            by_cases hkk : k = k'
            · subst hkk
              rw [if_pos rfl, if_pos (List.getElem?_eq_some_iff.1 hk).1] at hk'
              cases hk'
              rcases h.chanVal r hr d k _ hk with h1 | ⟨v, h1, h2⟩
              · exact Or.inl h1
              · refine Or.inr ⟨v, h1, Or.inl ?_⟩
                rcases h2 with h2 | ⟨j, h2, h3, _⟩
                · cases h2
                · cases h2
                  rw [h3]
            · rw [if_neg hkk] at hk'
              exact h.chanVal r hr d k' buf hk'
          · simp only [upd_same, upd_ne _ _ hdb] at hk'
            exact h.chanVal r hr d k' buf hk'
        · simp only [upd_ne _ _ hra] at hk'
          exact h.chanVal r hr d k' buf hk'
    · cases hs
  | transfer a b k =>
    simp only [coExec] at hs
    split_ifs at hs with hab
    split at hs
    · rename_i buf hk hslot
      cases hs
      have hread : ∃ v, (fullMsgs get n ops mem a b)[k]? = some v ∧ st.read get a buf = v := by
        rcases h.chanVal a hab.1 b k buf hk with h1 | ⟨v, h1, h2⟩
        · obtain ⟨v, hv⟩ := delivered_iff.1 h1
          rw [hslot] at hv
          cases hv
        · refine ⟨v, h1, ?_⟩
          rcases h2 with rfl | ⟨i, rfl, h3, _⟩
          · rfl
          · exact h3
      obtain ⟨v, hv, hv'⟩ := hread
      have hlt := (List.getElem?_eq_some_iff.1 hslot).1
      have hget : ∀ r s k', (upd st.slot b (upd (st.slot b) a ((st.slot b a).set k (some (st.read get a buf)))) r s)[k']? =
          if r = b ∧ s = a ∧ k' = k then some (some v) else (st.slot r s)[k']? := by
        intro r s k'
        by_cases hrb : r = b
        · subst hrb
          by_cases hsa : s = a
          · subst hsa
            rw [upd_same, upd_same, List.getElem?_set]
            by_cases hkk : k = k'
            · subst hkk; simp [hlt, hv']
            · rw [if_neg hkk, if_neg (by simp [Ne.symm hkk])]
          · rw [upd_same, upd_ne _ _ hsa, if_neg (by simp [hsa])]
        · rw [upd_ne _ _ hrb, if_neg (by simp [hrb])]
      refine ⟨pre, h.prog, h.chanLen, ?_, ?_, ?_, h.memEq⟩
      · intro r hr d k' buf' hk'
        rcases h.chanVal r hr d k' buf' hk' with h1 | h1
        · left
          rw [delivered_iff] at h1 ⊢
          obtain ⟨w, hw⟩ := h1
          rw [hget]
          split_ifs
          · exact ⟨v, rfl⟩
          · exact ⟨w, hw⟩
        · exact Or.inr h1
      · intro r hr s
        rw [← h.slotLen r hr s]
        by_cases hrb : r = b
        · subst hrb
          by_cases hsa : s = a
          · subst hsa; simp [upd_same]
          · simp [upd_same, upd_ne _ _ hsa]
        · simp [upd_ne _ _ hrb]
      · intro r hr s hs k' w hw
        rw [hget] at hw
        split_ifs at hw with hc
        · obtain ⟨rfl, rfl, rfl⟩ := hc
          cases hw
          exact hv
        · exact h.slotVal r hr s hs k' w hw
    · cases hs

theorem CoInv.of_reach (hst : PushesStable get put n ops) (htgt : ∀ r < n, ∀ op ∈ ops r, op.image < n) {st : CoState I B M}
    (h : CoReach get put n ops mem st) : ∃ pre, CoInv get put n ops mem pre st := by
  induction h with
  | init => exact ⟨_, CoInv.init⟩
  | step c _ hs ih =>
    obtain ⟨pre, hpre⟩ := ih
    exact hpre.exec hst htgt c hs

end
end Pmesh
