import Verif.Lemmas.Layout
import Verif.Lemmas.Decompose
import Mathlib.Algebra.BigOperators.Group.List.Lemmas
import Mathlib.Tactic.Ring
import Mathlib.Tactic.Linarith

set_option linter.unusedSectionVars false

namespace Pmesh

section
variable {K : Type} [Field K] [DecidableEq K] {R : Type}

theorem defined_map_some {α : Type} (l : List α) : defined (l.map some) = some l := by
  unfold defined
  induction l with
  | nil => rfl
  | cons a l ih => rw [List.map_cons, List.mapM_cons, ih]; rfl

/-- Values that come back to rank `q`, in the order of its send list. -/
def backBuf {α : Type} (n : ℕ) (L : ℕ → Lay) (v : ℕ → List α) (q : ℕ) : List α :=
  (List.range n).flatMap fun r => (L r).segment q (v r)

theorem LayOK.segment_length {α : Type} {n : ℕ} {L : ℕ → Lay} (hL : LayOK n L) {v : ℕ → List α}
    (hv : ∀ r < n, (v r).length = (L r).recvlength) {q r : ℕ} (hq : q < n) (hr : r < n) :
    ((L r).segment q (v r)).length = (L q).sendcounts.getD r 0 := by
  unfold Lay.segment
  have hrc := hL.recvcounts r hr
  have hlen : (L r).recvcounts.length = n := by rw [hrc]; simp
  rw [List.length_take, List.length_drop, hv r hr, hL.recvlength r hr]
  have h1 : (L r).recvcounts.sum = ((L r).recvcounts.take q).sum + ((L r).recvcounts.drop q).sum := by
    rw [← List.sum_append, List.take_append_drop]
  rw [List.drop_eq_getElem_cons (by omega), List.sum_cons] at h1
  rw [List.getD_eq_getElem _ _ (by omega)]
  have h2 : (L r).recvcounts[q]'(by omega) = (L q).sendcounts.getD r 0 := by
    simp only [hrc, List.getElem_map, List.getElem_range]
  omega

theorem gather_flags_ok {n : ℕ} {L : ℕ → Lay} {data : ℕ → List K}
    (hd : ∀ r < n, (data r).length = (L r).recvlength) :
    anyFlag ((List.range n).map fun r => (Msg.flag ((data r).length != (L r).recvlength) : Msg K)) = false := by
  rw [anyFlag_range, List.any_eq_false]
  intro r hr
  simp [hd r (List.mem_range.1 hr)]

theorem gather_return {n : ℕ} (hn : 0 < n) {L : ℕ → Lay} (hL : LayOK n L) (shp : List ℕ)
    (mode : ℕ → GatherMode K) (hmode : ∀ r < n, mode r ≠ .local)
    {v : ℕ → List K} (hv : ∀ r < n, (v r).length = (L r).recvlength)
    {k : ℕ → Except LayErr (List (Option K)) → Prog (Msg K) R} {f : ℕ → R}
    (h : AllReturn n (fun r => k r (gatherReduce (L r) (mode r) (backBuf n L v r))) f) :
    AllReturn n (fun r => gatherProg r (L r) shp (mode r) (v r) (k r)) f := by
  unfold gatherProg
  apply promote_return hn
  apply AllReturn.coll hn
  simp only [gather_flags_ok hv, Bool.false_eq_true, if_false]
  have hout : ∀ q < n, recvAlltoallv q (L q).sendcounts (L q).sendoffsets
      (List.replicate (L q).indices.length none)
      ((List.range n).map fun r => Msg.block (v r) (L r).recvcounts (L r).recvoffsets) =
      some ((backBuf n L v q).map some) := by
    intro q hq
    rw [hL.sendoffsets q hq, hL.indices_length q hq]
    apply recvAlltoallv_eq (n := n) q v (fun r => (L r).recvcounts) (fun r => (L r).recvoffsets)
      (L q).sendcounts (fun r => (L r).segment q (v r))
    · intro r hr
      rw [hL.recvoffsets r hr, offsetsOf_getD _ (by rw [hL.recvcounts r hr]; simpa using hq)]
      rfl
    · intro r hr
      rw [hL.segment_length hv hq hr, hL.recvcounts r hr]
      rw [List.getD_eq_getElem (List.map _ _) _ (by simpa using hq)]
      simp
    · apply List.ext_getElem
      · simp [hL.counts_length q hq]
      · intro r a b
        have hr : r < n := by rwa [hL.counts_length q hq] at a
        simp only [List.getElem_map, List.getElem_range]
        rw [hL.segment_length hv hq hr, List.getD_eq_getElem _ _ a]
  refine AllReturn.congr (p' := fun r => .coll .barrier .none fun _ =>
        .coll .alltoallv (.block (v r) (L r).recvcounts (L r).recvoffsets) fun ms =>
          match recvAlltoallv r (L r).sendcounts (L r).sendoffsets
              (List.replicate (L r).indices.length none) ms with
          | none => k r (.error .mpi)
          | some out =>
            .coll .barrier .none fun _ =>
              match defined out with
              | none => k r (.error .mpi)
              | some recv => k r (gatherReduce (L r) (mode r) recv))
    (fun r hr => by
      have := hmode r hr
      rcases hm : mode r <;> first | rfl | (exact absurd hm this)) (fun _ _ => rfl) ?_
  apply AllReturn.coll hn
  apply AllReturn.coll hn
  refine AllReturn.congr (p' := fun r => .coll .barrier .none fun _ =>
      k r (gatherReduce (L r) (mode r) (backBuf n L v r)))
    (fun r hr => by
      rw [hout r hr]
      simp only [defined_map_some]) (fun _ _ => rfl) ?_
  exact AllReturn.coll hn h

theorem gather_local_return {n : ℕ} (hn : 0 < n) {L : ℕ → Lay} (shp : List ℕ)
    {v : ℕ → List K} (hv : ∀ r < n, (v r).length = (L r).recvlength)
    {k : ℕ → Except LayErr (List (Option K)) → Prog (Msg K) R} {f : ℕ → R}
    (h : AllReturn n (fun r => k r (.ok (((((L r).indices.drop ((L r).sendoffsets.getD r 0)).take
      ((L r).sendcounts.getD r 0)).zip (((v r).drop ((L r).recvoffsets.getD r 0)).take
      ((L r).recvcounts.getD r 0))).foldl (fun acc p => acc.set p.1 (some p.2))
            (List.replicate (L r).sendlength none)))) f) :
    AllReturn n (fun r => gatherProg r (L r) shp .local (v r) (k r)) f := by
  unfold gatherProg
  apply promote_return hn
  apply AllReturn.coll hn
  simp only [gather_flags_ok hv, Bool.false_eq_true, if_false]
  apply AllReturn.coll hn
  exact h

theorem gather_error {n : ℕ} (hn : 0 < n) {L : ℕ → Lay} (shp : List ℕ)
    (mode : ℕ → GatherMode K)
    {v : ℕ → List K} (hv : ∃ r < n, (v r).length ≠ (L r).recvlength)
    {k : ℕ → Except LayErr (List (Option K)) → Prog (Msg K) R} {f : ℕ → R}
    (h : AllReturn n (fun r => k r (.error .valueError)) f) :
    AllReturn n (fun r => gatherProg r (L r) shp (mode r) (v r) (k r)) f := by
  unfold gatherProg
  apply promote_return hn
  apply AllReturn.coll hn
  have : anyFlag ((List.range n).map fun r =>
      (Msg.flag ((v r).length != (L r).recvlength) : Msg K)) = true := by
    rw [anyFlag_range, List.any_eq_true]
    obtain ⟨r, hr, h⟩ := hv
    exact ⟨r, List.mem_range.2 hr, by simpa using h⟩
  simp only [this, if_true]
  exact h

/-! ### weighted bincount -/

theorem bincountw_foldl (p : List (ℕ × K)) (acc : List K) :
    (p.foldl (fun acc (q : ℕ × K) => acc.modify q.1 (· + q.2)) acc).length = acc.length ∧
    ∀ i < acc.length, (p.foldl (fun acc (q : ℕ × K) => acc.modify q.1 (· + q.2)) acc).getD i 0 =
      acc.getD i 0 + ((p.filter fun q => q.1 = i).map (·.2)).sum := by
  induction p generalizing acc with
  | nil => simp
  | cons a p ih =>
    have h := ih (acc.modify a.1 (· + a.2))
    refine ⟨by simpa using h.1, fun i hi => ?_⟩
    simp only [List.foldl_cons]
    rw [h.2 i (by simpa using hi), List.filter_cons]
    rw [List.getD_eq_getElem _ _ (by simpa using hi), List.getD_eq_getElem _ _ hi, List.getElem_modify]
    by_cases e : a.1 = i
    · simp only [e, if_true, decide_true, List.map_cons, List.sum_cons]; ring
    · simp [e]

theorem bincountw_length (x : List ℕ) (w : List K) (n : ℕ) : (bincountw x w n).length = n := by
  have := (bincountw_foldl (x.zip w) (List.replicate n 0)).1
  simpa [bincountw] using this

theorem bincountw_getD (x : List ℕ) (w : List K) {n i : ℕ} (hi : i < n) :
    (bincountw x w n).getD i 0 = (((x.zip w).filter fun q => q.1 = i).map (·.2)).sum := by
  have := (bincountw_foldl (x.zip w) (List.replicate n 0)).2 i (by simpa using hi)
  unfold bincountw
  rw [this]
  simp [List.getD_eq_getElem?_getD, List.getElem?_replicate, hi]

theorem dot_replicate_zero (u : List K) (n : ℕ) : dot u (List.replicate n 0) = 0 := by
  unfold dot
  apply List.sum_eq_zero
  intro x hx
  obtain ⟨i, hi, rfl⟩ := List.getElem_of_mem hx
  simp

theorem dot_modify (u acc : List K) (i : ℕ) (w : K) (hi : i < u.length) (hl : acc.length = u.length) :
    dot u (acc.modify i (· + w)) = dot u acc + u.getD i 0 * w := by
  induction u generalizing acc i with
  | nil => simp at hi
  | cons a u ih =>
    rcases acc with _ | ⟨b, acc⟩
    · simp at hl
    · unfold dot at *
      cases i with
      | zero => simp [List.modify_cons]; ring
      | succ i =>
        simp only [List.modify_succ_cons, List.zipWith_cons_cons, List.sum_cons, List.getD_cons_succ]
        rw [ih acc i (by simpa using hi) (by simpa using hl)]
        ring

theorem dot_bincountw (u : List K) (x : List ℕ) (w : List K) (hx : ∀ i ∈ x, i < u.length) :
    dot u (bincountw x w u.length) = dot (x.map fun i => u.getD i 0) w := by
  unfold bincountw
  have key : ∀ (x : List ℕ) (w : List K) (acc : List K), (∀ i ∈ x, i < u.length) →
      acc.length = u.length →
      dot u ((x.zip w).foldl (fun acc (q : ℕ × K) => acc.modify q.1 (· + q.2)) acc) =
        dot u acc + dot (x.map fun i => u.getD i 0) w := by
    intro x
    induction x with
    | nil => intro w acc _ _; simp [dot]
    | cons i x ih =>
      intro w acc h1 h2
      rcases w with _ | ⟨b, w⟩
      · simp [dot]
      · simp only [List.zip_cons_cons, List.foldl_cons, List.map_cons]
        rw [ih w _ (fun j hj => h1 j (by simp [hj])) (by simpa using h2),
          dot_modify u acc i b (h1 i (by simp)) h2]
        simp only [dot, List.zipWith_cons_cons, List.sum_cons]
        ring
  rw [key x w _ hx (by simp), dot_replicate_zero, zero_add]

theorem zipWith_append' {α β γ : Type*} (f : α → β → γ) (a a' : List α) (b b' : List β)
    (h : a.length = b.length) :
    List.zipWith f (a ++ a') (b ++ b') = List.zipWith f a b ++ List.zipWith f a' b' :=
  List.zipWith_append h

theorem dot_flatMap (n : ℕ) (f g : ℕ → List K) (h : ∀ r < n, (f r).length = (g r).length) :
    dot ((List.range n).flatMap f) ((List.range n).flatMap g) =
      ((List.range n).map fun r => dot (f r) (g r)).sum := by
  induction n with
  | zero => simp [dot]
  | succ n ih =>
    rw [List.range_succ, List.flatMap_append, List.flatMap_append, List.map_append, List.sum_append,
      ← ih fun r hr => h r (by omega)]
    unfold dot
    have hl : ((List.range n).flatMap f).length = ((List.range n).flatMap g).length := by
      rw [List.length_flatMap, List.length_flatMap]
      congr 1
      apply List.map_congr_left
      intro r hr
      exact h r (by have := List.mem_range.1 hr; omega)
    rw [List.zipWith_append hl, List.sum_append]
    simp

theorem sum_swap (n : ℕ) (f : ℕ → ℕ → K) :
    ((List.range n).map fun r => ((List.range n).map fun q => f r q).sum).sum =
      ((List.range n).map fun q => ((List.range n).map fun r => f r q).sum).sum := by
  have : ∀ (l m : List ℕ), (l.map fun r => (m.map fun q => f r q).sum).sum =
      (m.map fun q => (l.map fun r => f r q).sum).sum := by
    intro l m
    induction l with
    | nil => simp
    | cons a l ih =>
      simp only [List.map_cons, List.sum_cons]
      rw [ih, ← List.sum_map_add]
  exact this _ _

end
end Pmesh

namespace Pmesh

section
variable {K : Type} [Field K] [DecidableEq K]

/-- What `exchange(u)` returns on rank `r`, for data inside the list bounds. -/
def exRows (n : ℕ) (L : ℕ → Lay) (u : ℕ → List K) (r : ℕ) : List K :=
  (List.range n).flatMap fun q => ((L q).sentIdx r).map fun i => (u q).getD i 0

theorem sentIdx_mem {lay : Lay} {r i : ℕ} (h : i ∈ lay.sentIdx r) : i ∈ lay.indices :=
  List.mem_of_mem_drop (List.mem_of_mem_take h)

theorem exRows_some {n : ℕ} {L : ℕ → Lay} (hL : LayOK n L) {u : ℕ → List K}
    (hu : ∀ r < n, (u r).length = (L r).sendlength) (r : ℕ) :
    ((List.range n).flatMap fun q => ((L q).sentIdx r).map fun i => (u q)[i]?) =
      (exRows n L u r).map some := by
  unfold exRows
  rw [List.map_flatMap]
  unfold List.flatMap
  congr 1
  apply List.map_congr_left
  intro q hq
  rw [List.map_map]
  apply List.map_congr_left
  intro i hi
  have hq' := List.mem_range.1 hq
  have : i < (u q).length := by
    rw [hu q hq']; exact hL.indices_lt q hq' i (sentIdx_mem hi)
  simp [List.getElem?_eq_getElem this, List.getD_eq_getElem _ _ this]

theorem exRows_length {n : ℕ} {L : ℕ → Lay} (hL : LayOK n L) (u : ℕ → List K) {r : ℕ} (hr : r < n) :
    (exRows n L u r).length = (L r).recvlength := by
  unfold exRows
  rw [List.length_flatMap, hL.recvlength r hr, hL.recvcounts r hr]
  congr 1
  apply List.map_congr_left
  intro q hq
  rw [List.length_map, hL.sentIdx_length (List.mem_range.1 hq) hr]

theorem segment_exRows {n : ℕ} {L : ℕ → Lay} (hL : LayOK n L) (u : ℕ → List K) {q r : ℕ} (hq : q < n)
    (hr : r < n) : (L r).segment q (exRows n L u r) = ((L q).sentIdx r).map fun i => (u q).getD i 0 := by
  unfold Lay.segment exRows List.flatMap
  set B := (List.range n).map fun q => ((L q).sentIdx r).map fun i => (u q).getD i 0 with hB
  have hlen : q < B.length := by simp [hB, hq]
  have h1 : (L r).recvcounts = B.map List.length := by
    rw [hL.recvcounts r hr, hB, List.map_map]
    apply List.map_congr_left
    intro q hq
    simp only [Function.comp, List.length_map]
    rw [hL.sentIdx_length (List.mem_range.1 hq) hr]
  have h2 := drop_take_flatten B q hlen
  rw [h1, ← List.map_take, List.getD_eq_getElem _ _ (by simpa using hlen), List.getElem_map, h2]
  simp [hB]

theorem backBuf_exRows {n : ℕ} {L : ℕ → Lay} (hL : LayOK n L) (u : ℕ → List K) {q : ℕ} (hq : q < n) :
    backBuf n L (exRows n L u) q = (L q).indices.map fun i => (u q).getD i 0 := by
  unfold backBuf
  rw [← hL.indices_eq hq, List.map_flatMap]
  unfold List.flatMap
  congr 1
  apply List.map_congr_left
  intro r hr
  exact segment_exRows hL u hq (List.mem_range.1 hr)

theorem filter_zip_map (x : List ℕ) (f : ℕ → K) (i : ℕ) :
    (((x.zip (x.map f)).filter fun q => q.1 = i).map (·.2)) = List.replicate (x.count i) (f i) := by
  induction x with
  | nil => simp
  | cons a x ih =>
    rw [List.map_cons, List.zip_cons_cons, List.filter_cons, List.count_cons]
    by_cases h : a = i
    · subst h
      simp [ih, List.replicate_succ]
    · simp [h, ih]

theorem foldl_set_spec {β : Type} (x : List ℕ) (f : ℕ → β) (acc : List (Option β)) :
    ((x.zip (x.map f)).foldl (fun acc (p : ℕ × β) => acc.set p.1 (some p.2)) acc).length = acc.length ∧
    ∀ i < acc.length, ((x.zip (x.map f)).foldl (fun acc (p : ℕ × β) => acc.set p.1 (some p.2)) acc)[i]? =
      if i ∈ x then some (some (f i)) else acc[i]? := by
  induction x generalizing acc with
  | nil => simp
  | cons a x ih =>
    have h := ih (acc.set a (some (f a)))
    simp only [List.map_cons, List.zip_cons_cons, List.foldl_cons]
    refine ⟨by simpa using h.1, fun i hi => ?_⟩
    rw [h.2 i (by simpa using hi)]
    by_cases h1 : i ∈ x
    · simp [h1]
    · by_cases h2 : a = i
      · subst h2; simp [h1, hi]
      · have h3 : i ≠ a := fun e => h2 e.symm
        simp [h1, h2, h3]

end
end Pmesh
