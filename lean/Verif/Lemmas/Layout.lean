import Verif.Lemmas.Spmd
import Verif.Lemmas.Load

set_option linter.unusedSectionVars false

namespace Pmesh

theorem offsetsOf_getD (c : List ℕ) {t : ℕ} (ht : t < c.length) :
    (offsetsOf c).getD t 0 = (c.take t).sum := by
  unfold offsetsOf
  rcases c with _ | ⟨a, c⟩
  · simp at ht
  · simp only
    cases t with
    | zero => simp
    | succ t =>
      rw [List.getD_eq_getElem?_getD, List.getElem?_cons_succ, List.getElem?_dropLast,
        if_pos (by unfold cumsum; rw [cumsumFrom_length]; simp at ht ⊢; omega)]
      unfold cumsum
      rw [cumsumFrom_getElem? _ _ _ (by omega)]
      simp

theorem foldlM_option_some {α β : Type*} {f : β → α → Option β} {g : β → α → β} (l : List α)
    (h : ∀ b, ∀ a ∈ l, f b a = some (g b a)) (b : β) : l.foldlM f b = some (l.foldl g b) := by
  induction l generalizing b with
  | nil => rfl
  | cons a l ih =>
    rw [List.foldlM_cons, h b a (by simp)]
    exact ih (fun b a ha => h b a (by simp [ha])) _

section
variable {α : Type}

/-- The receive side of Alltoallv: if block `q` has the announced length then the blocks end up one after the
other. -/
theorem recvAlltoallv_eq {n : ℕ} (rank : ℕ) (b : ℕ → List α) (c o : ℕ → List ℕ) (rc : List ℕ)
    (B : ℕ → List α) (hB : ∀ q < n, ((b q).drop ((o q).getD rank 0)).take ((c q).getD rank 0) = B q)
    (hc : ∀ q < n, (B q).length = (c q).getD rank 0)
    (hrc : rc = (List.range n).map fun q => (B q).length) :
    recvAlltoallv rank rc (offsetsOf rc) (List.replicate rc.sum none)
      ((List.range n).map fun q => Msg.block (b q) (c q) (o q)) =
      some (((List.range n).flatMap B).map some) := by
  have hlen : rc.length = n := by simp [hrc]
  have key : ∀ m ≤ n, ((((List.range n).map fun q => Msg.block (b q) (c q) (o q)).zipIdx).take m).foldlM
      (fun (acc : List (Option α)) (mq : Msg α × ℕ) =>
        match mq.1 with
        | .block b c o =>
          if ((b.drop (o.getD rank 0)).take (c.getD rank 0)).length = rc.getD mq.2 0 ∧
              ((b.drop (o.getD rank 0)).take (c.getD rank 0)).length = c.getD rank 0
          then writeBlock acc ((offsetsOf rc).getD mq.2 0) ((b.drop (o.getD rank 0)).take (c.getD rank 0))
          else none
        | _ => none) (List.replicate rc.sum none) =
      some (((List.range m).flatMap B).map some ++ List.replicate (rc.drop m).sum none) := by
    intro m
    induction m with
    | zero => intro _; simp
    | succ m ih =>
      intro hm
      have hms : (((List.range n).map fun q => Msg.block (b q) (c q) (o q)).zipIdx).take (m + 1) =
          (((List.range n).map fun q => Msg.block (b q) (c q) (o q)).zipIdx).take m ++
            [(Msg.block (b m) (c m) (o m), m)] := by
        rw [List.take_succ_eq_append_getElem (by simp; omega)]
        congr 2
        simp
      rw [hms, List.foldlM_append, ih (by omega)]
      simp only [Option.bind_eq_bind, Option.bind_some, List.foldlM_cons, List.foldlM_nil]
      have hm' : m < rc.length := by omega
      have hrcm : rc.getD m 0 = (B m).length := by
        rw [List.getD_eq_getElem _ _ hm']
        simp [hrc]
      rw [hB m (by omega), if_pos ⟨hrcm.symm, hc m (by omega)⟩, offsetsOf_getD rc hm']
      have htk : (rc.take m).sum = (((List.range m).flatMap B).map (some : α → Option α)).length := by
        rw [List.length_map, List.length_flatMap, hrc, ← List.map_take]
        congr 2
        rw [List.take_range]
        congr 1
        omega
      have hdrop : (rc.drop m).sum = (B m).length + (rc.drop (m + 1)).sum := by
        rw [List.drop_eq_getElem_cons hm', List.sum_cons, ← hrcm, List.getD_eq_getElem _ _ hm']
      unfold writeBlock
      rw [if_pos (by simp only [List.length_append, List.length_replicate]; omega), htk]
      rw [List.take_left', List.drop_append, List.drop_eq_nil_of_le (by omega), hdrop]
      · simp only [Nat.add_sub_cancel_left, List.nil_append, List.drop_replicate]
        rw [List.range_succ, List.flatMap_append]
        simp [List.map_append]
      · rfl
  have := key n le_rfl
  rw [List.take_of_length_le (by simp), List.drop_eq_nil_of_le (by omega)] at this
  simp only [List.sum_nil, List.replicate_zero, List.append_nil] at this
  unfold recvAlltoallv
  rw [← this]
  rfl

theorem takeRows_eq (data : List α) (idx : List ℕ) (h : ∀ i ∈ idx, i < data.length) :
    ∃ rows, takeRows data idx = some rows ∧ rows.map some = idx.map fun i => data[i]? := by
  induction idx with
  | nil => exact ⟨[], rfl, rfl⟩
  | cons i idx ih =>
    obtain ⟨rows, h1, h2⟩ := ih fun j hj => h j (by simp [hj])
    have hi := h i (by simp)
    refine ⟨data[i] :: rows, ?_, ?_⟩
    · unfold takeRows at *
      rw [List.mapM_cons, h1, List.getElem?_eq_getElem hi]
      rfl
    · simp [h2, List.getElem?_eq_getElem hi]

variable {R : Type}

theorem promote_return {n : ℕ} (hn : 0 < n) (shp : List ℕ) {k : ℕ → Except LayErr Unit → Prog (Msg α) R}
    {f : ℕ → R} (h : AllReturn n (fun r => k r (.ok ())) f) :
    AllReturn n (fun r => promote shp (k r)) f := by
  unfold promote
  apply AllReturn.coll hn
  apply AllReturn.coll hn
  refine AllReturn.congr (fun r _ => ?_) (fun _ _ => rfl) h
  obtain ⟨m, rfl⟩ : ∃ m, n = m + 1 := ⟨n - 1, by omega⟩
  rw [List.range_succ_eq_map]
  simp

theorem anyFlag_range (n : ℕ) (p : ℕ → Bool) :
    anyFlag ((List.range n).map fun r => (Msg.flag (p r) : Msg α)) = (List.range n).any p := by
  unfold anyFlag
  rw [List.any_map]
  rfl

theorem LayOK.sentIdx_length {n : ℕ} {L : ℕ → Lay} (hL : LayOK n L) {q r : ℕ} (hq : q < n) (hr : r < n) :
    ((L q).sentIdx r).length = (L q).sendcounts.getD r 0 := by
  unfold Lay.sentIdx
  have hlen := hL.counts_length q hq
  rw [List.length_take, List.length_drop, hL.indices_length q hq]
  have h1 : (L q).sendcounts.sum = ((L q).sendcounts.take r).sum + ((L q).sendcounts.drop r).sum := by
    rw [← List.sum_append, List.take_append_drop]
  rw [List.drop_eq_getElem_cons (by omega), List.sum_cons] at h1
  rw [List.getD_eq_getElem _ _ (by omega)]
  omega

theorem flatMap_segments {β : Type*} (c : List ℕ) (l : List β) (h : l.length = c.sum) :
    ((List.range c.length).flatMap fun r => (l.drop (c.take r).sum).take (c.getD r 0)) = l := by
  induction c generalizing l with
  | nil => simp at h; simp [h]
  | cons a c ih =>
    rw [List.length_cons, List.range_succ_eq_map, List.flatMap_cons, List.flatMap_map]
    have := ih (l.drop a) (by simp at h ⊢; omega)
    simp only [List.take_zero, List.sum_nil, List.drop_zero, List.getD_cons_zero, List.take_succ_cons,
      List.sum_cons, List.getD_cons_succ]
    have e : ∀ r, l.drop (a + (c.take r).sum) = (l.drop a).drop (c.take r).sum := fun r => by
      rw [List.drop_drop]
    simp only [e]
    rw [this, List.take_append_drop]

theorem LayOK.indices_eq {n : ℕ} {L : ℕ → Lay} (hL : LayOK n L) {q : ℕ} (hq : q < n) :
    (List.range n).flatMap (L q).sentIdx = (L q).indices := by
  have := flatMap_segments (L q).sendcounts (L q).indices (hL.indices_length q hq)
  rw [hL.counts_length q hq] at this
  exact this

theorem exchange_lengths_ok {n : ℕ} {L : ℕ → Lay} {data : ℕ → List α}
    (hd : ∀ r < n, (data r).length = (L r).sendlength) :
    anyFlag ((List.range n).map fun r => (Msg.flag ((data r).length != (L r).sendlength) : Msg α)) = false := by
  rw [anyFlag_range, List.any_eq_false]
  intro r hr
  simp [hd r (List.mem_range.1 hr)]

theorem exchangeOne_return {n : ℕ} (hn : 0 < n) {L : ℕ → Lay} (hL : LayOK n L) (shp : List ℕ)
    {data : ℕ → List α} (hd : ∀ r < n, (data r).length = (L r).sendlength)
    {k : ℕ → Except LayErr (List (Option α)) → Prog (Msg α) R} {f : ℕ → R}
    (h : AllReturn n (fun r => k r (.ok ((List.range n).flatMap fun q =>
      ((L q).sentIdx r).map fun i => (data q)[i]?))) f) :
    AllReturn n (fun r => exchangeOne r (L r) shp (data r) (k r)) f := by
  unfold exchangeOne
  apply promote_return hn
  apply AllReturn.coll hn
  simp only [exchange_lengths_ok hd, Bool.false_eq_true, if_false]
  choose! rows hrows1 hrows2 using fun q (hq : q < n) => takeRows_eq (data q) (L q).indices
    (fun i hi => by rw [hd q hq]; exact hL.indices_lt q hq i hi)
  refine AllReturn.congr (p' := fun r => .coll .barrier .none fun _ =>
        .coll .alltoallv (.block (rows r) (L r).sendcounts (L r).sendoffsets) fun ms =>
          match recvAlltoallv r (L r).recvcounts (L r).recvoffsets
            (List.replicate (L r).recvlength none) ms with
          | none => k r (.error .mpi)
          | some out => .coll .barrier .none fun _ => k r (.ok out))
    (fun r hr => by simp only [hrows1 r hr]; rfl) (fun _ _ => rfl) ?_
  apply AllReturn.coll hn
  apply AllReturn.coll hn
  have hout : ∀ r < n, recvAlltoallv r (L r).recvcounts (L r).recvoffsets
      (List.replicate (L r).recvlength none)
      ((List.range n).map fun q => Msg.block (rows q) (L q).sendcounts (L q).sendoffsets) =
      some ((List.range n).flatMap fun q => ((L q).sentIdx r).map fun i => (data q)[i]?) := by
    intro r hr
    rw [hL.recvoffsets r hr, hL.recvlength r hr]
    have hrl : ∀ q < n, (rows q).length = (L q).indices.length := by
      intro q hq
      have := congrArg List.length (hrows2 q hq)
      simpa using this
    have hblk : ∀ q < n, (((rows q).drop ((L q).sendcounts.take r).sum).take
        ((L q).sendcounts.getD r 0)).map some = ((L q).sentIdx r).map fun i => (data q)[i]? := by
      intro q hq
      rw [List.map_take, List.map_drop, hrows2 q hq, ← List.map_drop, ← List.map_take]
      rfl
    have hbl : ∀ q < n, (((rows q).drop ((L q).sendcounts.take r).sum).take
        ((L q).sendcounts.getD r 0)).length = (L q).sendcounts.getD r 0 := by
      intro q hq
      have := congrArg List.length (hblk q hq)
      rw [List.length_map, List.length_map, hL.sentIdx_length hq hr] at this
      exact this
    rw [recvAlltoallv_eq (n := n) r rows (fun q => (L q).sendcounts) (fun q => (L q).sendoffsets)
      (L r).recvcounts
      (fun q => ((rows q).drop ((L q).sendcounts.take r).sum).take ((L q).sendcounts.getD r 0))]
    · rw [List.map_flatMap]
      congr 1
      unfold List.flatMap
      congr 1
      apply List.map_congr_left
      intro q hq
      exact hblk q (List.mem_range.1 hq)
    · intro q hq
      rw [hL.sendoffsets q hq, offsetsOf_getD _ (by rw [hL.counts_length q hq]; exact hr)]
    · intro q hq
      exact hbl q hq
    · rw [hL.recvcounts r hr]
      apply List.map_congr_left
      intro q hq
      exact (hbl q (List.mem_range.1 hq)).symm
  refine AllReturn.congr (p' := fun r => .coll .barrier .none fun _ => k r (.ok
      ((List.range n).flatMap fun q => ((L q).sentIdx r).map fun i => (data q)[i]?)))
    (fun r hr => by rw [hout r hr]) (fun _ _ => rfl) ?_
  exact AllReturn.coll hn h

theorem exchangeOne_error {n : ℕ} (hn : 0 < n) {L : ℕ → Lay} (shp : List ℕ)
    {data : ℕ → List α} (hd : ∃ r < n, (data r).length ≠ (L r).sendlength)
    {k : ℕ → Except LayErr (List (Option α)) → Prog (Msg α) R} {f : ℕ → R}
    (h : AllReturn n (fun r => k r (.error .valueError)) f) :
    AllReturn n (fun r => exchangeOne r (L r) shp (data r) (k r)) f := by
  unfold exchangeOne
  apply promote_return hn
  apply AllReturn.coll hn
  have : anyFlag ((List.range n).map fun r =>
      (Msg.flag ((data r).length != (L r).sendlength) : Msg α)) = true := by
    rw [anyFlag_range, List.any_eq_true]
    obtain ⟨r, hr, h⟩ := hd
    exact ⟨r, List.mem_range.2 hr, by simpa using h⟩
  simp only [this, if_true]
  exact h

theorem layoutInit_return {n : ℕ} (hn : 0 < n) (sl : ℕ → ℕ) (sc idx : ℕ → List ℕ)
    (hsc : ∀ r < n, (sc r).length = n)
    {k : ℕ → Except LayErr Lay → Prog (Msg α) R} {f : ℕ → R}
    (h : AllReturn n (fun r => k r (.ok ⟨sl r, sc r, (List.range n).map (fun q => (sc q).getD r 0),
        offsetsOf (sc r), offsetsOf ((List.range n).map (fun q => (sc q).getD r 0)),
        ((List.range n).map (fun q => (sc q).getD r 0)).sum, idx r⟩)) f) :
    AllReturn n (fun r => layoutInit n r (sl r) (sc r) (idx r) (k r)) f := by
  refine AllReturn.congr (p' := fun r => .coll .barrier .none fun _ =>
    .coll .alltoall (.counts (sc r)) fun ms =>
    .coll .barrier .none fun _ =>
      k r (.ok ⟨sl r, sc r, recvAlltoall r ms, offsetsOf (sc r), offsetsOf (recvAlltoall r ms),
        (recvAlltoall r ms).sum, idx r⟩)) (fun r hr => by
        unfold layoutInit
        rw [if_neg (by rw [hsc r hr]; simp)]) (fun _ _ => rfl) ?_
  apply AllReturn.coll hn
  apply AllReturn.coll hn
  apply AllReturn.coll hn
  refine AllReturn.congr (fun r hr => ?_) (fun _ _ => rfl) h
  have : recvAlltoall r ((List.range n).map fun r => (Msg.counts (sc r) : Msg α)) =
      (List.range n).map fun q => (sc q).getD r 0 := by
    unfold recvAlltoall
    rw [List.map_map]
    rfl
  rw [this]

end
end Pmesh
