import Verif.Lemmas.Reduce
import Verif.Props.Decompose

/-!
# C04, C05, C06, C07, C13: exchange and gather

`AllReturn n p f`: the programs `p 0 .. p (n-1)` of the ranks all end (no deadlock) and rank `r` returns `f r`.
-/

namespace Pmesh

section
variable {α : Type}

/-- Sections of a send list made of blocks. -/
theorem sentIdx_blocks (n : ℕ) (send : ℕ → List ℕ) {lay : Lay}
    (h1 : lay.indices = (List.range n).flatMap send)
    (h2 : lay.sendcounts = (List.range n).map fun t => (send t).length) {r : ℕ} (hr : r < n) :
    lay.sentIdx r = send r := by
  unfold Lay.sentIdx
  have h := drop_take_flatten ((List.range n).map send) r (by simpa using hr)
  rw [h1, h2, List.getD_eq_getElem _ _ (by simpa using hr)]
  simp only [List.getElem_map, List.getElem_range] at h ⊢
  rw [← List.map_take, List.map_map] at h
  rw [← List.map_take]
  exact h

/-- **C04**.  `Layout(comm, sendlength, sendcounts, indices).exchange(data)` for every number of ranks and every
choice of send lists `send q r` (particle numbers that rank `q` sends to rank `r`, listed destination by
destination): rank `r` returns the rows of rank 0 listed for it, then those of rank 1, and so on, each in the order
of its list.  Since the answer depends on the data only through `data q [i]`, all arrays stay row aligned. -/
theorem C04_exchange (n : ℕ) (hn : 0 < n) (send : ℕ → ℕ → List ℕ) (len : ℕ → ℕ)
    (hlt : ∀ q < n, ∀ r < n, ∀ i ∈ send q r, i < len q)
    (shp : List ℕ) (data : ℕ → List α) (hd : ∀ q < n, (data q).length = len q) :
    AllReturn n
      (fun r => layoutInit n r (len r) ((List.range n).map fun t => (send r t).length)
        ((List.range n).flatMap (send r)) fun
        | .error e => .ret (.error e)
        | .ok lay => exchangeOne r lay shp (data r) .ret)
      (fun r => .ok ((List.range n).flatMap fun q => (send q r).map fun i => (data q)[i]?)) := by
  apply layoutInit_return hn
  · intro r _; simp
  set L : ℕ → Lay := fun r => ⟨len r, (List.range n).map fun t => (send r t).length,
    (List.range n).map (fun q => ((List.range n).map fun t => (send q t).length).getD r 0),
    offsetsOf ((List.range n).map fun t => (send r t).length),
    offsetsOf ((List.range n).map (fun q => ((List.range n).map fun t => (send q t).length).getD r 0)),
    ((List.range n).map (fun q => ((List.range n).map fun t => (send q t).length).getD r 0)).sum,
    (List.range n).flatMap (send r)⟩ with hLdef
  have hL : LayOK n L := {
    counts_length := fun r _ => by simp [hLdef]
    recvcounts := fun r _ => rfl
    sendoffsets := fun r _ => rfl
    recvoffsets := fun r _ => rfl
    recvlength := fun r _ => rfl
    indices_length := fun r _ => by simp [hLdef, List.length_flatMap]
    indices_lt := fun r hr i hi => by
      obtain ⟨t, ht, hi⟩ := List.mem_flatMap.1 hi
      exact hlt r hr t (List.mem_range.1 ht) i hi }
  refine exchangeOne_return (L := L) hn hL shp (data := data) hd (k := fun _ => Prog.ret) ?_
  refine AllReturn.congr (fun r _ => rfl) (fun r hr => ?_) (AllReturn.ret n _)
  congr 1
  unfold List.flatMap
  congr 1
  apply List.map_congr_left
  intro q hq
  rw [sentIdx_blocks n (send q) (lay := L q) rfl rfl hr]

/-- `Layout.__init__` builds consistent layouts, so the theorems below, stated for `LayOK`, apply to it. -/
theorem C04_layout_ok (n : ℕ) (hn : 0 < n) (sl : ℕ → ℕ) (sc idx : ℕ → List ℕ)
    (hsc : ∀ r < n, (sc r).length = n) (hidx : ∀ r < n, (idx r).length = (sc r).sum)
    (hlt : ∀ r < n, ∀ i ∈ idx r, i < sl r) :
    ∃ L : ℕ → Lay, LayOK n L ∧
      (∀ r < n, (L r).sendlength = sl r ∧ (L r).sendcounts = sc r ∧ (L r).indices = idx r) ∧
      AllReturn (V := Msg α) n (fun r => layoutInit n r (sl r) (sc r) (idx r) .ret) (fun r => .ok (L r)) := by
  refine ⟨fun r => ⟨sl r, sc r, (List.range n).map (fun q => (sc q).getD r 0),
        offsetsOf (sc r), offsetsOf ((List.range n).map (fun q => (sc q).getD r 0)),
        ((List.range n).map (fun q => (sc q).getD r 0)).sum, idx r⟩, ?_, fun r _ => ⟨rfl, rfl, rfl⟩, ?_⟩
  · exact ⟨hsc, fun _ _ => rfl, fun _ _ => rfl, fun _ _ => rfl, fun _ _ => rfl, hidx, hlt⟩
  · exact layoutInit_return hn sl sc idx hsc (AllReturn.ret n _)

end

section
variable {K : Type} [Field K] [DecidableEq K]

/-- **C05**.  For all particle data `u` and ghost data `v`: exchange of `u` and sum-gather of `v` succeed on all
ranks, the total of `exchange(u) * v` over all ghosts equals the total of `u * gather(v)` over all particles, and
entry `i` of the gather is the sum of `v` over the copies of particle `i` on all ranks. -/
theorem C05_adjoint (n : ℕ) (hn : 0 < n) (L : ℕ → Lay) (hL : LayOK n L) (shp : List ℕ) (u v : ℕ → List K)
    (hu : ∀ r < n, (u r).length = (L r).sendlength) (hv : ∀ r < n, (v r).length = (L r).recvlength) :
    ∃ e g : ℕ → List K,
      AllReturn n (fun r => exchangeOne r (L r) shp (u r) .ret) (fun r => .ok ((e r).map some)) ∧
      AllReturn n (fun r => gatherProg r (L r) shp .sum (v r) .ret) (fun r => .ok ((g r).map some)) ∧
      (∀ r < n, (e r).length = (v r).length ∧ (g r).length = (u r).length) ∧
      ((List.range n).map fun r => dot (e r) (v r)).sum = ((List.range n).map fun q => dot (u q) (g q)).sum ∧
      ∀ q < n, ∀ i < (L q).sendlength, (g q).getD i 0 = ((List.range n).map fun r =>
        ((((L q).sentIdx r).zip ((L r).segment q (v r))).filter fun p => p.1 = i).map (·.2) |>.sum).sum := by
  set G : ℕ → List K := fun q => bincountw (L q).indices (backBuf n L v q) (L q).sendlength with hG
  have hzip : ∀ q < n, (L q).indices.zip (backBuf n L v q) =
      (List.range n).flatMap fun r => ((L q).sentIdx r).zip ((L r).segment q (v r)) := by
    intro q hq
    rw [← hL.indices_eq hq]
    unfold backBuf
    have key : ∀ m ≤ n, ((List.range m).flatMap (L q).sentIdx).zip
        ((List.range m).flatMap fun r => (L r).segment q (v r)) =
        (List.range m).flatMap fun r => ((L q).sentIdx r).zip ((L r).segment q (v r)) := by
      intro m
      induction m with
      | zero => simp
      | succ m ih =>
        intro hm
        rw [List.range_succ, List.flatMap_append, List.flatMap_append, List.flatMap_append, ← ih (by omega)]
        have hl : ((List.range m).flatMap (L q).sentIdx).length =
            ((List.range m).flatMap fun r => (L r).segment q (v r)).length := by
          rw [List.length_flatMap, List.length_flatMap]
          congr 1
          apply List.map_congr_left
          intro r hr
          have : r < n := by have := List.mem_range.1 hr; omega
          rw [hL.sentIdx_length hq this, hL.segment_length hv hq this]
        rw [List.zip_append hl]
        simp
    exact key n le_rfl
  refine ⟨exRows n L u, G, ?_, ?_, ?_, ?_, ?_⟩
  · refine exchangeOne_return hn hL shp hu (k := fun _ => Prog.ret) ?_
    refine AllReturn.congr (fun r _ => rfl) (fun r _ => ?_) (AllReturn.ret n _)
    rw [exRows_some hL hu]
  · refine gather_return hn hL shp (fun _ => .sum) (fun _ _ => by simp) hv (k := fun _ => Prog.ret) ?_
    refine AllReturn.congr (fun r _ => rfl) (fun r _ => ?_) (AllReturn.ret n _)
    unfold gatherReduce
    by_cases h : (L r).sendlength = 0
    · have : G r = [] := by
        apply List.length_eq_zero_iff.1
        rw [hG]; simp only; rw [bincountw_length, h]
      simp [h, this]
    · simp only [h, if_false]
      rfl
  · intro r hr
    refine ⟨by rw [exRows_length hL u hr, hv r hr], ?_⟩
    rw [hG, hu r hr]; exact bincountw_length _ _ _
  · have h1 : ∀ q < n, dot (u q) (G q) =
        ((List.range n).map fun r => dot (((L q).sentIdx r).map fun i => (u q).getD i 0)
          ((L r).segment q (v r))).sum := by
      intro q hq
      rw [hG]
      simp only
      rw [← hu q hq, dot_bincountw _ _ _ (fun i hi => by rw [hu q hq]; exact hL.indices_lt q hq i hi),
        ← hL.indices_eq hq, List.map_flatMap]
      unfold backBuf
      rw [dot_flatMap]
      intro r hr
      rw [List.length_map, hL.sentIdx_length hq hr, hL.segment_length hv hq hr]
    have h2 : ∀ r < n, dot (exRows n L u r) (v r) =
        ((List.range n).map fun q => dot (((L q).sentIdx r).map fun i => (u q).getD i 0)
          ((L r).segment q (v r))).sum := by
      intro r hr
      have hvr : v r = (List.range n).flatMap fun q => (L r).segment q (v r) := by
        have := flatMap_segments (L r).recvcounts (v r) (by rw [hv r hr, hL.recvlength r hr])
        have hl : (L r).recvcounts.length = n := by rw [hL.recvcounts r hr]; simp
        rw [hl] at this
        exact this.symm
      conv_lhs => rw [hvr]
      unfold exRows
      rw [dot_flatMap]
      intro q hq
      rw [List.length_map, hL.sentIdx_length hq hr, hL.segment_length hv hq hr]
    have e1 : ((List.range n).map fun r => dot (exRows n L u r) (v r)) =
        (List.range n).map fun r => ((List.range n).map fun q =>
          dot (((L q).sentIdx r).map fun i => (u q).getD i 0) ((L r).segment q (v r))).sum :=
      List.map_congr_left fun r hr => h2 r (List.mem_range.1 hr)
    have e2 : ((List.range n).map fun q => dot (u q) (G q)) =
        (List.range n).map fun q => ((List.range n).map fun r =>
          dot (((L q).sentIdx r).map fun i => (u q).getD i 0) ((L r).segment q (v r))).sum :=
      List.map_congr_left fun q hq => h1 q (List.mem_range.1 hq)
    rw [e1, e2]
    exact sum_swap n _
  · intro q hq i hi
    rw [hG]
    simp only
    rw [bincountw_getD _ _ hi, hzip q hq, List.filter_flatMap, List.map_flatMap]
    unfold List.flatMap
    rw [List.sum_flatten, List.map_map]
    rfl

/-- **C06**, modes `all`, `sum`, `mean`, `any`.  Let `u` be exchanged and the result gathered.  The exchange gives some
`e`; gathering `e` gives: `all`: one row `u[i]` per copy, in send order; `sum`: copies times `u[i]`; `mean`: `u[i]`
for a particle with a copy, `0/0` otherwise (characteristic zero); `any`: `u[i]` for a particle with a copy, 0
otherwise. -/
theorem C06_roundtrip [CharZero K] (n : ℕ) (hn : 0 < n) (L : ℕ → Lay) (hL : LayOK n L) (shp : List ℕ)
    (u : ℕ → List K) (hu : ∀ r < n, (u r).length = (L r).sendlength) :
    ∃ e : ℕ → List K,
      AllReturn n (fun r => exchangeOne r (L r) shp (u r) .ret) (fun r => .ok ((e r).map some)) ∧
      AllReturn n (fun r => gatherProg r (L r) shp .all (e r) .ret)
        (fun r => .ok ((L r).indices.map fun i => (u r)[i]?)) ∧
      AllReturn n (fun r => gatherProg r (L r) shp .sum (e r) .ret)
        (fun r => .ok ((List.range (L r).sendlength).map fun i =>
          some (((L r).indices.count i : K) * (u r).getD i 0))) ∧
      AllReturn n (fun r => gatherProg r (L r) shp .mean (e r) .ret)
        (fun r => .ok ((List.range (L r).sendlength).map fun i =>
          if i ∈ (L r).indices then (u r)[i]? else none)) ∧
      AllReturn n (fun r => gatherProg r (L r) shp .any (e r) .ret)
        (fun r => .ok ((List.range (L r).sendlength).map fun i =>
          if i ∈ (L r).indices then (u r)[i]? else some 0)) := by
  have hlen : ∀ r < n, (exRows n L u r).length = (L r).recvlength := fun r hr => exRows_length hL u hr
  have hget : ∀ r < n, ∀ i < (L r).sendlength, (u r)[i]? = some ((u r).getD i 0) := by
    intro r hr i hi
    have : i < (u r).length := by rw [hu r hr]; exact hi
    rw [List.getElem?_eq_getElem this, List.getD_eq_getElem _ _ this]
  have hsum : ∀ r < n, bincountw (L r).indices ((L r).indices.map fun i => (u r).getD i 0) (L r).sendlength =
      (List.range (L r).sendlength).map fun i => ((L r).indices.count i : K) * (u r).getD i 0 := by
    intro r hr
    apply List.ext_getElem
    · simp [bincountw_length]
    · intro i a b
      have hi : i < (L r).sendlength := by simpa using b
      rw [← List.getD_eq_getElem _ 0 a, bincountw_getD _ _ hi, filter_zip_map]
      simp
  refine ⟨exRows n L u, ?_, ?_, ?_, ?_, ?_⟩
  · refine exchangeOne_return hn hL shp hu (k := fun _ => Prog.ret) ?_
    refine AllReturn.congr (fun r _ => rfl) (fun r _ => ?_) (AllReturn.ret n _)
    rw [exRows_some hL hu]
  · refine gather_return hn hL shp (fun _ => .all) (fun _ _ => by simp) hlen (k := fun _ => Prog.ret) ?_
    refine AllReturn.congr (fun r _ => rfl) (fun r hr => ?_) (AllReturn.ret n _)
    rw [backBuf_exRows hL u hr]
    unfold gatherReduce
    by_cases h : (L r).sendlength = 0
    · have : (L r).indices = [] := by
        rw [List.eq_nil_iff_forall_not_mem]
        intro i hi
        have := hL.indices_lt r hr i hi
        omega
      simp [h, this]
    · simp only [h, if_false, List.map_map]
      congr 1
      apply List.map_congr_left
      intro i hi
      simp only [Function.comp]
      rw [hget r hr i (hL.indices_lt r hr i hi)]
  · refine gather_return hn hL shp (fun _ => .sum) (fun _ _ => by simp) hlen (k := fun _ => Prog.ret) ?_
    refine AllReturn.congr (fun r _ => rfl) (fun r hr => ?_) (AllReturn.ret n _)
    rw [backBuf_exRows hL u hr]
    unfold gatherReduce
    by_cases h : (L r).sendlength = 0
    · simp [h]
    · simp only [h, if_false]
      rw [hsum r hr, List.map_map]
      rfl
  · refine gather_return hn hL shp (fun _ => .mean) (fun _ _ => by simp) hlen (k := fun _ => Prog.ret) ?_
    refine AllReturn.congr (fun r _ => rfl) (fun r hr => ?_) (AllReturn.ret n _)
    rw [backBuf_exRows hL u hr]
    unfold gatherReduce
    by_cases h : (L r).sendlength = 0
    · simp [h]
    · simp only [h, if_false]
      rw [hsum r hr, bincount_eq_count, List.zipWith_map, List.zipWith_self]
      congr 1
      apply List.map_congr_left
      intro i hi
      by_cases hc : i ∈ (L r).indices
      · have : (L r).indices.count i ≠ 0 := by
          have := List.count_pos_iff.2 hc; omega
        have hK : ((L r).indices.count i : K) ≠ 0 := Nat.cast_ne_zero.2 this
        rw [if_neg this, if_pos hc, hget r hr i (List.mem_range.1 hi)]
        congr 1
        field_simp
      · rw [if_pos (List.count_eq_zero.2 hc), if_neg hc]
  · refine gather_return hn hL shp (fun _ => .any) (fun _ _ => by simp) hlen (k := fun _ => Prog.ret) ?_
    refine AllReturn.congr (fun r _ => rfl) (fun r hr => ?_) (AllReturn.ret n _)
    rw [backBuf_exRows hL u hr]
    unfold gatherReduce
    by_cases h : (L r).sendlength = 0
    · simp [h]
    · simp only [h, if_false]
      congr 1
      have hs := foldl_set_spec (L r).indices (fun i => (u r).getD i 0)
        (List.replicate (L r).sendlength (some (0 : K)))
      apply List.ext_getElem?
      intro i
      by_cases hi : i < (L r).sendlength
      · rw [hs.2 i (by simpa using hi)]
        rw [List.getElem?_map, List.getElem?_range hi]
        by_cases hc : i ∈ (L r).indices
        · simp only [hc, if_true, Option.map_some]
          rw [hget r hr i hi]
        · simp [hc, List.getElem?_replicate, hi]
      · rw [List.getElem?_eq_none (l := List.map (fun i => if i ∈ (L r).indices then (u r)[i]? else some 0) _)
          (by simpa using hi)]
        exact (List.getElem?_eq_none_iff.2 (hs.1.trans_le (by simpa using hi))).symm

/-- **C06**, mode `local`: the value of the local copy; a particle without a local copy keeps what
`numpy.empty` contained (`none`). -/
theorem C06_roundtrip_local (n : ℕ) (hn : 0 < n) (L : ℕ → Lay) (hL : LayOK n L) (shp : List ℕ)
    (u : ℕ → List K) (hu : ∀ r < n, (u r).length = (L r).sendlength) :
    ∃ e : ℕ → List K,
      AllReturn n (fun r => exchangeOne r (L r) shp (u r) .ret) (fun r => .ok ((e r).map some)) ∧
      AllReturn n (fun r => gatherProg r (L r) shp .local (e r) .ret)
        (fun r => .ok ((List.range (L r).sendlength).map fun i =>
          if i ∈ (L r).sentIdx r then (u r)[i]? else none)) := by
  refine ⟨exRows n L u, ?_, ?_⟩
  · refine exchangeOne_return hn hL shp hu (k := fun _ => Prog.ret) ?_
    refine AllReturn.congr (fun r _ => rfl) (fun r _ => ?_) (AllReturn.ret n _)
    rw [exRows_some hL hu]
  · refine gather_local_return hn shp (fun r hr => exRows_length hL u hr) (k := fun _ => Prog.ret) ?_
    refine AllReturn.congr (fun r _ => rfl) (fun r hr => ?_) (AllReturn.ret n _)
    have e1 : ((L r).indices.drop ((L r).sendoffsets.getD r 0)).take ((L r).sendcounts.getD r 0) =
        (L r).sentIdx r := by
      rw [hL.sendoffsets r hr, offsetsOf_getD _ (by rw [hL.counts_length r hr]; exact hr)]
      rfl
    have e2 : ((exRows n L u r).drop ((L r).recvoffsets.getD r 0)).take ((L r).recvcounts.getD r 0) =
        ((L r).sentIdx r).map fun i => (u r).getD i 0 := by
      rw [hL.recvoffsets r hr, offsetsOf_getD _ (by rw [hL.recvcounts r hr]; simpa using hr)]
      exact segment_exRows hL u hr hr
    rw [e1, e2]
    congr 1
    have hs := foldl_set_spec ((L r).sentIdx r) (fun i => (u r).getD i 0)
      (List.replicate (L r).sendlength (none : Option K))
    apply List.ext_getElem?
    intro i
    by_cases hi : i < (L r).sendlength
    · rw [hs.2 i (by simpa using hi)]
      rw [List.getElem?_map, List.getElem?_range hi]
      by_cases hc : i ∈ (L r).sentIdx r
      · have : i < (u r).length := by rw [hu r hr]; exact hi
        simp only [hc, if_true, Option.map_some]
        rw [List.getElem?_eq_getElem this, List.getD_eq_getElem _ _ this]
      · simp [hc, List.getElem?_replicate, hi]
    · rw [List.getElem?_eq_none (l := List.map (fun i => if i ∈ (L r).sentIdx r then (u r)[i]? else none) _)
        (by simpa using hi)]
      exact (List.getElem?_eq_none_iff.2 (hs.1.trans_le (by simpa using hi))).symm

/-- **C06**, a numpy ufunc `f` with `f x x = x` (fmax, fmin, maximum, ...), `arg r` any argsort of the send list.
If the last particle of a rank has a copy, that rank gets `u[i]` for each particle with a copy.  Otherwise it raises
IndexError, even if other particles have copies. -/
theorem C06_roundtrip_ufunc_partial (n : ℕ) (hn : 0 < n) (L : ℕ → Lay) (hL : LayOK n L) (shp : List ℕ)
    (u : ℕ → List K) (hu : ∀ r < n, (u r).length = (L r).sendlength) (hpos : ∀ r < n, 0 < (L r).sendlength)
    (f : K → K → K) (hf : ∀ x, f x x = x) (arg : ℕ → List ℕ)
    (hperm : ∀ r < n, (arg r).Perm (List.range (L r).indices.length))
    (hsort : ∀ r < n, ((arg r).map fun a => (L r).indices.getD a 0).Pairwise (· ≤ ·)) :
    ∃ (e : ℕ → List K) (g : ℕ → Except LayErr (List (Option K))),
      AllReturn n (fun r => exchangeOne r (L r) shp (u r) .ret) (fun r => .ok ((e r).map some)) ∧
      AllReturn n (fun r => gatherProg r (L r) shp (.ufunc f (arg r)) (e r) .ret) g ∧
      ∀ r < n, ((L r).sendlength - 1 ∈ (L r).indices → ∃ out : List K, g r = .ok (out.map some) ∧
          out.length = (L r).sendlength ∧ ∀ i ∈ (L r).indices, out[i]? = (u r)[i]?) ∧
        ((L r).sendlength - 1 ∉ (L r).indices → g r = .error .indexError) := by
  have hlen : ∀ r < n, (exRows n L u r).length = (L r).recvlength := fun r hr => exRows_length hL u hr
  refine ⟨exRows n L u, fun r => gatherReduce (L r) (.ufunc f (arg r)) (backBuf n L (exRows n L u) r),
    ?_, ?_, ?_⟩
  · refine exchangeOne_return hn hL shp hu (k := fun _ => Prog.ret) ?_
    refine AllReturn.congr (fun r _ => rfl) (fun r _ => ?_) (AllReturn.ret n _)
    rw [exRows_some hL hu]
  · exact gather_return hn hL shp (fun r => .ufunc f (arg r)) (fun _ _ => by simp) hlen
      (k := fun _ => Prog.ret) (AllReturn.ret n _)
  · intro r hr
    have h0 : (L r).sendlength ≠ 0 := by have := hpos r hr; omega
    set idx := (L r).indices with hidx
    set S := (arg r).map fun a => idx.getD a 0 with hS
    have hSp : S.Perm idx := by
      have h1 := (hperm r hr).map fun a => idx.getD a 0
      have h2 : (List.range idx.length).map (fun a => idx.getD a 0) = idx := by
        apply List.ext_getElem
        · simp
        · intro i a b
          simp only [List.getElem_map, List.getElem_range]
          rw [List.getD_eq_getElem _ _ b]
      rw [h2] at h1
      exact h1
    have hruns := sorted_eq_runs idx S (L r).sendlength (hL.indices_lt r hr) hSp (hsort r hr)
    have htake : takeRows (idx.map fun i => (u r).getD i 0) (arg r) =
        some ((List.range (L r).sendlength).flatMap fun i => List.replicate (idx.count i) ((u r).getD i 0)) := by
      have : takeRows (idx.map fun i => (u r).getD i 0) (arg r) =
          some ((arg r).map fun a => (u r).getD (idx.getD a 0) 0) := by
        apply mapM_option_some
        intro a ha
        have : a < idx.length := List.mem_range.1 ((hperm r hr).subset ha)
        simp [List.getElem?_map, List.getElem?_eq_getElem this, List.getD_eq_getElem _ _ this]
      rw [this]
      congr 1
      have h3 := congrArg (List.map fun i => (u r).getD i 0) hruns
      rw [hS, List.map_map, List.map_flatMap] at h3
      simp only [List.map_replicate] at h3
      exact h3
    have hg : gatherReduce (L r) (.ufunc f (arg r)) (backBuf n L (exRows n L u) r) =
        match reduceat f ((List.range (L r).sendlength).flatMap fun i =>
          List.replicate (idx.count i) ((u r).getD i 0))
          (offsetsOf ((List.range (L r).sendlength).map fun i => idx.count i)) with
        | none => .error .indexError
        | some out => .ok (out.map some) := by
      rw [backBuf_exRows hL u hr]
      unfold gatherReduce
      simp only [h0, if_false, ← hidx, htake, bincount_eq_count]
      rfl
    have hr2 := reduceat_runs f (fun i => (u r).getD i 0) hf (fun i => idx.count i) (L r).sendlength (hpos r hr)
    simp only at hr2
    show _ ∧ _
    simp only [hg]
    constructor
    · intro hm
      obtain ⟨out, h1, h2, h3⟩ := hr2.1 (List.count_pos_iff.2 hm)
      refine ⟨out, by rw [h1], h2, ?_⟩
      intro i hi
      have hi' := hL.indices_lt r hr i hi
      rw [h3 i hi' (List.count_pos_iff.2 hi)]
      have : i < (u r).length := by rw [hu r hr]; exact hi'
      rw [List.getElem?_eq_getElem this, List.getD_eq_getElem _ _ this]
    · intro hm
      rw [hr2.2 (List.count_eq_zero.2 hm)]

end

/-! ### C07 -/

section
variable {α : Type}

/-- **C07**, `exchange(data, pack=False)` or a single array: a wrong length anywhere makes every rank raise ValueError;
no rank is left waiting. -/
theorem C07_exchange_error (n : ℕ) (L : ℕ → Lay) (shp : List ℕ) (data : ℕ → List α)
    (hd : ∃ r < n, (data r).length ≠ (L r).sendlength) :
    AllReturn n (fun r => exchangeOne r (L r) shp (data r) .ret) (fun _ => .error .valueError) := by
  obtain ⟨r, hr, h⟩ := hd
  exact exchangeOne_error (by omega) shp ⟨r, hr, h⟩ (k := fun _ => Prog.ret) (AllReturn.ret n _)

/-- **C07**, the same for gather, in every mode. -/
theorem C07_gather_error {K : Type} [Field K] [DecidableEq K] (n : ℕ) (L : ℕ → Lay) (shp : List ℕ)
    (mode : ℕ → GatherMode K) (data : ℕ → List K)
    (hd : ∃ r < n, (data r).length ≠ (L r).recvlength) :
    AllReturn n (fun r => gatherProg r (L r) shp (mode r) (data r) .ret) (fun _ => .error .valueError) := by
  obtain ⟨r, hr, h⟩ := hd
  exact gather_error (by omega) shp mode ⟨r, hr, h⟩ (k := fun _ => Prog.ret) (AllReturn.ret n _)

/-- **C07**, the other direction: with the right length everywhere no rank raises. -/
theorem C07_exchange_ok (n : ℕ) (hn : 0 < n) (L : ℕ → Lay) (hL : LayOK n L) (shp : List ℕ) (data : ℕ → List α)
    (hd : ∀ r < n, (data r).length = (L r).sendlength) :
    ∃ out : ℕ → List (Option α),
      AllReturn n (fun r => exchangeOne r (L r) shp (data r) .ret) (fun r => .ok (out r)) :=
  ⟨_, exchangeOne_return hn hL shp hd (k := fun _ => Prog.ret) (AllReturn.ret n _)⟩

/-- **C07** with the default `pack=True` and one array per rank: packing does not change the error. -/
theorem C07_packed_error (n : ℕ) (L : ℕ → Lay) (data : ℕ → List α)
    (hd : ∃ r < n, (data r).length ≠ (L r).sendlength) :
    AllReturn n (fun r => exchangePacked r (L r) .ret [data r]) (fun _ => .error .valueError) := by
  obtain ⟨r, hr, h⟩ := hd
  unfold exchangePacked
  simp only [packArrays, List.all_cons, beq_self_eq_true, List.all_nil, Bool.and_self, if_true]
  refine exchangeOne_error (by omega) [] ⟨r, hr, ?_⟩
    (R := Except LayErr (List (List (Option α))))
    (k := fun _ (e : Except LayErr (List (Option (List α)))) => match e with
      | .error e => Prog.ret (.error e)
      | .ok out => Prog.ret (.ok ((List.range 1).map fun c => out.map fun row => row.bind (·[c]?))))
    (AllReturn.ret n _)
  simpa using h

/-- **C07 violated** with the default `pack=True` and several arrays: if the columns differ in length on one rank and
agree on another, the first raises alone and the communicator hangs. -/
theorem C07_violated_packed (n : ℕ) (L : ℕ → Lay) (args : ℕ → List (List α)) (a b : ℕ) (ha : a < n) (hb : b < n)
    (hbad : packArrays (args a) = .error .valueError) (x : List (List α)) (hok : packArrays (args b) = .ok x) :
    Deadlocks n (fun r => exchangePacked (R := Except LayErr (List (List (Option α)))) r (L r) .ret (args r)) := by
  obtain ⟨op, v, k, h⟩ : ∃ op v k, exchangePacked (R := Except LayErr (List (List (Option α)))) b (L b) .ret
      (args b) = .coll op v k := by
    unfold exchangePacked
    rw [hok]
    exact ⟨_, _, _, rfl⟩
  refine Deadlocks.of_mixed ha hb (r := .error .valueError) ?_ h
  simp only [exchangePacked, hbad]

/-- A concrete instance: two ranks, rank 0 passes arrays of lengths 2 and 1, rank 1 of lengths 1 and 1. -/
example : packArrays ([[1, 2], [3]] : List (List ℕ)) = .error .valueError ∧
    packArrays ([[1], [3]] : List (List ℕ)) = .ok [[1, 3]] := by decide

/-- **C07 violated** by trailing shapes: if the shape of the rows on rank `a` is not that of rank 0 while rank 0's is
that of rank `b`, rank `a` raises alone in `promote` and the communicator hangs. -/
theorem C07_violated_shape (n : ℕ) (L : ℕ → Lay) (shp : ℕ → List ℕ) (data : ℕ → List α) (a : ℕ) (ha : a < n)
    (hne : shp 0 ≠ shp a) :
    Deadlocks n (fun r => exchangeOne (R := Except LayErr (List (Option α))) r (L r) (shp r) (data r) .ret) := by
  have hn : 0 < n := by omega
  unfold exchangeOne promote
  apply Deadlocks.coll hn
  apply Deadlocks.coll hn
  have hh : ((List.range n).map fun r => (Msg.shape (shp r) : Msg α)).head? = some (.shape (shp 0)) := by
    obtain ⟨m, rfl⟩ : ∃ m, n = m + 1 := ⟨n - 1, by omega⟩
    rw [List.range_succ_eq_map]; rfl
  simp only [hh]
  refine Deadlocks.of_mixed ha hn (r := .error .valueError) (if_pos hne) (if_neg (by simp))

/-! ### C13 -/

/-- **C13**.  One or more arrays of the right length: packed exchange and separate exchanges return the same arrays on
every rank. -/
theorem C13_packed_partial (n : ℕ) (hn : 0 < n) (L : ℕ → Lay) (hL : LayOK n L) (shps : List (List ℕ)) (hne : shps ≠ [])
    (cols : ℕ → List (List α)) (hcols : ∀ r < n, (cols r).length = shps.length)
    (hd : ∀ r < n, ∀ c ∈ cols r, c.length = (L r).sendlength) :
    ∃ out : ℕ → List (List (Option α)),
      AllReturn n (fun r => exchangePacked r (L r) .ret (cols r)) (fun r => .ok (out r)) ∧
      AllReturn n (fun r => exchangeUnpacked r (L r) .ret (shps.zip (cols r)) []) (fun r => .ok (out r)) := by
  set out : ℕ → List (List (Option α)) := fun r => (List.range shps.length).map fun c =>
    (List.range n).flatMap fun q => ((L q).sentIdx r).map fun i => ((cols q).getD c [])[i]? with hout
  refine ⟨out, ?_, ?_⟩
  · set data : ℕ → List (List α) := fun r => (List.range (L r).sendlength).map fun i =>
      (cols r).filterMap fun d => d[i]? with hdata
    have hpack : ∀ r < n, packArrays (cols r) = .ok (data r) := by
      intro r hr
      have h1 := hcols r hr
      rcases hc : cols r with _ | ⟨a, rest⟩
      · rw [hc] at h1
        simp at h1
        exact absurd (List.length_eq_zero_iff.1 h1.symm) hne
      · have hall : (a :: rest).all (fun d => d.length == a.length) = true := by
          rw [List.all_eq_true]
          intro d hd'
          have e1 := hd r hr d (by rw [hc]; exact hd')
          have e2 := hd r hr a (by rw [hc]; simp)
          simp [e1, e2]
        have e2 := hd r hr a (by rw [hc]; simp)
        unfold packArrays
        simp only [hall, if_true]
        rw [hdata]
        simp only [hc, e2]
    refine AllReturn.congr (p' := fun r => exchangeOne r (L r) [] (data r) fun
      | .error e => .ret (.error e)
      | .ok o => .ret (.ok ((List.range (cols r).length).map fun c => o.map fun row => row.bind (·[c]?))))
      (fun r hr => by unfold exchangePacked; rw [hpack r hr]; rfl) (fun _ _ => rfl) ?_
    refine exchangeOne_return hn hL [] (data := data) (fun r _ => by simp [hdata])
      (R := Except LayErr (List (List (Option α)))) (k := fun r e => match e with
      | .error e => .ret (.error e)
      | .ok o => .ret (.ok ((List.range (cols r).length).map fun c => o.map fun row => row.bind (·[c]?)))) ?_
    refine AllReturn.congr (fun r _ => rfl) (fun r hr => ?_) (AllReturn.ret n _)
    rw [hout, hcols r hr]
    congr 1
    apply List.map_congr_left
    intro c hc
    rw [List.map_flatMap]
    unfold List.flatMap
    congr 1
    apply List.map_congr_left
    intro q hq
    have hq' := List.mem_range.1 hq
    rw [List.map_map]
    apply List.map_congr_left
    intro i hi
    have hi' := hL.indices_lt q hq' i (sentIdx_mem hi)
    have hcl : c < (cols q).length := by rw [hcols q hq']; exact List.mem_range.1 hc
    have hrow : (cols q).filterMap (fun d => d[i]?) = (cols q).attach.map fun d =>
        d.1[i]'(by rw [hd q hq' d.1 d.2]; exact hi') := by
      have : ∀ (l : List (List α)) (h : ∀ d ∈ l, d ∈ cols q), l.filterMap (fun d => d[i]?) =
          l.attach.map fun d => d.1[i]'(by rw [hd q hq' d.1 (h d.1 d.2)]; exact hi') := by
        intro l
        induction l with
        | nil => intro _; rfl
        | cons a l ih =>
          intro h
          have ha : i < a.length := by rw [hd q hq' a (h a (by simp))]; exact hi'
          rw [List.filterMap_cons, List.getElem?_eq_getElem ha]
          simp only [List.attach_cons, List.map_cons, List.map_map]
          rw [ih fun d hd => h d (by simp [hd])]
          rfl
      exact this (cols q) fun d hd => hd
    simp only [Function.comp, hdata]
    rw [List.getElem?_map, List.getElem?_range hi', Option.map_some, Option.bind_some, hrow,
      List.getElem?_map, List.getElem?_attach]
    simp [List.getElem?_eq_getElem hcl]
  · have key : ∀ (shps : List (List ℕ)) (cols : ℕ → List (List α)) (acc : ℕ → List (List (Option α))),
        (∀ r < n, (cols r).length = shps.length) → (∀ r < n, ∀ c ∈ cols r, c.length = (L r).sendlength) →
        AllReturn n (fun r => exchangeUnpacked r (L r) .ret (shps.zip (cols r)) (acc r))
          (fun r => .ok (acc r ++ (List.range shps.length).map fun c =>
            (List.range n).flatMap fun q => ((L q).sentIdx r).map fun i => ((cols q).getD c [])[i]?)) := by
      intro shps
      induction shps with
      | nil =>
        intro cols acc _ _
        simp only [List.zip_nil_left, exchangeUnpacked, List.length_nil, List.range_zero, List.map_nil,
          List.append_nil]
        exact AllReturn.ret n _
      | cons shp shps ih =>
        intro cols acc h1 h2
        have hcons : ∀ r < n, cols r = (cols r).getD 0 [] :: (cols r).tail := by
          intro r hr
          have := h1 r hr
          rcases hc : cols r with _ | ⟨a, rest⟩
          · rw [hc] at this; simp at this
          · rfl
        refine AllReturn.congr (p' := fun r => exchangeOne r (L r) shp ((cols r).getD 0 []) fun
          | .error e => .ret (.error e)
          | .ok o => exchangeUnpacked r (L r) .ret (shps.zip (cols r).tail) (acc r ++ [o]))
          (fun r hr => by
            conv_lhs => rw [hcons r hr, List.zip_cons_cons, exchangeUnpacked]
            rfl)
          (fun _ _ => rfl) ?_
        refine exchangeOne_return hn hL shp (data := fun r => (cols r).getD 0 [])
          (fun r hr => h2 r hr _ (by
            have := hcons r hr
            generalize (cols r).getD 0 [] = a at this
            rw [this]
            exact List.mem_cons_self)) (k := fun r e => match e with
          | .error e => .ret (.error e)
          | .ok o => exchangeUnpacked r (L r) .ret (shps.zip (cols r).tail) (acc r ++ [o])) ?_
        have := ih (fun r => (cols r).tail) (fun r => acc r ++ [(List.range n).flatMap fun q =>
          ((L q).sentIdx r).map fun i => ((cols q).getD 0 [])[i]?])
          (fun r hr => by simp [h1 r hr]) (fun r hr c hc => h2 r hr c (List.mem_of_mem_tail hc))
        refine AllReturn.congr (fun r _ => rfl) (fun r _ => ?_) this
        congr 1
        rw [List.length_cons, List.range_succ_eq_map, List.map_cons, List.map_map, List.append_assoc]
        congr 1
        simp only [List.singleton_append, List.cons.injEq, true_and]
        apply List.map_congr_left
        intro c _
        simp only [Function.comp]
        unfold List.flatMap
        congr 1
        apply List.map_congr_left
        intro q _
        apply List.map_congr_left
        intro i _
        congr 1
        rcases cols q with _ | ⟨a, rest⟩ <;> simp
    have := key shps cols (fun _ => []) hcols hd
    simp only [List.nil_append] at this
    exact this

/-- **C13 violated** without arguments: the packed branch raises IndexError (from `N[0]`), the other returns. -/
theorem C13_violated_empty (n : ℕ) (L : ℕ → Lay) :
    AllReturn n (fun r => exchangePacked (α := α) r (L r) .ret []) (fun _ => .error .indexError) ∧
    AllReturn n (fun r => exchangeUnpacked (α := α) r (L r) .ret [] []) (fun _ => .ok []) :=
  ⟨AllReturn.ret n _, AllReturn.ret n _⟩

end

/-! ### the layout made by `decompose` -/

section
variable {K : Type*} [Field K] [LinearOrder K] [IsStrictOrderedRing K] [FloorRing K]

open Classical in
/-- **C04** with the send lists of `decompose` (periodic grid, hypotheses of `C01_delivery_partial`): rank `q` sends to
rank `r` its particles whose smoothing region reaches a domain of `r`, in increasing order.  Together with
`C04_exchange` this fixes the result of `decompose(pos).exchange(data)` on every rank. -/
theorem C04_decompose (g : Grid K) (hg : GridOK g) (hper : g.periodic = true) (hflag : g.FlagsAgree)
    (s : List K) (hs : s.length = g.ndim) (hs0 : ∀ a ∈ s, 0 ≤ a) (hfit : g.SmoothingFits s)
    (pos : List (List K)) (hpos : ∀ x ∈ pos, g.ndim ≤ x.length) :
    decompose g s pos = .ok
      (let send := fun r => (List.range pos.length).filter fun i => decide (g.Reaches s (pos.getD i []) r)
       ⟨pos.length, (List.range g.nrank).map fun r => (send r).length,
        ((List.range g.nrank).flatMap send).map some⟩) := by
  obtain ⟨L, h1, h2, h3⟩ := C01_delivery_partial g hg hper hflag s hs hs0 hfit pos hpos
  obtain ⟨L', a1, a2, a3, a4, a5, a6⟩ := C02_unique_ordered g hg (FlagsAgree.rank_lt hg hflag) s hs
    (Or.inl hper) pos hpos
  rw [h1] at a1
  obtain rfl := Except.ok.inj a1
  rw [h1]
  congr 1
  set send := fun r => (List.range pos.length).filter fun i => decide (g.Reaches s (pos.getD i []) r) with hsend
  have key : ∀ r < g.nrank, L.sentTo r = (send r).map some ∧ L.sendcounts.getD r 0 = (send r).length := by
    intro r hr
    obtain ⟨l, b1, b2, b3, b4⟩ := a6 r hr
    have : l = send r := by
      have hp : l.Perm (send r) := by
        rw [List.perm_ext_iff_of_nodup (b3.imp fun h => Nat.ne_of_lt h) (List.nodup_range.filter _)]
        intro i
        have hmem : i ∈ l ↔ some i ∈ L.sentTo r := by rw [b1]; simp
        rw [hmem]
        by_cases hi : i < pos.length
        · rw [h3 r hr i]
          simp [hsend, hi]
        · constructor
          · intro h; exact absurd (b4 i (hmem.2 h)) hi
          · intro h; simp [hsend, hi] at h
      exact hp.eq_of_pairwise (fun a b _ _ x y => absurd x (Nat.lt_asymm y)) b3
        (List.pairwise_lt_range.filter _)
    rw [← this]
    exact ⟨b1, b2.symm⟩
  have e1 : L.sendcounts = (List.range g.nrank).map fun r => (send r).length := by
    apply List.ext_getElem
    · simp [a3]
    · intro r x y
      rw [← List.getD_eq_getElem _ 0 x, (key r (by simpa using y)).2]
      simp
  have e2 : L.indices = ((List.range g.nrank).flatMap send).map some := by
    rw [a5, List.map_flatMap]
    unfold List.flatMap
    congr 1
    apply List.map_congr_left
    intro r hr
    exact (key r (List.mem_range.1 hr)).1
  cases L
  simp only at a2 e1 e2
  simp only [a2, e1, e2]

end

/-! ### Examples: the hypotheses are satisfiable -/

/-- Two ranks; rank 0 sends particles 0, 1 to itself and 1 to rank 1; rank 1 sends its particle to rank 1. -/
def exLay : ℕ → Lay
  | 0 => ⟨2, [2, 1], [2, 0], [0, 2], [0, 2], 2, [0, 1, 1]⟩
  | _ => ⟨1, [0, 1], [1, 1], [0, 0], [0, 1], 2, [0]⟩

theorem exLay_ok : LayOK 2 exLay := by
  constructor <;> decide

example : AllReturn 2 (fun r => exchangeOne r (exLay r) [] (if r = 0 then [10, 11] else [20]) .ret)
    (fun r => .ok (if r = 0 then [some 10, some 11] else [some 11, some 20])) := by
  have := exchangeOne_return (by decide : 0 < 2) exLay_ok []
    (data := fun r => if r = 0 then [10, 11] else [20]) (by decide) (k := fun _ => Prog.ret) (AllReturn.ret 2 _)
  exact this.congr (fun _ _ => rfl) (by decide)

example : AllReturn 2 (fun r => layoutInit 2 r (2 : ℕ) ((List.range 2).map fun t => ([[0, 1], [1]].getD t []).length)
        ((List.range 2).flatMap fun t => [[0, 1], [1]].getD t []) fun
        | .error e => .ret (.error e)
        | .ok lay => exchangeOne r lay [3] (if r = 0 then ["a", "b"] else ["c", "d"]) .ret)
    (fun r => .ok (if r = 0 then [some "a", some "b", some "c", some "d"] else [some "b", some "d"])) := by
  have := C04_exchange 2 (by decide) (fun _ t => [[0, 1], [1]].getD t []) (fun _ => 2) (by decide) [3]
    (fun r => if r = 0 then ["a", "b"] else ["c", "d"]) (by decide)
  exact this.congr (fun _ _ => rfl) (by decide)

example : ∃ e : ℕ → List ℚ, AllReturn 2
    (fun r => exchangeOne r (exLay r) [] (if r = 0 then [10, 11] else [20]) .ret) (fun r => .ok ((e r).map some)) :=
  ⟨_, (C06_roundtrip 2 (by decide) exLay exLay_ok [] (fun r => if r = 0 then [10, 11] else [20])
    (by decide)).choose_spec.1⟩

example : ∃ e g : ℕ → List ℚ, ((List.range 2).map fun r => dot (e r) [1, 2]).sum =
    ((List.range 2).map fun q => dot (if q = 0 then [10, 11] else [20]) (g q)).sum := by
  obtain ⟨e, g, _, _, _, h, _⟩ := C05_adjoint 2 (by decide) exLay exLay_ok [] (fun r => if r = 0 then [10, 11] else [20])
    (fun _ => [(1 : ℚ), 2]) (by decide) (by decide)
  exact ⟨e, g, h⟩

/-- `C06_roundtrip_ufunc_partial` applies to `exLay` with `fmax`, whose argsort is the identity on both ranks. -/
example : ∃ (e : ℕ → List ℚ) (g : ℕ → Except LayErr (List (Option ℚ))),
    AllReturn 2 (fun r => gatherProg r (exLay r) [] (.ufunc max (List.range (exLay r).indices.length)) (e r) .ret) g ∧
    ∃ out : List ℚ, g 0 = .ok (out.map some) ∧ out[1]? = some 11 := by
  obtain ⟨e, g, _, h2, h3⟩ := C06_roundtrip_ufunc_partial 2 (by decide) exLay exLay_ok []
    (fun r => if r = 0 then [(10 : ℚ), 11] else [20]) (by decide) (by decide) max max_self
    (fun r => List.range (exLay r).indices.length) (fun _ _ => List.Perm.refl _) (by decide)
  obtain ⟨out, a, _, b⟩ := (h3 0 (by decide)).1 (by decide)
  exact ⟨e, g, h2, out, a, b 1 (by decide)⟩

/-- One rank, two particles, particle 0 without a copy. -/
def exNoCopy : ℕ → Lay := fun _ => ⟨2, [1], [1], [0], [0], 1, [1]⟩

theorem exNoCopy_ok : LayOK 1 exNoCopy := by constructor <;> decide

/-- **C06 violated** for a particle without copies (possible on non-periodic grids): `fmax` returns the value of another
particle for it. -/
theorem C06_violated_ufunc : AllReturn 1 (fun r => gatherProg r (exNoCopy r) [] (.ufunc max [0]) [(7 : ℚ)] .ret)
    (fun _ => .ok [some 7, some 7]) := by
  have := gather_return (by decide : 0 < 1) exNoCopy_ok [] (fun _ => .ufunc max [0]) (by simp)
    (v := fun _ => [(7 : ℚ)]) (by decide) (k := fun _ => Prog.ret) (AllReturn.ret 1 _)
  exact this.congr (fun _ _ => rfl) (by decide +kernel)

/-- One rank, two particles, the last without a copy. -/
def exNoLast : ℕ → Lay := fun _ => ⟨2, [1], [1], [0], [0], 1, [0]⟩

theorem exNoLast_ok : LayOK 1 exNoLast := by constructor <;> decide

/-- **C06 violated**: particle 0 has a copy, but the gather raises because the last particle has none. -/
theorem C06_violated_ufunc_error :
    AllReturn 1 (fun r => gatherProg r (exNoLast r) [] (.ufunc max [0]) [(7 : ℚ)] .ret)
      (fun _ => .error .indexError) := by
  have := gather_return (by decide : 0 < 1) exNoLast_ok [] (fun _ => .ufunc max [0]) (by simp)
    (v := fun _ => [(7 : ℚ)]) (by decide) (k := fun _ => Prog.ret) (AllReturn.ret 1 _)
  exact this.congr (fun _ _ => rfl) (by decide +kernel)

example : ∃ out : ℕ → List (List (Option ℕ)),
    AllReturn 2 (fun r => exchangePacked r (exLay r) .ret (if r = 0 then [[1, 2], [3, 4]] else [[5], [6]]))
      (fun r => .ok (out r)) :=
  ⟨_, (C13_packed_partial 2 (by decide) exLay exLay_ok [[], [3]] (by simp)
    (fun r => if r = 0 then [[1, 2], [3, 4]] else [[5], [6]]) (by decide) (by decide)).choose_spec.1⟩

end Pmesh

#print axioms Pmesh.C04_exchange
#print axioms Pmesh.C04_layout_ok
#print axioms Pmesh.C04_decompose
#print axioms Pmesh.C05_adjoint
#print axioms Pmesh.C06_roundtrip
#print axioms Pmesh.C06_roundtrip_local
#print axioms Pmesh.C06_roundtrip_ufunc_partial
#print axioms Pmesh.C06_violated_ufunc
#print axioms Pmesh.C06_violated_ufunc_error
#print axioms Pmesh.C07_exchange_error
#print axioms Pmesh.C07_gather_error
#print axioms Pmesh.C07_exchange_ok
#print axioms Pmesh.C07_packed_error
#print axioms Pmesh.C07_violated_packed
#print axioms Pmesh.C07_violated_shape
#print axioms Pmesh.C13_packed_partial
#print axioms Pmesh.C13_violated_empty
