import Verif.Lemmas.Gather
import Verif.Spec.Dtype

/-! # Lemmas on number types -/

namespace Pmesh

theorem flRound_of_digits {p : ℕ} (hp : 1 ≤ p) {x : ℚ} {m k : ℤ} (h : x = m * 2 ^ k) (hm : |m| ≤ 2 ^ p) : flRound p x = x := by
  rcases hm.lt_or_eq with hm | hm
  · by_cases h0 : x = 0
    · rw [h0, flRound_zero]
    refine flRound_of_mul p h ?_
    obtain ⟨l0, -⟩ := log_bounds h0
    have hx : |x| < 2 ^ ((p : ℤ) + k) := by
      rw [h, abs_mul, abs_of_pos (two_zpow_pos (K := ℚ) k), zpow_add₀ (by norm_num), zpow_natCast]
      have : ((|m| : ℤ) : ℚ) < ((2 ^ p : ℤ) : ℚ) := by exact_mod_cast hm
      push_cast at this
      exact mul_lt_mul_of_pos_right this (two_zpow_pos k)
    have := lt_of_le_of_lt l0 hx
    rw [zpow_lt_zpow_iff_right₀ (by norm_num)] at this
    unfold ulpExp
    omega
  · have e : (2 : ℚ) ^ p * 2 ^ k = 2 ^ ((p : ℤ) + k) := by rw [zpow_add₀ (by norm_num), zpow_natCast]
    rcases abs_choice m with hc | hc
    · have : x = 2 ^ ((p : ℤ) + k) := by
        rw [h, ← hc, hm, ← e]
        push_cast
        ring
      rw [this]
      exact flRound_zpow hp _
    · have : x = -2 ^ ((p : ℤ) + k) := by
        have hm' : m = -2 ^ p := by omega
        rw [h, hm', ← e]
        push_cast
        ring
      rw [this, flRound_neg, flRound_zpow hp]

theorem flRound_intCast {p : ℕ} (hp : 1 ≤ p) {m : ℤ} (hm : |m| ≤ 2 ^ p) : flRound p (m : ℚ) = m :=
  flRound_of_digits hp (m := m) (k := 0) (by simp) hm

theorem flRound_nat {p : ℕ} (hp : 1 ≤ p) {m : ℕ} (hm : m ≤ 2 ^ p) : flRound p (m : ℚ) = m := by
  have := flRound_intCast hp (m := (m : ℤ)) (by rw [abs_of_nonneg (by positivity)]; exact_mod_cast hm)
  simpa using this

theorem truncInt_int (m : ℤ) : truncInt (m : ℚ) = m := by
  unfold truncInt
  split_ifs
  · exact Int.floor_intCast m
  · rw [← Int.cast_neg, Int.floor_intCast, neg_neg]

theorem astype_of_holds {junk : ℚ → ℤ} {src dst : DType} (hd : dst.Real) {x : ℚ} (h : dst.Holds x) : astype junk src dst x = x := by
  cases dst with
  | float p =>
    obtain ⟨m, k, e, hm⟩ := h
    exact flRound_of_digits (by unfold DType.Real at hd; omega) e hm
  | int b =>
    obtain ⟨m, rfl, h1, h2⟩ := h
    have hb : 1 ≤ b := by unfold DType.Real at hd; omega
    obtain ⟨c, rfl⟩ : ∃ c, b = c + 1 := ⟨b - 1, by omega⟩
    simp only [Nat.add_sub_cancel] at h1 h2
    simp only [astype, truncInt_int, Nat.add_sub_cancel]
    rw [if_neg (by simp [h1, h2]), Int.emod_eq_of_lt (by omega) (by rw [pow_succ]; omega)]
    push_cast
    ring
  | uint b =>
    obtain ⟨m, rfl, h1, h2⟩ := h
    simp only [astype, truncInt_int]
    rw [if_neg (by simp [h1, h2]), Int.emod_eq_of_lt h1 h2]

theorem map_astype_of_holds {junk : ℚ → ℤ} {src dst : DType} (hd : dst.Real) {l : List ℚ} (h : ∀ x ∈ l, dst.Holds x) :
    l.map (astype junk src dst) = l := by
  conv_rhs => rw [← List.map_id l]
  exact List.map_congr_left fun x hx => astype_of_holds hd (h x hx)

theorem astype_int {junk : ℚ → ℤ} {src dst : DType} (hd : dst.isFloat = false) (x : ℚ) : ∃ m : ℤ, astype junk src dst x = m := by
  cases dst with
  | float p => simp [DType.isFloat] at hd
  | int b =>
    simp only [astype]
    split_ifs
    · exact ⟨_, rfl⟩
    · exact ⟨_, rfl⟩
  | uint b =>
    simp only [astype]
    split_ifs
    · exact ⟨_, rfl⟩
    · exact ⟨_, rfl⟩

section
variable {R : Type}

/-- Without the first collective, whose result is not used, the programs end in the same way. -/
theorem AllReturn.afterFirst {V : Type} {n : ℕ} (hn : 0 < n) {op : Coll} {v : ℕ → V} {q : ℕ → Prog V R} {f : ℕ → R}
    (h : AllReturn n (fun r => .coll op (v r) (fun _ => q r)) f) : AllReturn n q f := by
  by_contra hq
  have hd : Deadlocks n q := by
    intro rs hrs
    apply hq
    have h1 : AllReturn n (fun r => Prog.coll op (v r) (fun _ => q r)) f := h
    have h2 : Runs ((List.range n).map fun r => Prog.coll op (v r) (fun _ => q r)) rs := by
      have hz : (List.range n).map (fun r => Prog.coll op (v r) (fun _ => q r)) =
          List.zipWith (Prog.coll op) ((List.range n).map v) ((List.range n).map fun r _ => q r) := by
        rw [List.zipWith_map, List.zipWith_self]
      rw [hz]
      refine .step op _ _ rs (by simp) (by simp; omega) ?_
      rw [List.map_map]
      exact hrs
    have := Runs.unique h2 h1
    rw [this] at hrs
    exact hrs
  exact (Deadlocks.coll (op := op) (v := v) (k := fun r _ => q r) hn hd) _ h

theorem withRootType_return {n : ℕ} (hn : 0 < n) (dt : ℕ → DType) {p : ℕ → DType → Prog (Msg ℚ) R} {q : ℕ → Prog (Msg ℚ) R} {f : ℕ → R}
    (hq : ∀ r, p r (dt 0) = .coll .bcast .none fun _ => q r) (h : AllReturn n (fun r => p r (dt 0)) f) :
    AllReturn n (fun r => withRootType (dt r) (p r)) f := by
  have h1 : AllReturn n q f := by
    refine AllReturn.afterFirst hn (op := .bcast) (v := fun _ => .none) ?_
    refine AllReturn.congr (fun r _ => ?_) (fun _ _ => rfl) h
    exact (hq r).symm
  have h2 := AllReturn.embed (f := Sum.inr) (g := untyped) (fun v => rfl) h1
  unfold withRootType
  apply AllReturn.coll hn
  refine AllReturn.congr (fun r _ => ?_) (fun _ _ => rfl) h2
  obtain ⟨m, rfl⟩ : ∃ m, n = m + 1 := ⟨n - 1, by omega⟩
  have : ((List.range (m + 1)).map fun r => (Sum.inl (dt r) : DType ⊕ Msg ℚ)).head? = some (.inl (dt 0)) := by
    rw [List.range_succ_eq_map]; rfl
  simp only [this, hq]
  rfl

end

theorem exchangeTyped_return {n : ℕ} (hn : 0 < n) {L : ℕ → Lay} (hL : LayOK n L) (junk : ℚ → ℤ) (shp : List ℕ) (dt : ℕ → DType)
    {data : ℕ → List ℚ} (hd : ∀ r < n, (data r).length = (L r).sendlength) :
    AllReturn n (fun r => exchangeTyped junk r (L r) (dt r) shp (data r))
      (fun r => .ok (dt 0, (List.range n).flatMap fun q => ((L q).sentIdx r).map fun i =>
        ((data q)[i]?).map (astype junk (dt q) (dt 0)))) := by
  unfold exchangeTyped
  refine withRootType_return hn dt (q := fun r => (exchangeOne r (L r) shp ((data r).map (astype junk (dt r) (dt 0))) fun
    | .error e => .ret (.error e)
    | .ok out => .ret (.ok (dt 0, out))).afterFirst) (fun r => rfl) ?_
  refine exchangeOne_return (R := Except LayErr (DType × List (Option ℚ))) hn hL shp (data := fun r => (data r).map (astype junk (dt r) (dt 0))) (fun r hr => by simpa using hd r hr)
    (k := fun r x => match x with
    | .error e => .ret (.error e)
    | .ok out => .ret (.ok (dt 0, out))) ?_
  refine AllReturn.congr (fun r _ => rfl) (fun r hr => ?_) (AllReturn.ret n _)
  simp only [List.getElem?_map]

theorem gatherTyped_return {n : ℕ} (hn : 0 < n) {L : ℕ → Lay} (hL : LayOK n L) (junk : ℚ → ℤ) (shp : List ℕ) (dt : ℕ → DType)
    {mode : TypedMode} (hm : mode ≠ .local) {v : ℕ → List ℚ} (hv : ∀ r < n, (v r).length = (L r).recvlength) :
    AllReturn n (fun r => gatherTyped junk r (L r) (dt r) shp mode (v r))
      (fun r => (typedReduce junk (dt 0) (L r) mode (if (L r).sendlength = 0 then [] else
        backBuf n L (fun r => (v r).map (astype junk (dt r) (dt 0))) r)).map fun out => (dt 0, out)) := by
  unfold gatherTyped
  simp only [hm, if_false]
  refine withRootType_return hn dt (q := fun r => (gatherProg r (L r) shp .all ((v r).map (astype junk (dt r) (dt 0))) fun
        | .error e => .ret (.error (.lay e))
        | .ok out =>
          match defined out with
          | none => .ret (.error (.lay .mpi))
          | some recv => .ret ((typedReduce junk (dt 0) (L r) mode recv).map fun out => (dt 0, out))).afterFirst) (fun r => rfl) ?_
  refine gather_return hn hL shp (fun _ => .all) (fun _ _ => by simp) (v := fun r => (v r).map (astype junk (dt r) (dt 0)))
    (fun r hr => by simpa using hv r hr)
    (k := fun r x => match x with
        | .error e => .ret (.error (.lay e))
        | .ok out =>
          match defined out with
          | none => .ret (.error (.lay .mpi))
          | some recv => .ret ((typedReduce junk (dt 0) (L r) mode recv).map fun out => (dt 0, out))) ?_
  refine AllReturn.congr (fun r hr => ?_) (fun _ _ => rfl) (AllReturn.ret n _)
  unfold gatherReduce
  by_cases h : (L r).sendlength = 0
  · simp [h, defined]
  · simp only [h, if_false, defined_map_some]

theorem gatherTyped_local {n : ℕ} (hn : 0 < n) {L : ℕ → Lay} (junk : ℚ → ℤ) (shp : List ℕ) (dt : ℕ → DType)
    {v : ℕ → List ℚ} (hv : ∀ r < n, (v r).length = (L r).recvlength) :
    AllReturn n (fun r => gatherTyped junk r (L r) (dt r) shp .local (v r))
      (fun r => .ok (dt 0, (((L r).indices.drop ((L r).sendoffsets.getD r 0)).take
      ((L r).sendcounts.getD r 0)).zip ((((v r).map (astype junk (dt r) (dt 0))).drop ((L r).recvoffsets.getD r 0)).take
      ((L r).recvcounts.getD r 0)) |>.foldl (fun acc p => acc.set p.1 (some p.2))
            (List.replicate (L r).sendlength none))) := by
  unfold gatherTyped
  simp only [if_true]
  refine withRootType_return hn dt (q := fun r => (gatherProg r (L r) shp .local ((v r).map (astype junk (dt r) (dt 0))) fun
        | .error e => .ret (.error (.lay e))
        | .ok out => .ret (.ok (dt 0, out))).afterFirst) (fun r => rfl) ?_
  refine gather_local_return (R := Except TypedErr (DType × List (Option ℚ))) hn shp (v := fun r => (v r).map (astype junk (dt r) (dt 0)))
    (fun r hr => by simpa using hv r hr)
    (k := fun r x => match x with
        | .error e => .ret (.error (.lay e))
        | .ok out => .ret (.ok (dt 0, out))) ?_
  exact AllReturn.congr (fun r hr => rfl) (fun _ _ => rfl) (AllReturn.ret n _)

/-- Adding up integers in `f8` is exact as long as the sum of their sizes does not exceed `2 ^ 53`. -/
theorem fold_f8_int (l : List ℚ) (hl : ∀ x ∈ l, ∃ m : ℤ, x = m) (s : ℤ) (hs : |(s : ℚ)| + (l.map fun x => |x|).sum ≤ 2 ^ 53) :
    l.foldl (fun s v => (binary (K := ℚ) 53 (by norm_num)).rnd (s + v)) (s : ℚ) = s + l.sum := by
  induction l generalizing s with
  | nil => simp
  | cons x l ih =>
    obtain ⟨m, rfl⟩ := hl x (by simp)
    simp only [List.map_cons, List.sum_cons, List.foldl_cons] at hs ⊢
    have hn : 0 ≤ (l.map fun x => |x|).sum := List.sum_nonneg (by simp)
    have ht := abs_add_le (s : ℚ) (m : ℚ)
    have e : (binary (K := ℚ) 53 (by norm_num)).rnd ((s : ℚ) + m) = ((s + m : ℤ) : ℚ) := by
      rw [← Int.cast_add]
      refine flRound_intCast (by norm_num) ?_
      have : |((s + m : ℤ) : ℚ)| ≤ 2 ^ 53 := by
        push_cast
        linarith
      exact_mod_cast this
    rw [e, ih (fun x hx => hl x (by simp [hx])) (s + m) (by push_cast; linarith)]
    push_cast
    ring

theorem zip_indices_back {n : ℕ} {L : ℕ → Lay} (hL : LayOK n L) {v : ℕ → List ℚ} (hv : ∀ r < n, (v r).length = (L r).recvlength)
    {q : ℕ} (hq : q < n) : (L q).indices.zip (backBuf n L v q) =
      (List.range n).flatMap fun r => ((L q).sentIdx r).zip ((L r).segment q (v r)) := by
  rw [← hL.indices_eq hq]
  unfold backBuf
  have key : ∀ m ≤ n, ((List.range m).flatMap (L q).sentIdx).zip
      ((List.range m).flatMap fun r => (L r).segment q (v r)) =
      (List.range m).flatMap fun r => ((L q).sentIdx r).zip ((L r).segment q (v r)) := by
    intro m
    induction m with
    | zero => simp
    | succ m ih =>
      intro hm
      rw [List.range_succ, List.flatMap_append, List.flatMap_append, List.flatMap_append, ← ih (by omega)]
      have hl : ((List.range m).flatMap (L q).sentIdx).length =
          ((List.range m).flatMap fun r => (L r).segment q (v r)).length := by
        rw [List.length_flatMap, List.length_flatMap]
        congr 1
        apply List.map_congr_left
        intro r hr
        have : r < n := by have := List.mem_range.1 hr; omega
        rw [hL.sentIdx_length hq this, hL.segment_length hv hq this]
      rw [List.zip_append hl]
      simp
  exact key n le_rfl

theorem copies_eq {n : ℕ} {L : ℕ → Lay} (hL : LayOK n L) {v : ℕ → List ℚ} (hv : ∀ r < n, (v r).length = (L r).recvlength)
    {q : ℕ} (hq : q < n) (i : ℕ) :
    (((L q).indices.zip (backBuf n L v q)).filter fun p => p.1 = i).map (·.2) = copiesOf n L v q i := by
  rw [zip_indices_back hL hv hq, List.filter_flatMap, List.map_flatMap]
  rfl

theorem filter_zip_mapped (x : List ℕ) (w : List ℚ) (f : ℚ → ℚ) (i : ℕ) :
    ((x.zip (w.map f)).filter fun p => p.1 = i).map (·.2) = (((x.zip w).filter fun p => p.1 = i).map (·.2)).map f := by
  rw [List.zip_map_right, List.filter_map, List.map_map, List.map_map]
  rfl

theorem holds_f8_int {m : ℤ} (h : |(m : ℚ)| ≤ 2 ^ 53) : (DType.float 53).Holds m :=
  ⟨m, 0, by simp, by exact_mod_cast h⟩

/-- The sum of `gather`, when the sum in `f8` is exact. -/
theorem sumEntry_exact {junk : ℚ → ℤ} {root : DType} (hroot : root.Real) {n : ℕ} {L : ℕ → Lay} (hL : LayOK n L) {v : ℕ → List ℚ}
    (hv : ∀ r < n, (v r).length = (L r).recvlength) {q : ℕ} (hq : q < n) (i : ℕ)
    (hx : ((copiesOf n L v q i).length ≤ 1 ∧ ∀ x ∈ copiesOf n L v q i, (DType.float 53).Holds x) ∨
      ((∀ x ∈ copiesOf n L v q i, ∃ m : ℤ, x = m) ∧ ((copiesOf n L v q i).map fun x => |x|).sum ≤ 2 ^ 53))
    (hfit : root.Holds (copiesOf n L v q i).sum) :
    sumEntry junk root (L q).indices (backBuf n L v q) i = (copiesOf n L v q i).sum := by
  unfold sumEntry bincountR
  rw [filter_zip_mapped, copies_eq hL hv hq]
  obtain ⟨c, hc⟩ : ∃ c, c = copiesOf n L v q i := ⟨_, rfl⟩
  rw [← hc] at hx hfit ⊢
  have hall : ∀ x ∈ c, (DType.float 53).Holds x := by
    rcases hx with ⟨-, h⟩ | ⟨h1, h2⟩
    · exact h
    · intro x hx
      obtain ⟨m, rfl⟩ := h1 x hx
      apply holds_f8_int
      refine le_trans ?_ h2
      exact List.single_le_sum (by simp) _ (List.mem_map_of_mem hx)
  rw [map_astype_of_holds (by simp [DType.Real]) hall]
  have hfold : c.foldl (fun s v => (binary (K := ℚ) 53 (by norm_num)).rnd (s + v)) 0 = c.sum := by
    rcases hx with ⟨h1, h2⟩ | ⟨h1, h2⟩
    · rcases c with _ | ⟨x, c⟩
      · rfl
      · have : c = [] := by simpa using h1
        subst this
        simp only [List.foldl_cons, List.foldl_nil, zero_add, List.sum_cons, List.sum_nil, add_zero]
        obtain ⟨m, k, e, hm⟩ := h2 x (by simp)
        exact flRound_of_digits (by norm_num) e hm
    · have := fold_f8_int c h1 0 (by simpa using h2)
      simpa using this
  rw [hfold]
  exact astype_of_holds hroot hfit

end Pmesh
