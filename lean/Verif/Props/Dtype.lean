import Verif.Lemmas.Dtype
import Verif.Props.Layout
import Verif.Props.UniformGrid

/-!
# C101: number types in exchange, gather and the uniform grid
-/

namespace Pmesh

/-! ## exchange -/

/-- **C101**, exchange.  Every rank receives the rows that C04 says, converted to the type of the array of rank 0. -/
theorem C101_exchange (n : ℕ) (hn : 0 < n) (L : ℕ → Lay) (hL : LayOK n L) (junk : ℚ → ℤ) (shp : List ℕ) (dt : ℕ → DType)
    (data : ℕ → List ℚ) (hd : ∀ r < n, (data r).length = (L r).sendlength) :
    AllReturn n (fun r => exchangeTyped junk r (L r) (dt r) shp (data r))
      (fun r => .ok (dt 0, (List.range n).flatMap fun q => ((L q).sentIdx r).map fun i =>
        ((data q)[i]?).map (astype junk (dt q) (dt 0)))) :=
  exchangeTyped_return hn hL junk shp dt hd

/-- **C101**, exchange without loss: if the numbers of all ranks are numbers of the type that rank 0 has (so if all ranks have the same
type), the values arrive unchanged: the result is that of the exchange without types (C04). -/
theorem C101_exchange_partial (n : ℕ) (hn : 0 < n) (L : ℕ → Lay) (hL : LayOK n L) (junk : ℚ → ℤ) (shp : List ℕ) (dt : ℕ → DType)
    (h0 : (dt 0).Real) (data : ℕ → List ℚ) (hd : ∀ r < n, (data r).length = (L r).sendlength)
    (hh : ∀ r < n, ∀ x ∈ data r, (dt 0).Holds x) :
    ∃ e : ℕ → List (Option ℚ), AllReturn n (fun r => exchangeOne r (L r) shp (data r) .ret) (fun r => .ok (e r)) ∧
      AllReturn n (fun r => exchangeTyped junk r (L r) (dt r) shp (data r)) (fun r => .ok (dt 0, e r)) := by
  refine ⟨fun r => (List.range n).flatMap fun q => ((L q).sentIdx r).map fun i => (data q)[i]?, ?_, ?_⟩
  · exact exchangeOne_return hn hL shp hd (k := fun _ => Prog.ret) (AllReturn.ret n _)
  · refine AllReturn.congr (fun r _ => rfl) (fun r hr => ?_) (exchangeTyped_return hn hL junk shp dt hd)
    congr 2
    beta_reduce
    unfold List.flatMap
    congr 1
    apply List.map_congr_left
    intro q hq
    apply List.map_congr_left
    intro i _
    rcases hi : (data q)[i]? with _ | x
    · rfl
    · simp only [Option.map_some]
      rw [astype_of_holds h0 (hh q (List.mem_range.1 hq) x (List.mem_of_getElem? hi))]

/-- **C101 violated**: if rank 0 has integers, all ranks receive integers only, whatever numbers were sent. -/
theorem C101_violated_integers (n : ℕ) (hn : 0 < n) (L : ℕ → Lay) (hL : LayOK n L) (junk : ℚ → ℤ) (shp : List ℕ) (dt : ℕ → DType)
    (h0 : (dt 0).isFloat = false) (data : ℕ → List ℚ) (hd : ∀ r < n, (data r).length = (L r).sendlength) :
    ∃ e : ℕ → List (Option ℚ), AllReturn n (fun r => exchangeTyped junk r (L r) (dt r) shp (data r)) (fun r => .ok (dt 0, e r)) ∧
      ∀ r < n, ∀ x, some x ∈ e r → ∃ m : ℤ, x = m := by
  refine ⟨_, exchangeTyped_return hn hL junk shp dt hd, ?_⟩
  intro r _ x hx
  obtain ⟨q, _, hx⟩ := List.mem_flatMap.1 hx
  obtain ⟨i, _, hx⟩ := List.mem_map.1 hx
  rw [Option.map_eq_some_iff] at hx
  obtain ⟨y, _, rfl⟩ := hx
  exact astype_int h0 y

/-- Two ranks; rank 1 has two particles, both sent to rank 0; rank 0 has none. -/
def exLayTo0 : ℕ → Lay
  | 0 => ⟨0, [0, 0], [0, 2], [0, 0], [0, 0], 2, []⟩
  | _ => ⟨2, [2, 0], [0, 0], [0, 2], [0, 0], 0, [0, 1]⟩

theorem exLayTo0_ok : LayOK 2 exLayTo0 := by
  constructor <;> decide

/-- Whatever the layout, `1/2` of a rank arrives as `0`. -/
example : AllReturn 2 (fun r => exchangeTyped (fun _ => 0) r (exLayTo0 r) (if r = 0 then .int 64 else .float 53) []
    (if r = 0 then [] else [1 / 2, 3])) (fun r => .ok (.int 64, if r = 0 then [some 0, some 3] else [])) :=
  (C101_exchange 2 (by decide) exLayTo0 exLayTo0_ok (fun _ => 0) [] (fun r => if r = 0 then .int 64 else .float 53)
    (fun r => if r = 0 then [] else [1 / 2, 3]) (by decide)).congr (fun _ _ => rfl) (by decide +kernel)

/-- **C101 violated**, ids: rank 0 has no particles and passes `[]`, which is an array of `f8`; two particles of rank 1 with the different ids
`2 ^ 53` and `2 ^ 53 + 1` (`i8`) arrive with the same id. -/
theorem C101_violated_ids (junk : ℚ → ℤ) :
    AllReturn 2 (fun r => exchangeTyped junk r (exLayTo0 r) (if r = 0 then .float 53 else .int 64) []
      (if r = 0 then [] else [2 ^ 53, 2 ^ 53 + 1])) (fun r => .ok (.float 53, if r = 0 then [some (2 ^ 53), some (2 ^ 53)] else [])) := by
  refine (C101_exchange 2 (by decide) exLayTo0 exLayTo0_ok junk [] (fun r => if r = 0 then .float 53 else .int 64)
    (fun r => if r = 0 then [] else [2 ^ 53, 2 ^ 53 + 1]) (by decide)).congr (fun _ _ => rfl) ?_
  intro r hr
  have h : Except.ok (DType.float 53, if r = 0 then [some (2 ^ 53 : ℚ), some (2 ^ 53)] else []) =
      (Except.ok (.float 53, (List.range 2).flatMap fun q => ((exLayTo0 q).sentIdx r).map fun i =>
        ((if q = 0 then [] else [2 ^ 53, (2 ^ 53 + 1 : ℚ)])[i]?).map (flRound 53)) : Except LayErr (DType × List (Option ℚ))) := by
    revert r
    decide +kernel
  exact h

/-! ## gather -/

/-- **C101**, gather without sums: if the numbers of all ranks are numbers of the type that rank 0 has, the modes `'all'`, `'any'` and
`'local'` give what they give without types (C06). -/
theorem C101_gather_partial (n : ℕ) (hn : 0 < n) (L : ℕ → Lay) (hL : LayOK n L) (junk : ℚ → ℤ) (shp : List ℕ) (dt : ℕ → DType)
    (h0 : (dt 0).Real) (v : ℕ → List ℚ) (hv : ∀ r < n, (v r).length = (L r).recvlength) (hh : ∀ r < n, ∀ x ∈ v r, (dt 0).Holds x) :
    ∃ all any loc : ℕ → List (Option ℚ),
      AllReturn n (fun r => gatherProg r (L r) shp .all (v r) .ret) (fun r => .ok (all r)) ∧
      AllReturn n (fun r => gatherTyped junk r (L r) (dt r) shp .all (v r)) (fun r => .ok (dt 0, all r)) ∧
      AllReturn n (fun r => gatherProg r (L r) shp .any (v r) .ret) (fun r => .ok (any r)) ∧
      AllReturn n (fun r => gatherTyped junk r (L r) (dt r) shp .any (v r)) (fun r => .ok (dt 0, any r)) ∧
      AllReturn n (fun r => gatherProg r (L r) shp .local (v r) .ret) (fun r => .ok (loc r)) ∧
      AllReturn n (fun r => gatherTyped junk r (L r) (dt r) shp .local (v r)) (fun r => .ok (dt 0, loc r)) := by
  have hb : ∀ r, backBuf n L (fun r => (v r).map (astype junk (dt r) (dt 0))) r = backBuf n L v r := by
    intro r
    unfold backBuf
    unfold List.flatMap
    congr 1
    apply List.map_congr_left
    intro q hq
    beta_reduce
    rw [map_astype_of_holds h0 (hh q (List.mem_range.1 hq))]
  refine ⟨fun r => if (L r).sendlength = 0 then [] else (backBuf n L v r).map some,
    fun r => if (L r).sendlength = 0 then [] else ((L r).indices.zip (backBuf n L v r)).foldl (fun acc p => acc.set p.1 (some p.2))
      (List.replicate (L r).sendlength (some 0)), _, ?_, ?_, ?_, ?_,
    gather_local_return hn shp hv (k := fun _ => Prog.ret) (AllReturn.ret n _), ?_⟩
  · refine gather_return hn hL shp (fun _ => .all) (fun _ _ => by simp) hv (k := fun _ => Prog.ret) ?_
    refine AllReturn.congr (fun r _ => rfl) (fun r _ => ?_) (AllReturn.ret n _)
    unfold gatherReduce
    by_cases h : (L r).sendlength = 0 <;> simp [h]
  · refine AllReturn.congr (fun r _ => rfl) (fun r hr => ?_) (gatherTyped_return hn hL junk shp dt (mode := .all) (by simp) hv)
    unfold typedReduce
    rw [hb]
    by_cases h : (L r).sendlength = 0 <;> simp [h, Except.map]
  · refine gather_return hn hL shp (fun _ => .any) (fun _ _ => by simp) hv (k := fun _ => Prog.ret) ?_
    refine AllReturn.congr (fun r _ => rfl) (fun r _ => ?_) (AllReturn.ret n _)
    unfold gatherReduce
    by_cases h : (L r).sendlength = 0 <;> simp [h]
  · refine AllReturn.congr (fun r _ => rfl) (fun r hr => ?_) (gatherTyped_return hn hL junk shp dt (mode := .any) (by simp) hv)
    unfold typedReduce
    rw [hb]
    by_cases h : (L r).sendlength = 0 <;> simp [h, Except.map]
  · refine AllReturn.congr (fun r _ => rfl) (fun r hr => ?_) (gatherTyped_local hn junk shp dt hv)
    rw [map_astype_of_holds h0 (hh r hr)]

/-- **C101**, mode `'sum'`: if for each particle either there is at most one copy and its number is one of `f8`, or the numbers of the copies
are integers with sizes that add up to at most `2 ^ 53`, and the sum is a number of the type, the sum is exact. -/
theorem C101_sum_partial (n : ℕ) (hn : 0 < n) (L : ℕ → Lay) (hL : LayOK n L) (junk : ℚ → ℤ) (shp : List ℕ) (dt : ℕ → DType)
    (h0 : (dt 0).Real) (v : ℕ → List ℚ) (hv : ∀ r < n, (v r).length = (L r).recvlength) (hh : ∀ r < n, ∀ x ∈ v r, (dt 0).Holds x)
    (hx : ∀ q < n, ∀ i < (L q).sendlength,
      ((copiesOf n L v q i).length ≤ 1 ∧ ∀ x ∈ copiesOf n L v q i, (DType.float 53).Holds x) ∨
      ((∀ x ∈ copiesOf n L v q i, ∃ m : ℤ, x = m) ∧ ((copiesOf n L v q i).map fun x => |x|).sum ≤ 2 ^ 53))
    (hfit : ∀ q < n, ∀ i < (L q).sendlength, (dt 0).Holds (copiesOf n L v q i).sum) :
    AllReturn n (fun r => gatherTyped junk r (L r) (dt r) shp .sum (v r))
      (fun r => .ok (dt 0, (List.range (L r).sendlength).map fun i => some (copiesOf n L v r i).sum)) := by
  have hb : ∀ r, backBuf n L (fun r => (v r).map (astype junk (dt r) (dt 0))) r = backBuf n L v r := by
    intro r
    unfold backBuf
    unfold List.flatMap
    congr 1
    apply List.map_congr_left
    intro q hq
    beta_reduce
    rw [map_astype_of_holds h0 (hh q (List.mem_range.1 hq))]
  refine AllReturn.congr (fun r _ => rfl) (fun r hr => ?_) (gatherTyped_return hn hL junk shp dt (mode := .sum) (by simp) hv)
  unfold typedReduce
  rw [hb]
  by_cases h : (L r).sendlength = 0
  · simp [h, Except.map]
  · simp only [h, if_false, Except.map]
    congr 2
    apply List.map_congr_left
    intro i hi
    rw [sumEntry_exact h0 hL hv hr i (hx r hr i (List.mem_range.1 hi)) (hfit r hr i (List.mem_range.1 hi))]

/-- One rank with one particle and its copy. -/
def exLayOne : ℕ → Lay := fun _ => ⟨1, [1], [1], [0], [0], 1, [0]⟩

theorem exLayOne_ok : LayOK 1 exLayOne := by
  constructor <;> decide

/-- **C101 violated**, mode `'sum'`: one rank, one particle with one copy, the number `2 ^ 53 + 1` in an array of `i8`: the sum over its
single copy is `2 ^ 53`. -/
theorem C101_violated_sum (junk : ℚ → ℤ) :
    AllReturn 1 (fun r => gatherTyped junk r (exLayOne r) (.int 64) [] .sum [2 ^ 53 + 1])
      (fun _ => .ok (.int 64, [some (2 ^ 53)])) := by
  refine (gatherTyped_return (by decide) exLayOne_ok junk [] (fun _ => .int 64) (mode := .sum) (by simp) (v := fun _ => [2 ^ 53 + 1])
    (by decide)).congr (fun _ _ => rfl) ?_
  intro r hr
  have : r = 0 := by omega
  subst this
  have hb : backBuf 1 exLayOne (fun _ => [(2 ^ 53 + 1 : ℚ)].map (astype junk (.int 64) (.int 64))) 0 = [2 ^ 53 + 1] := by
    rw [map_astype_of_holds (by simp [DType.Real])]
    · decide +kernel
    · intro x hx
      rw [List.mem_singleton] at hx
      subst hx
      exact ⟨2 ^ 53 + 1, by norm_num, by norm_num, by norm_num⟩
  rw [hb]
  have hs : sumEntry junk (.int 64) (exLayOne 0).indices [2 ^ 53 + 1] 0 = 2 ^ 53 := by
    have e : bincountR (binary 53 (by norm_num)) ((exLayOne 0).indices.zip ([(2 ^ 53 + 1 : ℚ)].map (astype junk (.int 64) (.float 53)))) 0 =
        2 ^ 53 := by
      have : astype junk (.int 64) (.float 53) = flRound 53 := rfl
      rw [this]
      decide +kernel
    unfold sumEntry
    rw [e]
    exact astype_of_holds (by simp [DType.Real]) ⟨2 ^ 53, by norm_num, by norm_num, by norm_num⟩
  unfold typedReduce
  simp only [show (exLayOne 0).sendlength = 1 from rfl, Nat.one_ne_zero, if_false, Except.map, List.range_one, List.map_cons, List.map_nil, hs]

/-- **C101 violated**, mode `'mean'`: for arrays of integers each rank that has particles raises `TypeError`. -/
theorem C101_violated_mean (n : ℕ) (hn : 0 < n) (L : ℕ → Lay) (hL : LayOK n L) (junk : ℚ → ℤ) (shp : List ℕ) (dt : ℕ → DType)
    (h0 : (dt 0).isFloat = false) (v : ℕ → List ℚ) (hv : ∀ r < n, (v r).length = (L r).recvlength) :
    AllReturn n (fun r => gatherTyped junk r (L r) (dt r) shp .mean (v r))
      (fun r => if (L r).sendlength = 0 then .ok (dt 0, []) else .error .typeError) := by
  refine AllReturn.congr (fun r _ => rfl) (fun r hr => ?_) (gatherTyped_return hn hL junk shp dt (mode := .mean) (by simp) hv)
  unfold typedReduce
  by_cases h : (L r).sendlength = 0
  · simp [h, Except.map]
  · simp only [h, if_false]
    cases hd : dt 0 with
    | float p => rw [hd] at h0; simp [DType.isFloat] at h0
    | int b => rfl
    | uint b => rfl

/-- `C101_sum_partial` for one number in single precision. -/
example (junk : ℚ → ℤ) : AllReturn 1 (fun r => gatherTyped junk r (exLayOne r) (.float 24) [] .sum [3 / 4])
    (fun _ => .ok (.float 24, [some (3 / 4)])) := by
  have hc : ∀ q < 1, ∀ i < (exLayOne q).sendlength, copiesOf 1 exLayOne (fun _ => [3 / 4]) q i = [3 / 4] := by decide +kernel
  have h34 : ∀ p, 2 ≤ p → (DType.float p).Holds (3 / 4) := fun p hp =>
    ⟨3, -2, by norm_num, by
      have : (2 : ℤ) ^ 2 ≤ 2 ^ p := pow_le_pow_right₀ (by norm_num) hp
      norm_num at this ⊢
      omega⟩
  refine (C101_sum_partial 1 (by decide) exLayOne exLayOne_ok junk [] (fun _ => .float 24) (by simp [DType.Real]) (fun _ => [3 / 4])
    (by decide) (by simpa using h34 24 (by norm_num)) ?_ ?_).congr (fun _ _ => rfl) (by decide +kernel)
  · intro q hq i hi
    rw [hc q hq i hi]
    exact .inl ⟨by simp, by simpa using h34 53 (by norm_num)⟩
  · intro q hq i hi
    rw [hc q hq i hi]
    simpa using h34 24 (by norm_num)

/-- `C101_gather_partial` for two ranks and integers. -/
example (junk : ℚ → ℤ) := C101_gather_partial 2 (by decide) exLay exLay_ok junk [] (fun _ => .int 64) (by simp [DType.Real])
  (fun r => if r = 0 then [1, 2] else [3, 4])
  (by decide) (by
    intro r hr x hx
    have : r = 0 ∨ r = 1 := by omega
    rcases this with rfl | rfl
    · simp at hx
      rcases hx with rfl | rfl
      · exact ⟨1, by norm_num, by norm_num, by norm_num⟩
      · exact ⟨2, by norm_num, by norm_num, by norm_num⟩
    · simp at hx
      rcases hx with rfl | rfl
      · exact ⟨3, by norm_num, by norm_num, by norm_num⟩
      · exact ⟨4, by norm_num, by norm_num, by norm_num⟩)

/-! ## The uniform grid -/

/-- **C101**, type of the uniform grid.  `generate_uniform_particle_grid(shift, dtype)` raises `TypeError` if integers are asked for
(other than `u8`), and returns `f8` otherwise: whatever the precision of the mesh and the type asked for.  The documentation says "dtype of
the return value; default the same precision as the pm". -/
theorem C101_violated_grid_type (dtype : Option DType) (hd : ∀ d, dtype = some d → d.Real) (s : DType) :
    (gridType dtype s = some (.float 53) ∧ (dtype = none ∨ dtype = some (.uint 64) ∨ ∃ p, dtype = some (.float p))) ∨
      (gridType dtype s = none ∧ ∃ b, dtype = some (.int b) ∨ (dtype = some (.uint b) ∧ b ≠ 64)) := by
  rcases dtype with _ | d
  · cases s <;> simp [gridType, indexType, resultType, floatFor, sameKind]
  · have hR := hd d rfl
    cases d with
    | float p =>
      have hp : max p 53 = 53 := by simp [DType.Real] at hR; omega
      cases s <;> simp [gridType, indexType, resultType, floatFor, sameKind, hp]
    | int b =>
      have hb : max b 64 = 64 := by simp [DType.Real] at hR; omega
      cases s <;> simp [gridType, indexType, resultType, floatFor, sameKind, hb]
    | uint b =>
      rcases hR with rfl | rfl | rfl | rfl <;> cases s <;> simp [gridType, indexType, resultType, floatFor, sameKind]

/-- The types of numpy that can be asked for: single precision gives double. -/
example : gridType (some (.float 24)) (.float 53) = some (.float 53) ∧ gridType (some (.int 32)) (.float 53) = none := by decide

/-- The number of digits of a floating point type, or of the default. -/
def gridDigits : Option DType → ℕ
  | some (.float p) => p
  | _ => 53

theorem source_exact {m : PMesh ℚ} (hm : m.OK) {r : ℕ} (hr : r < m.nrank) (junk : ℚ → ℤ) {dtype : Option DType}
    (hdt : dtype = none ∨ ∃ p, dtype = some (.float p)) (hp : 1 ≤ gridDigits dtype)
    (hl : ∀ n ∈ m.localShape r, n ≤ 2 ^ gridDigits dtype) (hn : ∀ n ∈ m.nmesh, n ≤ 2 ^ 53) :
    m.sourceTyped junk dtype r = (m.meshCoordinates r).map fun (i : List ℕ) => i.map fun (k : ℕ) => (k : ℚ) := by
  unfold PMesh.sourceTyped PMesh.meshCoordinates
  rw [List.map_map]
  apply List.map_congr_left
  intro c hc
  have hcv := mem_ndindex.1 hc
  have hg := hm.global_valid hr hcv
  rw [validIndex_iff] at hcv hg
  have hgl := hg.1
  unfold PMesh.global at hg hgl
  simp only [Function.comp]
  rw [List.map_zipWith]
  apply List.ext_getElem
  · simp
  · intro j h1 h2
    simp only [List.length_zipWith] at h1
    have hj1 : j < c.length := by omega
    have hj2 : j < (m.start r).length := by omega
    simp only [List.getElem_zipWith]
    have a1 : c[j] ≤ 2 ^ gridDigits dtype := by
      have := hcv.2 j (by rw [← hcv.1]; exact hj1)
      rw [List.getD_eq_getElem _ _ hj1, List.getD_eq_getElem _ _ (by rw [← hcv.1]; exact hj1)] at this
      exact this.le.trans (hl _ (List.getElem_mem _))
    have a2 : (m.start r)[j] + c[j] ≤ 2 ^ 53 := by
      have hjn : j < m.nmesh.length := by rw [← hgl]; simp; omega
      have := hg.2 j hjn
      rw [getD_zipWith _ _ _ 0 0 _ _ hj2 hj1, List.getD_eq_getElem _ _ hj1, List.getD_eq_getElem _ _ hj2,
        List.getD_eq_getElem _ _ hjn] at this
      exact this.le.trans (hn _ (List.getElem_mem _))
    have e1 : astype junk (.int 64) (indexType dtype) (c[j] : ℚ) = c[j] := by
      rcases hdt with rfl | ⟨p, rfl⟩
      · exact flRound_nat (by norm_num) a1
      · exact flRound_nat hp a1
    rw [e1, flRound_nat (by norm_num) (by omega), ← Nat.cast_add, flRound_nat (by norm_num) (by omega)]

theorem round3_err {a s L N : ℚ} :
    |flRound 53 (flRound 53 (a + s) * flRound 53 (L / N)) - (a + s) * (L / N)| ≤ ((1 + 1 / 2 ^ 53) ^ 3 - 1) * |(a + s) * (L / N)| := by
  obtain ⟨u, hu⟩ : ∃ u, u = a + s := ⟨_, rfl⟩
  obtain ⟨w, hw⟩ : ∃ w, w = L / N := ⟨_, rfl⟩
  rw [← hu, ← hw]
  have e1 := flRound_err 53 u
  have e2 := flRound_err 53 w
  have e3 := flRound_err 53 (flRound 53 u * flRound 53 w)
  obtain ⟨x, hx⟩ : ∃ x, x = flRound 53 u := ⟨_, rfl⟩
  obtain ⟨y, hy⟩ : ∃ y, y = flRound 53 w := ⟨_, rfl⟩
  rw [← hx] at e1
  rw [← hy] at e2
  rw [← hx, ← hy] at e3 ⊢
  obtain ⟨e, he⟩ : ∃ e : ℚ, e = 1 / 2 ^ 53 := ⟨_, rfl⟩
  have he0 : 0 ≤ e := by rw [he]; positivity
  have d1 : |x - u| ≤ e * |u| := by rw [he]; linarith
  have d2 : |y - w| ≤ e * |w| := by rw [he]; linarith
  have d3 : |flRound 53 (x * y) - x * y| ≤ e * |x * y| := by rw [he]; linarith
  rw [← he]
  have b1 : |x| ≤ (1 + e) * |u| := by
    have := abs_add_le (x - u) u
    rw [sub_add_cancel] at this
    linarith
  have b2 : |x * y - u * w| ≤ ((1 + e) ^ 2 - 1) * |u * w| := by
    have e4 : x * y - u * w = x * (y - w) + (x - u) * w := by ring
    rw [e4]
    refine (abs_add_le _ _).trans ?_
    rw [abs_mul, abs_mul, abs_mul]
    have h1 := mul_le_mul b1 d2 (abs_nonneg _) (by positivity)
    have h2 := mul_le_mul_of_nonneg_right d1 (abs_nonneg w)
    nlinarith [h1, h2]
  have b3 : |x * y| ≤ (1 + e) ^ 2 * |u * w| := by
    have := abs_add_le (x * y - u * w) (u * w)
    rw [sub_add_cancel] at this
    linarith
  have h := abs_add_le (flRound 53 (x * y) - x * y) (x * y - u * w)
  rw [sub_add_sub_cancel] at h
  have h4 := mul_le_mul_of_nonneg_left b3 he0
  nlinarith [h, h4, d3, b2]

/-- **C101**, positions of the uniform grid.  Without a type, or with a floating point type of `p` digits if no axis of a rank has more than
`2 ^ p` cells: the positions computed in `f8` are those of the exact model (C34) but for three roundings. -/
theorem C101_grid_partial {m : PMesh ℚ} (hm : m.OK) {r : ℕ} (hr : r < m.nrank) (junk : ℚ → ℤ) (dtype : Option DType)
    (hdt : dtype = none ∨ ∃ p, dtype = some (.float p)) (hp : 1 ≤ gridDigits dtype)
    (hl : ∀ n ∈ m.localShape r, n ≤ 2 ^ gridDigits dtype) (hn : ∀ n ∈ m.nmesh, n ≤ 2 ^ 53) {shift : List ℚ}
    (hs : shift.length = m.nmesh.length) :
    (m.uniformTyped junk dtype shift r).length = (m.uniformGrid shift r).length ∧
    ∀ k < (m.uniformGrid shift r).length, ∀ j < m.nmesh.length,
      |((m.uniformTyped junk dtype shift r).getD k []).getD j 0 - ((m.uniformGrid shift r).getD k []).getD j 0| ≤
        ((1 + 1 / 2 ^ 53) ^ 3 - 1) * |((m.uniformGrid shift r).getD k []).getD j 0| := by
  have hx := source_exact hm hr junk hdt hp hl hn
  unfold PMesh.uniformTyped PMesh.uniformGrid
  rw [hx, List.map_map]
  refine ⟨by simp, ?_⟩
  intro k hk j hj
  rw [List.length_map] at hk
  rw [List.getD_eq_getElem (n := k) _ _ (by simpa using hk), List.getD_eq_getElem (n := k) _ _ (by simpa using hk)]
  simp only [List.getElem_map, Function.comp]
  have hk' : k < (ndindex (m.localShape r)).length := by
    rw [meshCoordinates_eq, List.length_map] at hk
    exact hk
  have hmem : (m.meshCoordinates r)[k] ∈ m.meshCoordinates r := List.getElem_mem _
  obtain ⟨i, hi⟩ : ∃ i, i = (m.meshCoordinates r)[k] := ⟨_, rfl⟩
  rw [← hi] at hmem ⊢
  have hil : i.length = m.nmesh.length := by
    rw [meshCoordinates_eq, List.mem_map] at hmem
    obtain ⟨c, hc, rfl⟩ := hmem
    exact (hm.global_valid hr (mem_ndindex.1 hc)).len
  have hb := hm.box_len
  rw [getD_zipWith _ _ _ 0 0 0 j (by (try simp only [List.length_zipWith, List.length_map]); omega) (by (try simp only [List.length_zipWith, List.length_map]); omega),
    getD_zipWith _ _ _ 0 0 0 j (by (try simp only [List.length_zipWith, List.length_map]); omega) (by (try simp only [List.length_zipWith, List.length_map]); omega),
    getD_zipWith _ _ _ 0 0 0 j (by (try simp only [List.length_zipWith, List.length_map]); omega) (by (try simp only [List.length_zipWith, List.length_map]); omega),
    getD_zipWith _ _ _ 0 0 0 j (by (try simp only [List.length_zipWith, List.length_map]); omega) (by (try simp only [List.length_zipWith, List.length_map]); omega),
    getD_zipWith _ _ _ 0 0 0 j (by (try simp only [List.length_zipWith, List.length_map]); omega) (by (try simp only [List.length_zipWith, List.length_map]); omega),
    getD_zipWith _ _ _ 0 0 0 j (by (try simp only [List.length_zipWith, List.length_map]); omega) (by (try simp only [List.length_zipWith, List.length_map]); omega)]
  have : (i.map fun (k : ℕ) => (k : ℚ)).getD j 0 = (i.getD j 0 : ℕ) := by
    rw [List.getD_eq_getElem _ _ (by simp; omega), List.getD_eq_getElem _ _ (by omega)]
    simp
  rw [this]
  exact round3_err

example := C101_grid_partial exMesh2_ok (r := 3) (by decide) (fun _ => 0) (some (.float 24)) (.inr ⟨24, rfl⟩) (by decide) (by decide) (by decide)
  (shift := [1 / 2, 1 / 2]) (by decide)

/-- **C101 violated**, half precision: if a rank has more than 2049 cells along an axis, two of the particles of
`generate_uniform_particle_grid(shift, dtype='f2')` are at the same place. -/
theorem C101_violated_grid_f2 (m : PMesh ℚ) (r : ℕ) (junk : ℚ → ℤ) (shift : List ℚ) {j : ℕ} (hj : j < (m.localShape r).length)
    (h : 2049 < (m.localShape r).getD j 0) (hpos : ∀ n ∈ m.localShape r, 0 < n) :
    ∃ k k' : ℕ, k ≠ k' ∧ k < (m.uniformTyped junk (some (.float 11)) shift r).length ∧
      k' < (m.uniformTyped junk (some (.float 11)) shift r).length ∧
      (m.uniformTyped junk (some (.float 11)) shift r)[k]? = (m.uniformTyped junk (some (.float 11)) shift r)[k']? := by
  have hv : ∀ a < (m.localShape r).getD j 0, (List.replicate (m.localShape r).length 0).set j a ∈ ndindex (m.localShape r) := by
    intro a ha
    rw [mem_ndindex, validIndex_iff]
    refine ⟨by simp, fun i hi => ?_⟩
    rw [List.getD_eq_getElem _ _ (by simpa using hi), List.getElem_set]
    split_ifs with hij
    · rw [← hij]; exact ha
    · rw [List.getD_eq_getElem _ _ hi]
      simpa using hpos _ (List.getElem_mem hi)
  obtain ⟨k, hk, ek⟩ := List.getElem_of_mem (hv 2048 (by omega))
  obtain ⟨k', hk', ek'⟩ := List.getElem_of_mem (hv 2049 h)
  refine ⟨k, k', ?_, ?_, ?_, ?_⟩
  · rintro rfl
    rw [ek] at ek'
    have := congrArg (fun l => l.getD j 0) ek'
    simp [List.getD, hj] at this
  · simpa [PMesh.uniformTyped, PMesh.sourceTyped] using hk
  · simpa [PMesh.uniformTyped, PMesh.sourceTyped] using hk'
  · unfold PMesh.uniformTyped PMesh.sourceTyped
    rw [List.getElem?_map, List.getElem?_map, List.getElem?_map, List.getElem?_map, List.getElem?_eq_getElem hk,
      List.getElem?_eq_getElem hk', ek, ek']
    have hf : astype junk (.int 64) (.float 11) ((2048 : ℕ) : ℚ) = astype junk (.int 64) (.float 11) ((2049 : ℕ) : ℚ) := by
      have h1 : flRound 11 ((2048 : ℕ) : ℚ) = flRound 11 ((2049 : ℕ) : ℚ) := by decide +kernel
      exact h1
    have : ∀ (st : List ℕ), List.zipWith (fun (k s : ℕ) => flRound 53 (astype junk (.int 64) (indexType (some (.float 11))) (k : ℚ) +
          flRound 53 (s : ℚ))) ((List.replicate (m.localShape r).length 0).set j 2048) st =
        List.zipWith (fun (k s : ℕ) => flRound 53 (astype junk (.int 64) (indexType (some (.float 11))) (k : ℚ) +
          flRound 53 (s : ℚ))) ((List.replicate (m.localShape r).length 0).set j 2049) st := by
      intro st
      apply List.ext_getElem
      · simp
      · intro i h1 h2
        simp only [List.getElem_zipWith, List.getElem_set, indexType, Option.getD_some]
        split_ifs with hij
        · rw [hf]
        · rfl
    rw [Option.map_some, Option.map_some, this]
    rfl

/-- A mesh with a long axis. -/
def exMeshLong : PMesh ℚ := ⟨[2050, 1], [1, 1], [[0, 2050], [0, 1]], 1, fun _ => [0, 0], fun _ => [1, 1], fun _ => 0⟩

example := C101_violated_grid_f2 exMeshLong 0 (fun _ => 0) [0, 0] (j := 0) (by decide) (by decide) (by decide)

end Pmesh

#print axioms Pmesh.C101_exchange
#print axioms Pmesh.C101_exchange_partial
#print axioms Pmesh.C101_violated_integers
#print axioms Pmesh.C101_violated_ids
#print axioms Pmesh.C101_gather_partial
#print axioms Pmesh.C101_sum_partial
#print axioms Pmesh.C101_violated_sum
#print axioms Pmesh.C101_violated_mean
#print axioms Pmesh.C101_violated_grid_type
#print axioms Pmesh.C101_grid_partial
#print axioms Pmesh.C101_violated_grid_f2
