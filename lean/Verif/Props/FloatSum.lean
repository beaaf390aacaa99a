import Verif.Lemmas.FloatSum
import Verif.Props.Preview
import Verif.Props.Field

/-! # C105: collective sums in floating point -/

namespace Pmesh

section
variable {p : ℕ} {np mpi : List ℚ → ℚ} (hnp : Sums p np) (hmpi : Sums p mpi) (t : Tiling) (ht : t.OK) (f : ℕ → List ℕ → ℚ)
  (G : List ℕ → ℚ) (hf : t.Holds f G)

theorem sum_singletons {α : Type} (l : List α) (g : α → ℚ) :
    (l.map fun c => ({g c} : Multiset ℚ)).sum = ((l.map g : List ℚ) : Multiset ℚ) := by
  induction l with
  | nil => rfl
  | cons a l ih => rw [List.map_cons, List.sum_cons, ih]; rfl

include hnp hmpi ht hf

/-- **C105** (csum).  All ranks get the same number from `csum`, whatever numpy's and MPI's order of summation; it is the sum of the
elements of the global array in some order, with every addition rounded to the precision of `dtype`. -/
theorem C105_csum (order : ℕ → List ℕ) (hord : ∀ r < t.nrank, (order r).Perm (List.range t.nmesh.length)) :
    ∃ s, AllReturn t.nrank (fun r => csumF np mpi t (order r) (f r) r) (fun _ => s) ∧
      FlSum p (((ndindex t.cshape).map G : List ℚ) : Multiset ℚ) s := by
  refine ⟨_, AllReturn.coll ht.rank_pos (AllReturn.congr (fun _ _ => rfl) (fun r _ => rfl) (AllReturn.ret t.nrank _)), ?_⟩
  rw [← sum_singletons, ← tiles_sum ht]
  refine hmpi.bind _ _ _ fun r hr => ?_
  rw [List.mem_range] at hr
  have h := sumLastF_sum hnp _ ((order r).map fun d => (t.lshape r).getD d 0) (fun i => f r (untranspose (order r) i))
    (fun i => {f r (untranspose (order r) i)}) rfl (fun i _ => .one _)
  have hp : AxisPerm t.nmesh.length (order r) := by
    refine ⟨?_, ?_, ?_⟩
    · rw [(hord r hr).length_eq, List.length_range]
    · exact (hord r hr).nodup_iff.2 List.nodup_range
    · intro d hd
      exact List.mem_range.1 ((hord r hr).mem_iff.1 hd)
  rw [sumLast_eq _ _ _ rfl] at h
  have h1 := filter_perm (axes := []) (removed := order r) (k := []) (by simpa using hp) (ht.shape_len r hr) .nil
  simp only [List.map_nil, decide_true, List.filter_true, List.nil_append] at h1
  have h2 := (h1.map fun c => ({f r c} : Multiset ℚ)).sum_eq
  rw [List.map_map] at h2
  refine Eq.subst (motive := fun M => FlSum p M _) ?_ h
  refine h2.trans ?_
  congr 1
  apply List.map_congr_left
  intro c hc
  rw [hf r hr c (mem_ndindex.1 hc)]

/-- **C105** (accuracy of csum).  The error is at most `(1 + 2^-p)^(n-1) - 1` times the sum of the absolute values, for any split
of the `n` cells over the ranks. -/
theorem C105_error (hp : 1 ≤ p) (hG : ∀ c, ValidIndex t.cshape c → IsFloat p (G c)) (order : ℕ → List ℕ)
    (hord : ∀ r < t.nrank, (order r).Perm (List.range t.nmesh.length)) :
    ∃ s, AllReturn t.nrank (fun r => csumF np mpi t (order r) (f r) r) (fun _ => s) ∧
      |s - ((ndindex t.cshape).map G).sum| ≤
        ((1 + 1 / 2 ^ p) ^ (t.cshape.prod - 1) - 1) * ((ndindex t.cshape).map fun c => |G c|).sum := by
  obtain ⟨s, h1, h2⟩ := C105_csum hnp hmpi t ht f G hf order hord
  refine ⟨s, h1, ?_⟩
  have h3 := h2.error hp (by
    intro x hx
    obtain ⟨c, hc, rfl⟩ := List.mem_map.1 (Multiset.mem_coe.1 hx)
    exact hG c (mem_ndindex.1 hc))
  simpa [Function.comp_def, ndindex_length] using h3

/-- **C105** (exact sums).  If the values are multiples of a power of two, as the counts of particles painted with the nnb window are,
and the sum of their absolute values is at most `2^p` units, `csum` is exact: it does not depend on the ranks, nor on the order of
summation. -/
theorem C105_exact (hp : 1 ≤ p) (k : ℤ) (hG : ∀ c, ValidIndex t.cshape c → ∃ n : ℤ, G c = n * 2 ^ k)
    (hb : ((ndindex t.cshape).map fun c => |G c|).sum ≤ 2 ^ p * 2 ^ k) (order : ℕ → List ℕ)
    (hord : ∀ r < t.nrank, (order r).Perm (List.range t.nmesh.length)) :
    AllReturn t.nrank (fun r => csumF np mpi t (order r) (f r) r) (fun _ => ((ndindex t.cshape).map G).sum) := by
  obtain ⟨s, h1, h2⟩ := C105_csum hnp hmpi t ht f G hf order hord
  have h3 := h2.exact hp k (by
    intro x hx
    obtain ⟨c, hc, rfl⟩ := List.mem_map.1 (Multiset.mem_coe.1 hx)
    exact hG c (mem_ndindex.1 hc)) (by simpa [Function.comp_def] using hb)
  rw [Multiset.sum_coe] at h3
  exact h3 ▸ h1

/-- **C105** (cdot).  All ranks get the same number from `cdot` of two real fields: the sum, rounded at every step, of the rounded
products. -/
theorem C105_cdot (f' : ℕ → List ℕ → ℚ) (G' : List ℕ → ℚ) (hf' : t.Holds f' G') :
    ∃ s, AllReturn t.nrank (fun r => cdotF (flRound p) np mpi t (f r) (f' r) r) (fun _ => s) ∧
      FlSum p (((ndindex t.cshape).map fun c => flRound p (G c * G' c) : List ℚ) : Multiset ℚ) s := by
  refine ⟨_, AllReturn.coll ht.rank_pos (AllReturn.congr (fun _ _ => rfl) (fun r _ => rfl) (AllReturn.ret t.nrank _)), ?_⟩
  rw [← sum_singletons, ← tiles_sum ht]
  refine hmpi.bind _ _ _ fun r hr => ?_
  rw [List.mem_range] at hr
  have h := hnp.bind (ndindex (t.lshape r)) (fun c => flRound p (f r c * f' r c)) (fun c => {flRound p (f r c * f' r c)}) (fun c _ => .one _)
  refine Eq.subst (motive := fun M => FlSum p M _) ?_ h
  congr 1
  apply List.map_congr_left
  intro c hc
  rw [hf r hr c (mem_ndindex.1 hc), hf' r hr c (mem_ndindex.1 hc)]

/-- **C105** (accuracy of cdot).  The error of `cdot` is at most `(1 + 2^-p)^n - 1` times the sum of the absolute products. -/
theorem C105_cdot_error (hp : 1 ≤ p) (f' : ℕ → List ℕ → ℚ) (G' : List ℕ → ℚ) (hf' : t.Holds f' G') :
    ∃ s, AllReturn t.nrank (fun r => cdotF (flRound p) np mpi t (f r) (f' r) r) (fun _ => s) ∧
      |s - ((ndindex t.cshape).map fun c => G c * G' c).sum| ≤
        ((1 + 1 / 2 ^ p) ^ t.cshape.prod - 1) * ((ndindex t.cshape).map fun c => |G c * G' c|).sum := by
  obtain ⟨s, h1, h2⟩ := C105_cdot hnp hmpi t ht f G hf f' G' hf'
  refine ⟨s, h1, ?_⟩
  have h3 := h2.error hp (by
    intro x hx
    obtain ⟨c, hc, rfl⟩ := List.mem_map.1 (Multiset.mem_coe.1 hx)
    exact flRound_idem hp _)
  simp only [Multiset.sum_coe, Multiset.map_coe, List.map_map, Function.comp_def, Multiset.coe_card, List.length_map,
    ndindex_length] at h3
  obtain ⟨u, hu⟩ : ∃ u : ℚ, u = 1 / 2 ^ p := ⟨_, rfl⟩
  have u0 : (0 : ℚ) ≤ u := by rw [hu]; positivity
  rw [← hu] at h3 ⊢
  rcases Nat.eq_zero_or_pos t.cshape.prod with hz | hprod
  · have hnil : ndindex t.cshape = [] := List.length_eq_zero_iff.1 (by rw [ndindex_length, hz])
    rw [hnil] at h2
    rw [h2.card_zero rfl, hnil]
    simp
  have e : ∀ c, |flRound p (G c * G' c) - G c * G' c| ≤ u * |G c * G' c| := by
    intro c
    have := flRound_err p (G c * G' c)
    rw [div_eq_mul_one_div, ← hu] at this
    linarith
  have e1 : |((ndindex t.cshape).map fun c => flRound p (G c * G' c)).sum - ((ndindex t.cshape).map fun c => G c * G' c).sum| ≤
      u * ((ndindex t.cshape).map fun c => |G c * G' c|).sum := by
    generalize ndindex t.cshape = l
    induction l with
    | nil => simp
    | cons c l ih =>
      simp only [List.map_cons, List.sum_cons]
      have := abs_add_le (flRound p (G c * G' c) - G c * G' c)
        ((l.map fun c => flRound p (G c * G' c)).sum - (l.map fun c => G c * G' c).sum)
      have h4 := e c
      rw [show flRound p (G c * G' c) + (l.map fun c => flRound p (G c * G' c)).sum - (G c * G' c + (l.map fun c => G c * G' c).sum) =
        (flRound p (G c * G' c) - G c * G' c) + ((l.map fun c => flRound p (G c * G' c)).sum - (l.map fun c => G c * G' c).sum) by ring]
      linarith
  have e2 : ((ndindex t.cshape).map fun c => |flRound p (G c * G' c)|).sum ≤ (1 + u) * ((ndindex t.cshape).map fun c => |G c * G' c|).sum := by
    generalize ndindex t.cshape = l
    induction l with
    | nil => simp
    | cons c l ih =>
      simp only [List.map_cons, List.sum_cons]
      have := abs_sub_abs_le_abs_sub (flRound p (G c * G' c)) (G c * G' c)
      have h4 := e c
      linarith
  obtain ⟨E, hE⟩ : ∃ E : ℚ, E = (1 + u) ^ (t.cshape.prod - 1) := ⟨_, rfl⟩
  have hE1 : 1 ≤ E := by rw [hE]; exact one_le_pow₀ (by linarith)
  have hEs : (1 + u) ^ t.cshape.prod = E * (1 + u) := by
    rw [hE, ← pow_succ]
    congr 1
    omega
  rw [← hE] at h3
  rw [hEs]
  have h5 := mul_le_mul_of_nonneg_left e2 (show 0 ≤ E - 1 by linarith)
  have h6 := abs_sub_le s ((ndindex t.cshape).map fun c => flRound p (G c * G' c)).sum ((ndindex t.cshape).map fun c => G c * G' c).sum
  nlinarith

/-- **C105** (cnorm).  `cnorm` of a real field is never negative, and it is zero only if the field is zero everywhere (leaving out
underflow). -/
theorem C105_cnorm (hp : 1 ≤ p) :
    ∃ s, AllReturn t.nrank (fun r => cnormF (flRound p) np mpi t (f r) r) (fun _ => s) ∧ 0 ≤ s ∧
      (s = 0 ↔ ∀ c, ValidIndex t.cshape c → G c = 0) := by
  obtain ⟨s, h1, h2⟩ := C105_cdot hnp hmpi t ht f G hf f G hf
  have h0 : ∀ x ∈ (((ndindex t.cshape).map fun c => flRound p (G c * G c) : List ℚ) : Multiset ℚ), 0 ≤ x := by
    intro x hx
    obtain ⟨c, hc, rfl⟩ := List.mem_map.1 (Multiset.mem_coe.1 hx)
    have := flRound_mono (K := ℚ) hp (mul_self_nonneg (G c))
    rwa [flRound_zero] at this
  refine ⟨s, h1, h2.nonneg hp h0, fun hs c hc => ?_, fun hz => ?_⟩
  · have := h2.eq_zero hp h0 hs (flRound p (G c * G c)) (Multiset.mem_coe.2 (List.mem_map.2 ⟨c, mem_ndindex.2 hc, rfl⟩))
    by_contra hne
    exact absurd this (flRound_pos hp (mul_self_pos.2 hne)).ne'
  · refine (h2.single (flRound_zero p) (ndindex t.cshape).length).1 ?_
    rw [Multiset.eq_replicate]
    refine ⟨by simp, fun x hx => ?_⟩
    obtain ⟨c, hc, rfl⟩ := List.mem_map.1 (Multiset.mem_coe.1 hx)
    rw [hz c (mem_ndindex.1 hc), mul_zero, flRound_zero]

/-- **C105** (cgetitem).  The value that `cgetitem` returns to all ranks is the element of the array itself, without rounding: the
other ranks add zeros. -/
theorem C105_cgetitem (index : List ℤ) (hidx : IndexInRange t.nmesh index) (hG : ∀ c, ValidIndex t.cshape c → IsFloat p (G c)) :
    AllReturn t.nrank (fun r => cgetitemF mpi t index (f r) r) fun _ =>
      some (if ValidIndex t.cshape (meant t.nmesh index) then G (meant t.nmesh index) else 0) := by
  have hlen : index.length = t.nmesh.length := hidx.length_eq.symm
  unfold cgetitemF
  simp only [hlen, if_true]
  refine AllReturn.coll ht.rank_pos ?_
  refine AllReturn.congr (fun _ _ => rfl) (fun r hr => ?_) (AllReturn.ret t.nrank _)
  congr 1
  by_cases hv : ValidIndex t.cshape (meant t.nmesh index)
  · obtain ⟨r0, hr0, c0, hc0, hg, h⟩ := ctol_owner ht hidx hv
    rw [if_pos hv]
    have e : ((List.range t.nrank).map fun r => match t.ctol r index with | some c => f r c | none => 0) =
        (List.range t.nrank).map fun r => if r = r0 then G (meant t.nmesh index) else 0 := by
      apply List.map_congr_left
      intro r hr
      rw [List.mem_range] at hr
      rw [h r hr, ← hg, ← hf r0 hr0 c0 hc0]
      split_ifs with h0
      · subst h0; rfl
      · rfl
    refine ((((hmpi _).single (hG _ hv) (t.nrank - 1)).2 ?_)).symm
    refine (congrArg (fun L : List ℚ => (L : Multiset ℚ)) e).trans ?_
    obtain ⟨l, hl⟩ : ∃ l, ((List.range t.nrank : List ℕ) : Multiset ℕ) = r0 ::ₘ l :=
      Multiset.exists_cons_of_mem (Multiset.mem_coe.2 (List.mem_range.2 hr0))
    have hnd : (r0 ::ₘ l).Nodup := by rw [← hl]; exact Multiset.coe_nodup.2 List.nodup_range
    rw [← Multiset.map_coe, hl, Multiset.map_cons, if_pos rfl]
    congr 1
    rw [Multiset.eq_replicate]
    constructor
    · have := congrArg Multiset.card hl
      simp only [Multiset.coe_card, List.length_range, Multiset.card_cons] at this
      rw [Multiset.card_map]
      omega
    · intro x hx
      obtain ⟨r, hr, rfl⟩ := Multiset.mem_map.1 hx
      rw [if_neg]
      rintro rfl
      exact (Multiset.nodup_cons.1 hnd).1 hr
  · rw [if_neg hv]
    refine (((hmpi _).single (flRound_zero p) t.nrank).1 ?_).symm
    rw [Multiset.eq_replicate]
    refine ⟨by simp, fun x hx => ?_⟩
    obtain ⟨r, hr, rfl⟩ := List.mem_map.1 (Multiset.mem_coe.1 hx)
    rw [ctol_none ht hidx hv (List.mem_range.1 hr)]

end

/-! ### the sum depends on the ranks -/

/-- A mesh of 2 by 2 by 1 cells on two ranks, split along the first axis. -/
def exSplitRows : Tiling := ⟨[2, 2, 1], [2, 2, 1], 2, fun r => [r, 0, 0], fun _ => [1, 2, 1]⟩

/-- The same mesh split along the second axis. -/
def exSplitColumns : Tiling := ⟨[2, 2, 1], [2, 2, 1], 2, fun r => [0, r, 0], fun _ => [2, 1, 1]⟩

theorem exSplitRows_ok : exSplitRows.OK := tiling_ok_of_decide (by decide)
theorem exSplitColumns_ok : exSplitColumns.OK := tiling_ok_of_decide (by decide)

/-- Single precision: the values `2^24, 0, 1, 1`. -/
def exFloats (c : List ℕ) : ℚ := if c.getD 0 0 = 1 then 1 else if c.getD 1 0 = 0 then 2 ^ 24 else 0

theorem Sums.pair {p : ℕ} (hp : 1 ≤ p) {S : List ℚ → ℚ} (hS : Sums p S) {a b : ℚ} (ha : IsFloat p a) (hb : IsFloat p b) :
    S [a, b] = flRound p (a + b) := by
  have := (hS [a, b]).two hp (by intro x hx; simp at hx; rcases hx with rfl | rfl <;> assumption) (by simp)
  simpa using this

theorem Sums.single' {p : ℕ} (hp : 1 ≤ p) {S : List ℚ → ℚ} (hS : Sums p S) {a : ℚ} (ha : IsFloat p a) : S [a] = a := by
  have := (hS [a]).two hp (by intro x hx; simp at hx; rcases hx with rfl; assumption) (by simp)
  exact this.trans (by rw [Multiset.coe_singleton, Multiset.sum_singleton]; exact ha)

/-- **C105 violated**: the result of `csum` in single precision depends on how the mesh is split over the ranks, whatever numpy and
MPI do (all sums have at most two terms). -/
theorem C105_violated_ranks {np mpi : List ℚ → ℚ} (hnp : Sums 24 np) (hmpi : Sums 24 mpi) :
    AllReturn 2 (fun r => csumF np mpi exSplitRows [0, 1, 2] (fun c => exFloats (exSplitRows.global r c)) r) (fun _ => 2 ^ 24 + 2) ∧
    AllReturn 2 (fun r => csumF np mpi exSplitColumns [0, 1, 2] (fun c => exFloats (exSplitColumns.global r c)) r) (fun _ => 2 ^ 24) := by
  have f0 : IsFloat 24 0 := flRound_zero 24
  have f1 : IsFloat 24 1 := by unfold IsFloat; decide +kernel
  have f2 : IsFloat 24 2 := by unfold IsFloat; decide +kernel
  have fb : IsFloat 24 (2 ^ 24) := by unfold IsFloat; decide +kernel
  have e1 : np [2 ^ 24, 0] = 2 ^ 24 := (hnp.pair (by norm_num) fb f0).trans (by decide +kernel)
  have e2 : np [1, 1] = 2 := (hnp.pair (by norm_num) f1 f1).trans (by decide +kernel)
  have e3 : np [2 ^ 24, 1] = 2 ^ 24 := (hnp.pair (by norm_num) fb f1).trans (by decide +kernel)
  have e4 : np [0, 1] = 1 := (hnp.pair (by norm_num) f0 f1).trans (by decide +kernel)
  have e5 : mpi [2 ^ 24, 2] = 2 ^ 24 + 2 := (hmpi.pair (by norm_num) fb f2).trans (by decide +kernel)
  have e6 : mpi [2 ^ 24, 1] = 2 ^ 24 := (hmpi.pair (by norm_num) fb f1).trans (by decide +kernel)
  have s0 := hnp.single' (by norm_num) f0
  have s1 := hnp.single' (by norm_num) f1
  have s2 := hnp.single' (by norm_num) f2
  have sb := hnp.single' (by norm_num) fb
  constructor
  · refine AllReturn.coll (by norm_num) ?_
    refine AllReturn.congr (fun _ _ => rfl) (fun r hr => ?_) (AllReturn.ret 2 _)
    simp [sumLastF, exSplitRows, untranspose, Tiling.global, exFloats, List.range_succ, e1, e2, e5, s0, s1, s2, sb, List.idxOf, List.findIdx, List.findIdx.go]
  · refine AllReturn.coll (by norm_num) ?_
    refine AllReturn.congr (fun _ _ => rfl) (fun r hr => ?_) (AllReturn.ret 2 _)
    simp [sumLastF, exSplitColumns, untranspose, Tiling.global, exFloats, List.range_succ, e3, e4, e6, s0, s1, sb, List.idxOf, List.findIdx, List.findIdx.go]

/-! ### non-vacuity -/

/-- Addition from left to right. -/
def sumLeft (p : ℕ) : List ℚ → ℚ
  | [] => 0
  | x :: l => l.foldl (fun a b => flRound p (a + b)) x

theorem sumLeft_sums (p : ℕ) : Sums p (sumLeft p) := by
  intro l
  match l with
  | [] => exact .zero
  | x :: l =>
    have key : ∀ (l : List ℚ) (M : Multiset ℚ) (a : ℚ), FlSum p M a →
        FlSum p (M + (l : Multiset ℚ)) (l.foldl (fun a b => flRound p (a + b)) a) := by
      intro l
      induction l with
      | nil => intro M a h; simpa using h
      | cons y l ih =>
        intro M a h
        have := ih (M + {y}) _ (.add h (.one y))
        rw [add_assoc] at this
        exact this
    have := key l {x} x (.one x)
    exact this

theorem exSplitRows_holds : exSplitRows.Holds (fun r c => exFloats (exSplitRows.global r c)) exFloats := fun _ _ _ _ => rfl

theorem exFloats_float : ∀ c, IsFloat 24 (exFloats c) := by
  intro c
  unfold exFloats IsFloat
  split_ifs <;> decide +kernel

example := C105_csum (sumLeft_sums 24) (sumLeft_sums 24) exSplitRows exSplitRows_ok _ _ exSplitRows_holds (fun _ => [0, 1, 2]) (by decide)
example := C105_error (sumLeft_sums 24) (sumLeft_sums 24) exSplitRows exSplitRows_ok _ _ exSplitRows_holds (by norm_num) (fun c _ => exFloats_float c)
  (fun _ => [0, 1, 2]) (by decide)
example := C105_exact (sumLeft_sums 25) (sumLeft_sums 25) exSplitRows exSplitRows_ok _ _ exSplitRows_holds (by norm_num) 0
  (fun c _ => by
    unfold exFloats
    split_ifs
    · exact ⟨1, by norm_num⟩
    · exact ⟨2 ^ 24, by norm_num⟩
    · exact ⟨0, by norm_num⟩) (by decide +kernel) (fun _ => [0, 1, 2]) (by decide)
example := C105_cdot_error (sumLeft_sums 24) (sumLeft_sums 24) exSplitRows exSplitRows_ok _ _ exSplitRows_holds (by norm_num) _ _ exSplitRows_holds
example := C105_cnorm (sumLeft_sums 24) (sumLeft_sums 24) exSplitRows exSplitRows_ok _ _ exSplitRows_holds (by norm_num)
example := C105_cgetitem (sumLeft_sums 24) (sumLeft_sums 24) exSplitRows exSplitRows_ok _ _ exSplitRows_holds [-2, 1, 0] (by repeat constructor) (fun c _ => exFloats_float c)
example := C105_violated_ranks (sumLeft_sums 24) (sumLeft_sums 24)

#print axioms C105_csum
#print axioms C105_error
#print axioms C105_exact
#print axioms C105_cdot
#print axioms C105_cdot_error
#print axioms C105_cnorm
#print axioms C105_cgetitem
#print axioms C105_violated_ranks

end Pmesh
