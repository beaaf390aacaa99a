import Verif.Lemmas.Transfer
import Verif.Props.Field

/-!
# C64: the deprecated transfer functions, pmesh/transfer.py

`Transfer.meaning` says what each function is documented to do with the whole field. `Laplace`, `Trilinear`, `Inspect` and
`PowerSpectrum` do something else, and on meshes of odd size the frequencies are wrong.
-/

namespace Pmesh

/-- **C64**.  A chain of the transfer functions `NormalizeDC`, `RemoveDC`, `SuperLanzcos`, `Gaussian`, `Constant` and `Poisson`, of
any length and in any order, ends on all ranks and does to the field what the functions mean one after the other, however
the field is distributed and whether or not some ranks have nothing of it.  Partial: an even number of points per side, the other
functions, and the zero mode must not vanish when `NormalizeDC` is applied. -/
theorem C64_transfer_partial (t : Tiling) (N : ℕ) (ht : OldTiling t N) (ops : List Transfer) (hops : ∀ op ∈ ops, op.Works)
    (G G' : List ℕ → Cx ℝ) (hm : chainMeaning N ops G = some G') (f : ℕ → List ℕ → CVal) (hf : FieldIs t f G) :
    ∃ f', AllReturn t.nrank (fun r => oldTransfer t N r ops (f r)) (fun r => .ok (f' r)) ∧ FieldIs t f' G' :=
  ht.run_chain ops hops hm hf

/-- The field on a single rank. -/
def wholeTiling (N : ℕ) : Tiling := ⟨[N, N, N], [N, N, N / 2 + 1], 1, fun _ => [0, 0, 0], fun _ => [N, N, N / 2 + 1]⟩

/-- **C64** is violated by `Laplace`: for every even mesh, already on one rank, the mode `(0, 1, 0)` is not multiplied with
`-w²` unless it is zero.  Every mode is multiplied with the factor of the mode that has `N - 1` as its first index; that is a finite real number. -/
theorem C64_violated_laplace (N : ℕ) (hN : N % 2 = 0) (h0 : 0 < N) (G : List ℕ → Cx ℝ) :
    ∃ f' : ℕ → List ℕ → CVal, AllReturn 1 (fun r => oldTransfer (wholeTiling N) N r [.laplace] fun c => some (G c)) (fun r => .ok (f' r)) ∧
      (∀ a b c, ValidIndex [N, N, N / 2 + 1] [a, b, c] → f' 0 [a, b, c] =
        some (-omega2 N [N - 1, b, c] * (G [a, b, c]).1, -omega2 N [N - 1, b, c] * (G [a, b, c]).2)) ∧
      (G [0, 1, 0] ≠ (0, 0) →
        f' 0 [0, 1, 0] ≠ some (-omega2 N [0, 1, 0] * (G [0, 1, 0]).1, -omega2 N [0, 1, 0] * (G [0, 1, 0]).2)) := by
  have h1 : omega N (N - 1) ≠ 0 := by rw [Ne, omega_eq_zero (by omega)]; omega
  have hp : 0 < omega N (N - 1) ^ 2 := by positivity
  have hexact : ∀ a b c, ValidIndex [N, N, N / 2 + 1] [a, b, c] →
      ((rowW2 ((wholeTiling N).oldW N 0) (N - 1) [a, b, c]).bind fun q => cvalMul (some (G [a, b, c])) (q, 0)) =
        some (-omega2 N [N - 1, b, c] * (G [a, b, c]).1, -omega2 N [N - 1, b, c] * (G [a, b, c]).2) := by
    intro a b c hv
    obtain ⟨-, hb, hc, -⟩ : a < N ∧ b < N ∧ c < N / 2 + 1 ∧ True := by simpa [ValidIndex] using hv
    have e1 : (oldW N 0 N).getD (N - 1) 0 = omega N (0 + (N - 1)) := oldW_getD hN (by omega) (by omega)
    have e2 : (oldW N 0 N).getD b 0 = omega N (0 + b) := oldW_getD hN (by omega) (by omega)
    have e3 : (oldW N 0 (N / 2 + 1)).getD c 0 = omega N (0 + c) := oldW_getD hN (by omega) (by omega)
    have hw : rowW2 ((wholeTiling N).oldW N 0) (N - 1) [a, b, c] = some (-omega2 N [N - 1, b, c]) := by
      unfold rowW2
      simp only [Tiling.oldW, wholeTiling, List.zipWith_cons_cons, List.zipWith_nil_right, List.tail_cons, e1, e2, e3, List.sum_cons,
        List.sum_nil, zero_add, omega2, List.map_cons, List.map_nil]
      rw [if_neg (by positivity)]
    rw [hw]
    simp only [Option.bind_some, cvalMul, Option.map_some, cxMul, Option.some.injEq, Prod.mk.injEq]
    constructor <;> ring
  refine ⟨fun r c => (rowW2 ((wholeTiling N).oldW N r) (N - 1) c).bind fun q => cvalMul (some (G c)) (q, 0), ?_, hexact, ?_⟩
  · refine AllReturn.congr (fun r _ => ?_) (fun _ _ => rfl) (AllReturn.ret _ _)
    have hne : N ≠ 0 := by omega
    simp only [oldTransfer, forProg, Transfer.run, wholeTiling, List.headD_cons, hne, if_false, Prog.andThen]
  · intro hG
    have hz : omega N 0 = 0 := (omega_eq_zero (by omega)).2 rfl
    beta_reduce
    rw [hexact 0 1 0 (by simp [ValidIndex]; omega)]
    simp only [omega2, List.map_cons, List.map_nil, List.sum_cons, List.sum_nil, hz, ne_eq, Option.some.injEq, Prod.mk.injEq]
    rintro ⟨ha, hb⟩
    apply hG
    have ha' : omega N (N - 1) ^ 2 * (G [0, 1, 0]).1 = 0 := by linear_combination -ha
    have hb' : omega N (N - 1) ^ 2 * (G [0, 1, 0]).2 = 0 := by linear_combination -hb
    exact Prod.ext ((mul_eq_zero.1 ha').resolve_left hp.ne') ((mul_eq_zero.1 hb').resolve_left hp.ne')

/-- **C64** is violated by `Laplace` also on ranks that have no rows: it raises an UnboundLocalError there. -/
theorem C64_violated_laplace_empty (t : Tiling) (N r : ℕ) (h : (t.lshape r).headD 0 = 0) (f : List ℕ → CVal) :
    oldTransfer t N r [.laplace] f = .ret (.error .unbound) := by
  simp only [oldTransfer, forProg, Transfer.run]
  rw [if_pos h]
  rfl

/-- **C64** is violated by `Trilinear`: it cannot be called by `transfer` at all. -/
theorem C64_violated_trilinear (t : Tiling) (N : ℕ) (f : ℕ → List ℕ → CVal) :
    AllReturn t.nrank (fun r => oldTransfer t N r [.trilinear] (f r)) (fun _ => .error .type) :=
  AllReturn.congr (fun _ _ => rfl) (fun _ _ => rfl) (AllReturn.ret _ _)

/-- **C64** is violated by `PowerSpectrum`: on every rank that has rows it raises an IndexError, unless a row is a single mode; on a rank
without rows it raises an UnboundLocalError. -/
theorem C64_violated_powerspectrum (n0 : ℕ) (rest : List ℕ) :
    (0 < n0 → (∃ n ∈ rest, n ≠ 1) → powerSpectrumStart (n0 :: rest) = some .index) ∧ powerSpectrumStart (0 :: rest) = some .unbound := by
  refine ⟨?_, rfl⟩
  rintro h0 ⟨n, hn, h1⟩
  unfold powerSpectrumStart
  simp only
  split_ifs with h2 h3
  · omega
  · exact absurd (List.eq_of_mem_replicate (by rw [← h3]; exact hn)) h1
  · rfl

example : powerSpectrumStart [3, 4, 3] = some .index ∧ powerSpectrumStart [0, 4, 3] = some .unbound ∧ powerSpectrumStart [3, 1, 1] = none := by
  decide

/-- Four points per side on two ranks: three planes on rank 0, one on rank 1. -/
def exOldTiling : Tiling := ⟨[4, 4, 4], [4, 4, 3], 2, fun r => [3 * r, 0, 0], fun r => if r = 0 then [3, 4, 3] else [1, 4, 3]⟩

theorem exOldTiling_ok : OldTiling exOldTiling 4 where
  ok := tiling_ok_of_decide (by decide +kernel)
  pos := by decide
  even := by decide
  mesh := rfl
  stored := rfl

/-- **C64**, `Inspect` on one rank: it changes nothing if all indices are inside the *local* array, and raises an IndexError otherwise. -/
theorem C64_inspect_partial (t : Tiling) (N r : ℕ) (indices : List (List ℕ)) (f : List ℕ → CVal) :
    ((∀ i ∈ indices, i.length ≤ (t.lshape r).length ∧ ∀ p ∈ i.zip (t.lshape r), p.1 < p.2) →
      oldTransfer t N r [.inspect indices] f = .ret (.ok f)) ∧
    ((∃ i ∈ indices, (t.lshape r).length < i.length ∨ ∃ p ∈ i.zip (t.lshape r), p.2 ≤ p.1) →
      oldTransfer t N r [.inspect indices] f = .ret (.error .index)) := by
  have hz : ∀ (i sh : List ℕ), List.zipWith (fun a n => decide (a < n)) i sh = (i.zip sh).map fun p => decide (p.1 < p.2) := by
    intro i sh; rw [List.zip, List.map_zipWith]
  simp only [oldTransfer, forProg, Transfer.run, hz]
  constructor
  · intro h
    rw [if_pos (by simpa [List.all_eq_true, List.mem_map] using h)]
    rfl
  · rintro ⟨i, hi, h⟩
    rw [if_neg]
    · rfl
    · intro hall
      have := List.all_eq_true.1 hall i hi
      simp only [Bool.and_eq_true, decide_eq_true_eq, List.all_eq_true, List.mem_map, id] at this
      rcases h with h | ⟨p, hp, h⟩
      · omega
      · have h2 := this.2 _ ⟨p, hp, rfl⟩
        rw [decide_eq_true_eq] at h2
        omega

/-- **C64** is violated by `Inspect`: the index is a local one; a mode of the mesh that is not in the local array raises an
IndexError there, and the other ranks hang in the next collective. -/
theorem C64_violated_inspect (f : ℕ → List ℕ → CVal) :
    ValidIndex exOldTiling.cshape [2, 0, 0] ∧
      Deadlocks 2 fun r => oldTransfer exOldTiling 4 r [.inspect [[2, 0, 0]], .normalizeDC] (f r) := by
  refine ⟨by decide, Deadlocks.of_mixed (a := 1) (b := 0) (by decide) (by decide) (r := .error .index) ?_ (op := .allreduce)
    (v := dcValue (exOldTiling.oldW 4 0) (f 0)) (k := fun vs => .ret (.ok fun c => cvalDiv (f 0 c) (sumVals vs))) ?_⟩
  · rfl
  · rfl

/-- **C64** is violated on meshes of odd size: with three points per side `Poisson` divides the mode `(1, 0, 0)` by four times the
square of its frequency. -/
theorem C64_violated_odd (G : List ℕ → Cx ℝ) :
    ∃ f' : ℕ → List ℕ → CVal, AllReturn 1 (fun r => oldTransfer (wholeTiling 3) 3 r [.poisson] fun c => some (G c)) (fun r => .ok (f' r)) ∧
      f' 0 [1, 0, 0] = some (-(G [1, 0, 0]).1 / (4 * omega2 3 [1, 0, 0]), -(G [1, 0, 0]).2 / (4 * omega2 3 [1, 0, 0])) ∧
      0 < omega2 3 [1, 0, 0] := by
  refine ⟨_, AllReturn.ret _ _, ?_⟩
  have hb : (Int.bmod ((1 : ℕ) : ℤ) 3 : ℤ) = 1 := by decide
  have h0 : (Int.bmod ((0 : ℕ) : ℤ) 3 : ℤ) = 0 := by decide
  have ho : omega2 3 [1, 0, 0] = (2 * Real.pi / 3) ^ 2 := by
    simp only [omega2, omega, List.map_cons, List.map_nil, List.sum_cons, List.sum_nil]
    rw [hb, h0]
    push_cast
    ring
  have hpos : 0 < (2 * Real.pi / 3) ^ 2 := by have := Real.pi_pos; positivity
  have hw : rowW2 ((wholeTiling 3).oldW 3 0) 1 [1, 0, 0] = some (-(4 * (2 * Real.pi / 3) ^ 2)) := by
    have e : (List.zipWith (fun (wi : List ℝ) i => wi.getD i 0 ^ 2) ((wholeTiling 3).oldW 3 0) [1, 0, 0]).sum =
        4 * (2 * Real.pi / 3) ^ 2 := by
      simp [Tiling.oldW, wholeTiling, Pmesh.oldW, indexAxis, wrapIndex, List.range_succ]
      ring
    unfold rowW2
    simp only [List.tail_cons, e]
    rw [if_neg (by positivity)]
  refine ⟨?_, by rw [ho]; exact hpos⟩
  simp only [List.headD_cons, hw, cvalDiv, Option.bind_some]
  rw [if_neg (by rw [neg_eq_zero]; positivity), ho]
  simp only [div_neg, neg_div]

/-- Non-vacuity of the hypotheses: two ranks, a chain of five functions. -/
example (G : List ℕ → Cx ℝ) (h : G [0, 0, 0] = (3, 4)) : ∃ G', chainMeaning 4 [.normalizeDC, .removeDC, .gaussian 2, .poisson,
    .superLanzcos 1 3] G = some G' := by
  simp only [chainMeaning, List.foldlM_cons, List.foldlM_nil, Transfer.meaning, h]
  rw [if_neg (by norm_num)]
  exact ⟨_, rfl⟩

example (G G' : List ℕ → Cx ℝ) (hm : chainMeaning 4 [.normalizeDC, .removeDC, .gaussian 2, .poisson, .superLanzcos 1 3] G = some G') :=
  C64_transfer_partial exOldTiling 4 exOldTiling_ok _
    (by intro op hop; simp only [List.mem_cons, List.not_mem_nil, or_false] at hop
        rcases hop with rfl | rfl | rfl | rfl | rfl <;> simp [Transfer.Works]) G G' hm (fun r c => some (G (exOldTiling.global r c)))
    (fun _ _ _ _ => rfl)

example := C64_violated_laplace 4 rfl (by decide) (fun _ => (1, 0))
example := (C64_inspect_partial exOldTiling 4 0 [[2, 0, 0], [1]] fun _ => some (1, 0)).1 (by decide)
example := (C64_inspect_partial exOldTiling 4 1 [[2, 0, 0], [1]] fun _ => some (1, 0)).2 ⟨[1], by decide, Or.inr ⟨(1, 1), by decide, le_refl 1⟩⟩
example := C64_violated_laplace_empty ⟨[4, 4, 4], [4, 4, 3], 5, fun r => [r, 0, 0], fun r => if r < 4 then [1, 4, 3] else [0, 4, 3]⟩ 4 4
  rfl
example := (C64_violated_powerspectrum 4 [4, 3]).1 (by decide) ⟨4, by simp, by decide⟩

#print axioms C64_transfer_partial
#print axioms C64_violated_laplace
#print axioms C64_violated_laplace_empty
#print axioms C64_violated_trilinear
#print axioms C64_violated_powerspectrum
#print axioms C64_inspect_partial
#print axioms C64_violated_inspect
#print axioms C64_violated_odd

end Pmesh
