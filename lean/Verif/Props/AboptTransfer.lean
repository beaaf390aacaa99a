import Verif.Props.Abopt
import Mathlib.Tactic.LinearCombination

/-!
# C66: `transfer` of `pmesh.abopt` keeps a field real
-/

set_option linter.unusedSectionVars false

namespace Pmesh

section
variable {K : Type} [Field K] [DecidableEq K]

theorem mask_iff {nmesh i : List ℕ} (heven : ∀ n ∈ nmesh, n % 2 = 0) (h : ValidIndex nmesh i) :
    (List.zipWith (fun n j => decide (j = 0) || decide (j = n / 2)) nmesh i).all id = true ↔ opposite nmesh i = i := by
  unfold opposite
  induction h with
  | nil => simp
  | @cons n j ns js h _ ih =>
    have hn := heven n (by simp)
    simp only [List.zipWith_cons_cons, List.all_cons, id_eq, Bool.and_eq_true, Bool.or_eq_true, decide_eq_true_eq, List.cons.injEq]
    rw [ih (fun n hn => heven n (by simp [hn]))]
    refine and_congr_left fun _ => ?_
    by_cases h0 : j = 0
    · subst h0; simp
    · rw [Nat.mod_eq_of_lt (by omega)]
      omega

theorem waveVector_opposite (pi : K) {nmesh : List ℕ} (box : List K) {i : List ℕ} (h : ValidIndex nmesh i)
    (hny : ¬ OnNyquist nmesh i) : waveVector pi nmesh box (opposite nmesh i) = (waveVector pi nmesh box i).map fun k => -k := by
  unfold waveVector opposite
  induction h generalizing box with
  | nil => simp
  | @cons n j ns js h _ ih =>
    cases box with
    | nil => rfl
    | cons b box =>
      simp only [List.zipWith_cons_cons, List.zip_cons_cons, List.map_cons]
      rw [ih box (fun ⟨p, hp, e⟩ => hny ⟨p, by simp [hp], e⟩)]
      congr 1
      have hne : 2 * j ≠ n := fun e => hny ⟨(n, j), by simp, e⟩
      have e : Int.bmod (((n - j) % n : ℕ) : ℤ) n = -Int.bmod (j : ℤ) n := by
        by_cases h0 : j = 0
        · subst h0; simp
        · rw [Nat.mod_eq_of_lt (by omega)]
          simp only [Int.bmod_def]
          rw [Int.emod_eq_of_lt (by omega) (by omega), Int.emod_eq_of_lt (by omega) (by omega)]
          split_ifs <;> omega
      rw [e]
      push_cast
      ring

/-- **C66**.  `transfer` with a transfer function of the wavevector that gives conjugate factors to opposite wavevectors multiplies every
mode with its factor, except that modes which are their own opposites are set to zero if the factor is not real; and
the result is Hermitian again (it stands for a real field), for every distribution over ranks.
Partial: the mesh must be even, and where a component of the wavevector is the Nyquist frequency, of which there is only one sign,
the field must vanish or the function must give conjugate factors to opposite modes nevertheless. -/
theorem C66_transfer_partial (pi : K) (t : Tiling) (ht : t.OK) (heven : ∀ n ∈ t.nmesh, n % 2 = 0) (box : List K)
    (tf : List K → Cx K) (htf : ∀ k, tf (k.map fun x => -x) = cxConj (tf k)) (G : List ℕ → Cx K) (hG : t.Hermitian G)
    (hny : ∀ i, ValidIndex t.cshape i → opposite t.nmesh i ≠ i → OnNyquist t.nmesh i →
      G i = 0 ∨ tf (waveVector pi t.nmesh box (opposite t.nmesh i)) = cxConj (tf (waveVector pi t.nmesh box i)))
    (f : ℕ → List ℕ → Cx K) (hf : t.Holds f G) :
    ∃ G' : List ℕ → Cx K, t.Holds (fun r => abTransfer t (fun i => tf (waveVector pi t.nmesh box i)) r (f r)) G' ∧ t.Hermitian G' ∧
      ∀ i, ValidIndex t.cshape i → G' i =
        if opposite t.nmesh i = i ∧ (tf (waveVector pi t.nmesh box i)).2 ≠ 0 then 0 else cxMul (tf (waveVector pi t.nmesh box i)) (G i) := by
  have hv : ∀ i, ValidIndex t.cshape i → ValidIndex t.nmesh i := by
    intro i hi
    have h := ht.stored_le
    generalize t.cshape = a at hi h
    generalize t.nmesh = b at h
    unfold ValidIndex at *
    induction h generalizing i with
    | nil => cases hi; exact .nil
    | cons h _ ih =>
      cases hi with
      | cons h1 h2 => exact .cons (by omega) (ih _ h2)
  have hmask : ∀ i, ValidIndex t.cshape i → ∀ z : Cx K,
      nyquistMask t.nmesh i z = if opposite t.nmesh i = i ∧ z.2 ≠ 0 then 0 else z := by
    intro i hi z
    have hm := mask_iff heven (hv i hi)
    unfold nyquistMask
    by_cases h1 : opposite t.nmesh i = i
    · have h2 := hm.2 h1
      by_cases h3 : z.2 = 0
      · rw [if_pos (by simp [h3]), if_neg (by simp [h3])]
      · rw [if_neg (by rw [h2]; simp [h3]), if_pos ⟨h1, h3⟩]
    · have h2 := fun h => h1 (hm.1 h)
      rw [if_pos, if_neg (fun h => h1 h.1)]
      rw [Bool.eq_false_iff.2 h2]
      simp
  refine ⟨fun i => cxMul (nyquistMask t.nmesh i (tf (waveVector pi t.nmesh box i))) (G i), ?_, ?_, ?_⟩
  · intro r hr c hc
    simp only [abTransfer]
    rw [hf r hr c hc]
  · intro i hi ho
    dsimp only
    rw [hmask i hi, hmask _ ho, opposite_opposite (hv i hi), hG i hi ho]
    by_cases h1 : opposite t.nmesh i = i
    · rw [h1]
      have hr := hG i hi ho
      rw [h1] at hr
      by_cases h2 : (tf (waveVector pi t.nmesh box i)).2 = 0
      · rw [if_neg (by simp [h2])]
        simp only [cxMul, cxConj, h2] at hr ⊢
        ext <;> simp
      · rw [if_pos ⟨rfl, h2⟩]
        simp [cxMul, cxConj]
    · rw [if_neg (fun h => h1 h.1.symm), if_neg (fun h => h1 h.1)]
      by_cases h3 : OnNyquist t.nmesh i
      · rcases hny i hi h1 h3 with h4 | h4
        · rw [h4]
          simp [cxMul, cxConj]
        · rw [h4]
          simp only [cxMul, cxConj]
          ext <;> dsimp only <;> ring
      · rw [waveVector_opposite pi box (hv i hi) h3, htf]
        simp only [cxMul, cxConj]
        ext <;> dsimp only <;> ring
  · intro i hi
    dsimp only
    rw [hmask i hi]
    split_ifs with h
    · simp [cxMul]
    · rfl

end

/-! ## The hypotheses can be met, and where the code violates the property -/

/-- Four by four points, compressed, on two ranks. -/
def exGradTiling : Tiling := ⟨[4, 4], [4, 3], 2, fun r => [2 * r, 0], fun _ => [2, 3]⟩

/-- The derivative along the last axis. -/
def exGrad (k : List ℚ) : Cx ℚ := (0, k.getD 1 0)

theorem exGrad_conj (k : List ℚ) : exGrad (k.map fun x => -x) = cxConj (exGrad k) := by
  unfold exGrad cxConj
  simp only [Prod.mk.injEq, true_and]
  match k with
  | [] => simp
  | [_] => simp
  | _ :: _ :: _ => simp

theorem exGradTiling_ok : exGradTiling.OK := tiling_ok_of_decide (by decide)

/-- Non-vacuity of C66: the derivative of a field with one pair of modes. -/
example := C66_transfer_partial (K := ℚ) (22 / 7) exGradTiling exGradTiling_ok (by decide) [1, 2] exGrad exGrad_conj
  (fun i => if i = [1, 0] then (1, 2) else if i = [3, 0] then (1, -2) else if i = [1, 1] then (5, 0) else 0)
  (by
    intro i hi ho
    have h : ∀ i ∈ ndindex [4, 3], ValidIndex [4, 3] (opposite [4, 4] i) →
        (fun i => if i = [1, 0] then ((1, 2) : Cx ℚ) else if i = [3, 0] then (1, -2) else if i = [1, 1] then (5, 0) else 0) (opposite [4, 4] i) =
        cxConj ((fun i => if i = [1, 0] then ((1, 2) : Cx ℚ) else if i = [3, 0] then (1, -2) else if i = [1, 1] then (5, 0) else 0) i) := by
      decide +kernel
    exact h i (mem_ndindex.2 hi) ho)
  (by
    intro i _ _ ⟨p, hp, e⟩
    left
    rw [if_neg, if_neg, if_neg]
    all_goals
      rintro rfl
      revert e
      revert p
      decide)
  (fun r c => (fun i => if i = [1, 0] then (1, 2) else if i = [3, 0] then (1, -2) else if i = [1, 1] then (5, 0) else 0)
    (exGradTiling.global r c))
  (fun _ _ _ _ => rfl)

/-- **C66 violated** by the derivative along an axis at its Nyquist frequency: the modes `(1, 2)` and `(3, 2)` of a `4 × 4` mesh are opposite and
both stored, both get the factor `-i 2π N / 2L`, and so what was the field of a real density is no longer Hermitian. -/
theorem C66_violated_gradient :
    ∃ G : List ℕ → Cx ℚ, exGradTiling.Hermitian G ∧
      ∀ G', exGradTiling.Holds (fun r => abTransfer exGradTiling (fun i => exGrad (waveVector 3 [4, 4] [1, 1] i)) r
        fun c => G (exGradTiling.global r c)) G' → ¬ exGradTiling.Hermitian G' := by
  refine ⟨fun i => if i = [1, 2] ∨ i = [3, 2] then (1, 0) else 0, ?_, ?_⟩
  · intro i hi ho
    have h : ∀ i ∈ ndindex [4, 3], ValidIndex [4, 3] (opposite [4, 4] i) →
        (fun i => if i = [1, 2] ∨ i = [3, 2] then ((1, 0) : Cx ℚ) else 0) (opposite [4, 4] i) =
        cxConj ((fun i => if i = [1, 2] ∨ i = [3, 2] then ((1, 0) : Cx ℚ) else 0) i) := by
      decide +kernel
    exact h i (mem_ndindex.2 hi) ho
  · intro G' hG' hH
    have h1 := hG' 0 (by decide) [1, 2] (by decide)
    have h2 := hG' 1 (by decide) [1, 2] (by decide)
    have h3 := hH [1, 2] (by decide) (by decide)
    have e1 : exGradTiling.global 0 [1, 2] = [1, 2] := by decide
    have e2 : exGradTiling.global 1 [1, 2] = [3, 2] := by decide
    have e3 : opposite exGradTiling.nmesh [1, 2] = [3, 2] := by decide
    rw [e1] at h1
    rw [e2] at h2
    rw [e3, ← h1, ← h2] at h3
    revert h3
    decide +kernel

/-- Three points on one rank, in full storage. -/
def exOddTiling : Tiling := ⟨[3], [3], 1, fun _ => [0], fun _ => [3]⟩

/-- **C66 violated** on odd meshes: `ii == ni // 2` is not the Nyquist frequency there, and the mode 1 of a mesh of three points is set to zero,
but not its opposite, the mode 2. -/
theorem C66_violated_odd :
    abTransfer exOddTiling (fun i => ((0, (waveVector 3 [3] [1] i).headD 0) : Cx ℚ)) 0 (fun _ => (1, 0)) [1] = 0 ∧
    abTransfer exOddTiling (fun i => ((0, (waveVector 3 [3] [1] i).headD 0) : Cx ℚ)) 0 (fun _ => (1, 0)) [2] = (0, -6) := by
  decide +kernel

#print axioms C66_transfer_partial
#print axioms C66_violated_gradient
#print axioms C66_violated_odd

end Pmesh
