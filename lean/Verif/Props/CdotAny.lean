import Verif.Model.CdotAny
import Verif.Spec.Layout
import Verif.Lemmas.Field
import Verif.Lemmas.Norm
import Mathlib.Tactic.NormNum

/-!
# C98: `cdot` of two real fields

On two meshes of the same size and the same ranks `cdot` is the inner product if the meshes are split alike.  Otherwise numpy multiplies whatever the local arrays
hold: some ranks may raise and the others wait, or all ranks return a number that is not the inner product.
-/

namespace Pmesh

variable {K : Type} [Field K]

theorem bcastShape_self : ∀ s, bcastShape s s = some s
  | [] => rfl
  | n :: ns => by simp [bcastShape, bcastShape_self ns]

theorem bcastIndex_self {sh c : List ℕ} (h : ValidIndex sh c) : bcastIndex sh c = c := by
  induction h with
  | nil => rfl
  | @cons n i ns is h _ ih =>
    unfold bcastIndex at ih ⊢
    rw [List.zipWith_cons_cons, ih]
    congr 1
    split_ifs <;> omega

/-- **C98** (partial: the two meshes are split alike).  All ranks get the sum over the mesh of the products. -/
theorem C98_cdot_partial (t t' : Tiling) (ht : t.OK) (hrank : t'.nrank = t.nrank) (hstart : ∀ r < t.nrank, t'.start r = t.start r)
    (hshape : ∀ r < t.nrank, t'.lshape r = t.lshape r) (f g : ℕ → List ℕ → K) (A B : List ℕ → K) (hf : t.Holds f A) (hg : t'.Holds g B) :
    AllReturn t.nrank (fun r => cdotAny (t.lshape r) (f r) (.field .real (t'.lshape r) (g r))) fun _ =>
      .ok ((ndindex t.cshape).map fun x => A x * B x).sum := by
  refine AllReturn.congr (p' := fun r => .coll .allreduce ((ndindex (t.lshape r)).map fun c => A (t.global r c) * B (t.global r c)).sum fun vs => .ret (.ok vs.sum))
    (fun r hr => ?_) (fun _ _ => rfl) ?_
  · unfold cdotAny
    rw [hshape r hr]
    simp only [ne_eq, not_true_eq_false, if_false, bcastShape_self]
    congr 2
    apply List.map_congr_left
    intro c hc
    have hc := mem_ndindex.1 hc
    rw [bcastIndex_self hc, hf r hr c hc, hg r (by omega) c (by rw [hshape r hr]; exact hc)]
    simp only [Tiling.global, hstart r hr]
  · refine AllReturn.coll ht.rank_pos ?_
    rw [tiles_sum ht fun x => A x * B x]
    exact AllReturn.ret _ _

/-- **C98**, operands that are not real fields: all ranks raise. -/
theorem C98_type (n : ℕ) (shape : ℕ → List ℕ) (f : ℕ → List ℕ → K) (arg : ℕ → CdotArg K) (h : ∀ r < n, ∀ s v, arg r ≠ .field .real s v) :
    AllReturn n (fun r => cdotAny (shape r) (f r) (arg r)) fun _ => .error .type := by
  refine AllReturn.congr (fun r hr => ?_) (fun _ _ => rfl) (AllReturn.ret n _)
  cases ha : arg r with
  | array s v => rfl
  | field cls s v =>
    have : cls ≠ .real := by
      rintro rfl
      exact h r hr s v ha
    simp [cdotAny, this]

/-- **C98**, arrays.  An array, even one of the right shape, is refused. -/
theorem C98_violated_array (t : Tiling) (f g : ℕ → List ℕ → K) :
    AllReturn t.nrank (fun r => cdotAny (t.lshape r) (f r) (.array (t.lshape r) (g r))) fun _ => .error .type :=
  C98_type t.nrank t.lshape f (fun r => .array (t.lshape r) (g r)) (fun _ _ _ _ h => nomatch h)

/-- The mesh of 2 x 2 x 2 cells on two ranks, split along the first and along the second axis. -/
def exSplit0 : Tiling := ⟨[2, 2, 2], [2, 2, 2], 2, fun r => [r, 0, 0], fun _ => [1, 2, 2]⟩
def exSplit1 : Tiling := ⟨[2, 2, 2], [2, 2, 2], 2, fun r => [0, r, 0], fun _ => [2, 1, 2]⟩

theorem exSplit0_ok : exSplit0.OK := tiling_ok_of_decide (by decide)
theorem exSplit1_ok : exSplit1.OK := tiling_ok_of_decide (by decide)

/-- **C98**, meshes that are split differently.  On 2 x 2 x 2 cells, `np=[2, 1]` and `np=[1, 2]`: the inner product of the constant 1 with itself is 16 instead of 8. -/
theorem C98_violated_value : exSplit0.Holds (fun _ _ => (1 : ℚ)) (fun _ => 1) ∧ exSplit1.Holds (fun _ _ => (1 : ℚ)) (fun _ => 1) ∧
    AllReturn 2 (fun r => cdotAny (exSplit0.lshape r) (fun _ => (1 : ℚ)) (.field .real (exSplit1.lshape r) fun _ => 1)) (fun _ => .ok 16) ∧
    ((ndindex exSplit0.cshape).map fun _ => (1 : ℚ) * 1).sum = 8 := by
  refine ⟨fun _ _ _ _ => rfl, fun _ _ _ _ => rfl, ?_, by decide +kernel⟩
  refine AllReturn.coll (by decide) ?_
  refine AllReturn.congr (fun _ _ => rfl) (fun r _ => ?_) (AllReturn.ret 2 _)
  decide +kernel

/-- **C98**, meshes that are split differently, any fields on 2 x 2 x 2 cells: the plane with first index `r` of one field meets the plane with second index
`r` of the other. -/
theorem C98_violated_broadcast (A B : List ℕ → K) :
    AllReturn 2 (fun r => cdotAny (exSplit0.lshape r) (fun c => A (exSplit0.global r c)) (.field .real (exSplit1.lshape r) fun c => B (exSplit1.global r c))) fun _ =>
      .ok ((List.range 2).map fun r => ((ndindex [2, 2, 2]).map fun x => A [r, x.getD 1 0, x.getD 2 0] * B [x.getD 0 0, r, x.getD 2 0]).sum).sum := by
  refine AllReturn.coll (by decide) ?_
  refine AllReturn.congr (fun _ _ => rfl) (fun r _ => ?_) (AllReturn.ret 2 _)
  congr 2

/-- Three by two cells on two ranks, split along the first and along the second axis as pfft does. -/
def exSplit3 : Tiling := ⟨[3, 2, 2], [3, 2, 2], 2, fun r => [2 * r, 0, 0], fun r => if r = 0 then [2, 2, 2] else [1, 2, 2]⟩
def exSplit4 : Tiling := ⟨[3, 2, 2], [3, 2, 2], 2, fun r => [0, r, 0], fun _ => [3, 1, 2]⟩

theorem exSplit3_ok : exSplit3.OK := tiling_ok_of_decide (by decide)
theorem exSplit4_ok : exSplit4.OK := tiling_ok_of_decide (by decide)

/-- **C98**, deadlock.  On 3 x 2 x 2 cells rank 0 raises and rank 1 waits forever. -/
theorem C98_violated_deadlock (f g : ℕ → List ℕ → K) :
    Deadlocks 2 fun r => cdotAny (exSplit3.lshape r) (f r) (.field .real (exSplit4.lshape r) (g r)) :=
  Deadlocks.of_mixed (a := 0) (b := 1) (by decide) (by decide) rfl rfl

example := C98_cdot_partial exSplit3 exSplit3 exSplit3_ok rfl (fun _ _ => rfl) (fun _ _ => rfl) (fun r c => ((exSplit3.global r c).sum : ℚ))
  (fun r c => (((exSplit3.global r c).headD 0 : ℕ) : ℚ)) (fun i => (i.sum : ℚ)) (fun i => ((i.headD 0 : ℕ) : ℚ)) (fun _ _ _ _ => rfl) (fun _ _ _ _ => rfl)

example := C98_type (K := ℚ) 2 exSplit3.lshape (fun _ _ => 1) (fun r => .field (.complex true) (exSplit3.lshape r) fun _ => 1) (by intro r _ s v h; cases h)

#print axioms C98_cdot_partial
#print axioms C98_type
#print axioms C98_violated_array
#print axioms C98_violated_value
#print axioms C98_violated_broadcast
#print axioms C98_violated_deadlock

end Pmesh
