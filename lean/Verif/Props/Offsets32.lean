import Verif.Model.Offsets32
import Verif.Lemmas.Layout
import Verif.Lemmas.Int16

/-!
# C125: the offsets of a layout fit in 32 bits
-/

namespace Pmesh

theorem offsetsOf_length (c : List ℕ) : (offsetsOf c).length = c.length := by
  cases c with
  | nil => rfl
  | cons a c => simp [offsetsOf, cumsum, cumsumFrom_length]

theorem offsets32_getD (c : List ℕ) {t : ℕ} (ht : t < c.length) : (offsets32 c).getD t 0 = wrapInt32 ((c.take t).sum : ℕ) := by
  have hl := offsetsOf_length c
  unfold offsets32
  rw [List.getD_eq_getElem _ _ (by simpa [hl] using ht), List.getElem_map, ← List.getD_eq_getElem _ 0 (by omega), offsetsOf_getD c ht]

/-- **C125.**  If the items of all ranks but the last are fewer than `2 ^ 31`, the stored offset of each rank is the number of items of the ranks before
it, so that the blocks of the ranks follow each other without gaps from 0 to the end of the buffer. -/
theorem C125_offsets_partial (counts : List ℕ) (h : counts.dropLast.sum < 2147483648) :
    (offsets32 counts).length = counts.length ∧
    (∀ t < counts.length, (offsets32 counts).getD t 0 = ((counts.take t).sum : ℕ)) ∧
    (counts ≠ [] → (offsets32 counts).getD 0 0 = 0) ∧
    (∀ t, t + 1 < counts.length → (offsets32 counts).getD (t + 1) 0 = (offsets32 counts).getD t 0 + (counts.getD t 0 : ℕ)) ∧
    (counts ≠ [] → (offsets32 counts).getD (counts.length - 1) 0 + (counts.getD (counts.length - 1) 0 : ℕ) = (counts.sum : ℕ)) := by
  have key : ∀ t < counts.length, (offsets32 counts).getD t 0 = ((counts.take t).sum : ℕ) := by
    intro t ht
    rw [offsets32_getD counts ht]
    have : (counts.take t).sum ≤ counts.dropLast.sum := by
      rw [List.dropLast_eq_take]
      exact ((List.take_sublist_take_left (by omega)).sum_le_sum fun _ _ => Nat.zero_le _)
    exact wrapInt32_eq (by omega) (by omega)
  have step : ∀ t (ht : t < counts.length), (counts.take (t + 1)).sum = (counts.take t).sum + counts.getD t 0 := by
    intro t ht
    rw [List.sum_take_succ _ _ ht, List.getD_eq_getElem _ _ ht]
  refine ⟨by simp [offsets32, offsetsOf_length], key, fun hne => ?_, fun t ht => ?_, fun hne => ?_⟩
  · rw [key 0 (List.length_pos_iff.2 hne)]; simp
  · rw [key _ ht, key t (by omega), step t (by omega)]; push_cast; rfl
  · have hp := List.length_pos_iff.2 hne
    rw [key _ (by omega), ← Nat.cast_add, ← step _ (by omega), Nat.sub_add_cancel hp, List.take_length]

example := C125_offsets_partial [2000000000, 5, 4000000000] (by norm_num)

/-- **C125 violated** whenever the ranks before the last send at least `2 ^ 31` (and fewer than `2 ^ 32`) items to a rank: the offset of the last rank is negative, that is, outside the buffer,
although each rank alone sends few enough items. -/
theorem C125_violated_large (counts : List ℕ) (hne : counts ≠ []) (h1 : 2147483648 ≤ counts.dropLast.sum) (h2 : counts.dropLast.sum < 4294967296) :
    (offsets32 counts).getD (counts.length - 1) 0 = (counts.dropLast.sum : ℤ) - 4294967296 ∧ (offsets32 counts).getD (counts.length - 1) 0 < 0 := by
  have hp := List.length_pos_iff.2 hne
  have : (offsets32 counts).getD (counts.length - 1) 0 = (counts.dropLast.sum : ℤ) - 4294967296 := by
    rw [offsets32_getD counts (by omega), ← List.dropLast_eq_take]
    unfold wrapInt32
    omega
  exact ⟨this, by rw [this]; omega⟩

/-- Three ranks that send 2^30 particles each to a fourth, which has a few. -/
example := C125_violated_large [1073741824, 1073741824, 1073741824, 7] (by simp) (by norm_num) (by norm_num)

#print axioms C125_offsets_partial
#print axioms C125_violated_large

end Pmesh
