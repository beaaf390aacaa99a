import Verif.Model.Grid
import Mathlib.Data.List.GetD
import Mathlib.Algebra.BigOperators.Ring.List
import Mathlib.Algebra.Order.BigOperators.Group.List
import Mathlib.Tactic.Linarith
import Mathlib.Tactic.FieldSimp
import Mathlib.Tactic.Positivity

set_option linter.unusedSectionVars false

namespace Pmesh

theorem prod_set_mul (l : List ℕ) (i : ℕ) (hi : i < l.length) (v : ℕ) :
    (l.set i v).prod = v * (l.set i 1).prod := by
  induction l generalizing i with
  | nil => simp at hi
  | cons a l ih =>
    cases i with
    | zero => simp
    | succ i =>
      simp only [List.set_cons_succ, List.prod_cons]
      rw [ih i (by simpa using hi)]
      exact Nat.mul_left_comm _ _ _

theorem prod_set_one_le (l : List ℕ) (i : ℕ) (h : ∀ a ∈ l, 1 ≤ a) : (l.set i 1).prod ≤ l.prod := by
  induction l generalizing i with
  | nil => simp
  | cons a l ih =>
    cases i with
    | zero =>
      simp only [List.set_cons_zero, List.prod_cons, one_mul]
      exact Nat.le_mul_of_pos_left _ (h a (by simp))
    | succ i =>
      simp only [List.set_cons_succ, List.prod_cons]
      exact Nat.mul_le_mul_left _ (ih i fun b hb => h b (by simp [hb]))

section
variable {K : Type*} [Field K] [LinearOrder K] [IsStrictOrderedRing K] [FloorRing K]

theorem argmax_lt (l : List K) (h : l ≠ []) : argmax l < l.length := by
  induction l with
  | nil => simp at h
  | cons a l ih =>
    cases l with
    | nil => simp [argmax]
    | cons b l =>
      have := ih (by simp)
      unfold argmax
      simp only
      split
      · simp
      · simp only [List.length_cons] at this ⊢; omega

theorem foldr_min_le (l : List K) (d : K) : ∀ b ∈ l, l.foldr min d ≤ b := by
  induction l with
  | nil => simp
  | cons a l ih =>
    intro b hb
    rw [List.foldr_cons]
    rcases List.mem_cons.1 hb with rfl | hb
    · exact min_le_left _ _
    · exact le_trans (min_le_right _ _) (ih b hb)

theorem foldr_min_mem (l : List K) (d : K) : l.foldr min d = d ∨ l.foldr min d ∈ l := by
  induction l with
  | nil => simp
  | cons a l ih =>
    rw [List.foldr_cons]
    rcases min_choice a (l.foldr min d) with h | h
    · rw [h]; simp
    · rw [h]
      rcases ih with e | e
      · exact Or.inl e
      · exact Or.inr (by simp [e])

theorem prod_floor_le (l : List K) (h : ∀ x ∈ l, 1 ≤ x) :
    (((l.map fun x => ⌊x⌋.toNat).map fun n => if n < 1 then 1 else n).prod : K) ≤ l.prod ∧ 1 ≤ l.prod := by
  induction l with
  | nil => simp
  | cons a l ih =>
    have ha := h a (by simp)
    obtain ⟨h1, h2⟩ := ih fun x hx => h x (by simp [hx])
    have hf : 1 ≤ ⌊a⌋ := by rw [Int.le_floor]; simpa using ha
    have hn : ¬ ⌊a⌋.toNat < 1 := by omega
    have hcast : ((⌊a⌋.toNat : ℕ) : K) ≤ a := by
      have e : ((⌊a⌋.toNat : ℕ) : ℤ) = ⌊a⌋ := Int.toNat_of_nonneg (by omega)
      have : ((⌊a⌋.toNat : ℕ) : K) = ((⌊a⌋ : ℤ) : K) := by
        conv_rhs => rw [← e]
        exact (Int.cast_natCast _).symm
      rw [this]; exact Int.floor_le a
    simp only [List.map_cons, List.prod_cons, if_neg hn]
    push_cast
    constructor
    · apply mul_le_mul hcast (by push_cast at h1; exact h1) _ (by linarith)
      have : (0 : K) ≤ (((l.map fun x => ⌊x⌋.toNat).map fun n => if n < 1 then 1 else n).prod : ℕ) :=
        Nat.cast_nonneg _
      push_cast at this
      exact this
    · nlinarith

theorem prod_map_mul_div (l : List K) (r m : K) :
    (l.map fun b => r * (b / m)).prod = r ^ l.length * l.prod / m ^ l.length := by
  induction l with
  | nil => simp
  | cons a l ih =>
    simp only [List.map_cons, List.prod_cons, List.length_cons, ih, pow_succ]
    by_cases hm : m = 0
    · subst hm; simp
    · field_simp

end
end Pmesh
