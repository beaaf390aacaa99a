import Verif.Lemmas.Paint
import Verif.Lemmas.NnbAxis
import Mathlib.Tactic.FieldSimp

/-!
# The windows as pieces of polynomials

On each cell the tuned windows are polynomials, one for each point of the stencil.  The polynomials of neighbouring cells agree at the border
between them, so that a particle that rounding moves over the border changes its weights by little.
-/

set_option linter.unusedSectionVars false

namespace Pmesh

section
variable {K : Type*} [Field K] [LinearOrder K] [IsStrictOrderedRing K] [FloorRing K]

/-- The points of the stencil relative to the base cell, with their weights as functions of the distance to the base cell. -/
def pieces : Tuned → List (ℤ × (K → K))
  | .nnb => [(0, fun _ => 1)]
  | .cic => [(0, fun f => 1 - f), (1, fun f => f)]
  | .tsc => [(-1, fun f => (1 / 2 - f) * (1 / 2 - f) * (1 / 2)), (0, fun f => 3 / 4 - f * f), (1, fun f => (1 / 2 + f) * (1 / 2 + f) * (1 / 2))]
  | .pcs => [(-1, fun f => 1 / 6 * (1 - f) * (1 - f) * (1 - f)), (0, fun f => 1 / 6 * (4 - 6 * f * f + 3 * f * f * f)),
      (1, fun f => 1 / 6 * (4 - 6 * (f - 1) * (f - 1) - 3 * (f - 1) * (f - 1) * (f - 1))), (2, fun f => 1 / 6 * f * f * f)]

/-- The distances from the base cell go from `pieceLo` to `pieceLo + 1`. -/
def pieceLo : Tuned → K
  | .cic => 0
  | .pcs => 0
  | _ => -(1 / 2)

/-- The base cell. -/
def pieceBase (t : Tuned) (z : K) : ℤ := ⌊z - pieceLo t⌋

/-- Weight in cell `c` of an axis with period `N`, with base cell `i`. -/
def pieceWeight (t : Tuned) (N : ℕ) (c i : ℤ) (z : K) : K :=
  ((pieces t).map fun q => if (i + q.1) % (N : ℤ) = c then q.2 (z - i) else 0).sum

theorem pieceBase_mem (t : Tuned) (z : K) : pieceLo t ≤ z - (pieceBase t z : K) ∧ z - (pieceBase t z : K) < pieceLo t + 1 := by
  have h1 := Int.floor_le (z - pieceLo t)
  have h2 := Int.lt_floor_add_one (z - pieceLo t)
  unfold pieceBase
  constructor <;> linarith

theorem abs_sum_le_of {α : Type*} (l : List α) (f : α → K) (b : K) (n : ℕ) (hn : l.length ≤ n) (hb : 0 ≤ b) (h : ∀ a ∈ l, |f a| ≤ b) :
    |(l.map f).sum| ≤ n * b := by
  induction l generalizing n with
  | nil => simp; positivity
  | cons a l ih =>
    rw [List.map_cons, List.sum_cons]
    cases n with
    | zero => simp at hn
    | succ n =>
      have h1 := ih n (by simpa using hn) fun a ha => h a (by simp [ha])
      have h2 := h a (by simp)
      have h3 := abs_add_le (f a) (l.map f).sum
      push_cast
      linarith

theorem sum_map_sub_le {α : Type*} (l : List α) (f g : α → K) (b : K) (n : ℕ) (hn : l.length ≤ n) (hb : 0 ≤ b)
    (h : ∀ a ∈ l, |f a - g a| ≤ b) : |(l.map f).sum - (l.map g).sum| ≤ n * b := by
  have e : (l.map f).sum - (l.map g).sum = (l.map fun a => f a - g a).sum := by
    induction l with
    | nil => simp
    | cons a l ih =>
      simp only [List.map_cons, List.sum_cons]
      rw [← ih (by simp at hn; omega) fun a ha => h a (by simp [ha])]
      ring
  rw [e]
  exact abs_sum_le_of l _ b n hn hb h

theorem pieces_length (t : Tuned) : (pieces (K := K) t).length = (Tuned.kern t : Kern K).native := by
  cases t <;> rfl

theorem pieces_length_le (t : Tuned) : (pieces (K := K) t).length ≤ 4 := by cases t <;> simp [pieces]

theorem abs_mul_le {a b : K} {c : K} (h1 : -c ≤ a) (h2 : a ≤ c) : |a * b| ≤ c * |b| := by
  rw [abs_mul]
  exact mul_le_mul_of_nonneg_right (abs_le.2 ⟨h1, h2⟩) (abs_nonneg b)

theorem pieces_lip (t : Tuned) (ht : t ≠ .nnb) {f f' : K} (h1 : pieceLo t - 1 / 4 ≤ f) (h2 : f ≤ pieceLo t + 5 / 4) (h3 : pieceLo t - 1 / 4 ≤ f')
    (h4 : f' ≤ pieceLo t + 5 / 4) : ∀ q ∈ pieces t, |q.2 f - q.2 f'| ≤ 3 / 2 * |f - f'| := by
  intro q hq
  cases t with
  | nnb => exact absurd rfl ht
  | cic =>
    simp only [pieces, List.mem_cons, List.not_mem_nil, or_false] at hq
    rcases hq with rfl | rfl
    · have := abs_nonneg (f - f')
      rw [show 1 - f - (1 - f') = -(f - f') by ring, abs_neg]; linarith
    · have := abs_nonneg (f - f'); simp only; linarith
  | tsc =>
    simp only [pieces, pieceLo, List.mem_cons, List.not_mem_nil, or_false] at hq h1 h2 h3 h4
    rcases hq with rfl | rfl | rfl
    · rw [show (1 / 2 - f) * (1 / 2 - f) * (1 / 2) - (1 / 2 - f') * (1 / 2 - f') * (1 / 2) = ((f + f' - 1) / 2) * (f - f') by ring]
      apply abs_mul_le <;> linarith
    · rw [show 3 / 4 - f * f - (3 / 4 - f' * f') = (-(f + f')) * (f - f') by ring]
      apply abs_mul_le <;> linarith
    · rw [show (1 / 2 + f) * (1 / 2 + f) * (1 / 2) - (1 / 2 + f') * (1 / 2 + f') * (1 / 2) = ((f + f' + 1) / 2) * (f - f') by ring]
      apply abs_mul_le <;> linarith
  | pcs =>
    simp only [pieces, pieceLo, List.mem_cons, List.not_mem_nil, or_false] at hq h1 h2 h3 h4
    rcases hq with rfl | rfl | rfl | rfl
    · rw [show 1 / 6 * (1 - f) * (1 - f) * (1 - f) - 1 / 6 * (1 - f') * (1 - f') * (1 - f') =
        (-((1 - f) * (1 - f) + (1 - f) * (1 - f') + (1 - f') * (1 - f')) / 6) * (f - f') by ring]
      apply abs_mul_le <;> nlinarith
    · rw [show 1 / 6 * (4 - 6 * f * f + 3 * f * f * f) - 1 / 6 * (4 - 6 * f' * f' + 3 * f' * f' * f') =
        ((-6 * (f + f') + 3 * (f * f + f * f' + f' * f')) / 6) * (f - f') by ring]
      apply abs_mul_le <;> nlinarith
    · rw [show 1 / 6 * (4 - 6 * (f - 1) * (f - 1) - 3 * (f - 1) * (f - 1) * (f - 1)) -
          1 / 6 * (4 - 6 * (f' - 1) * (f' - 1) - 3 * (f' - 1) * (f' - 1) * (f' - 1)) =
        ((-6 * ((f - 1) + (f' - 1)) - 3 * ((f - 1) * (f - 1) + (f - 1) * (f' - 1) + (f' - 1) * (f' - 1))) / 6) * (f - f') by ring]
      apply abs_mul_le <;> nlinarith
    · rw [show 1 / 6 * f * f * f - 1 / 6 * f' * f' * f' = ((f * f + f * f' + f' * f') / 6) * (f - f') by ring]
      apply abs_mul_le <;> nlinarith

theorem pieceWeight_lip (t : Tuned) (ht : t ≠ .nnb) (N : ℕ) (c i : ℤ) {z z' : K} (h1 : pieceLo t - 1 / 4 ≤ z - i) (h2 : z - i ≤ pieceLo t + 5 / 4)
    (h3 : pieceLo t - 1 / 4 ≤ z' - i) (h4 : z' - i ≤ pieceLo t + 5 / 4) :
    |pieceWeight t N c i z - pieceWeight t N c i z'| ≤ 6 * |z - z'| := by
  have h := sum_map_sub_le (pieces t) (fun q => if (i + q.1) % (N : ℤ) = c then q.2 (z - i) else 0)
    (fun q => if (i + q.1) % (N : ℤ) = c then q.2 (z' - i) else 0) (3 / 2 * |z - z'|) 4 (pieces_length_le t) (by positivity) (by
      intro q hq
      have := pieces_lip t ht h1 h2 h3 h4 q hq
      rw [show z - i - (z' - i) = z - z' by ring] at this
      split_ifs
      · exact this
      · simp)
  push_cast at h
  unfold pieceWeight
  linarith

/-- The pieces of neighbouring cells agree at the border. -/
theorem pieceWeight_glue (t : Tuned) (ht : t ≠ .nnb) (N : ℕ) (c i : ℤ) :
    pieceWeight t N c i ((i : K) + (pieceLo t + 1)) = pieceWeight t N c (i + 1) ((i : K) + (pieceLo t + 1)) := by
  have e1 : (i : K) + (pieceLo t + 1) - i = pieceLo t + 1 := by ring
  have e2 : (i : K) + (pieceLo t + 1) - ((i + 1 : ℤ) : K) = pieceLo t := by push_cast; ring
  unfold pieceWeight
  rw [e1, e2]
  cases t with
  | nnb => exact absurd rfl ht
  | cic =>
    simp only [pieces, pieceLo, List.map_cons, List.map_nil, List.sum_cons, List.sum_nil, add_zero]
    norm_num
  | tsc =>
    simp only [pieces, pieceLo, List.map_cons, List.map_nil, List.sum_cons, List.sum_nil, add_zero, add_neg_cancel_right]
    norm_num
  | pcs =>
    simp only [pieces, pieceLo, List.map_cons, List.map_nil, List.sum_cons, List.sum_nil, add_zero, add_neg_cancel_right]
    rw [show i + 1 + 1 = i + 2 by ring]
    norm_num

/-- Moving the particle by little, and its base cell to one that is right up to little, changes the weight by little. -/
theorem pieceWeight_near (t : Tuned) (ht : t ≠ .nnb) (N : ℕ) (c : ℤ) {i i' : ℤ} {z z' η : K} (hη : η ≤ 1 / 16)
    (h1 : pieceLo t ≤ z - i) (h2 : z - i ≤ pieceLo t + 1) (h3 : pieceLo t - η ≤ z' - i') (h4 : z' - i' ≤ pieceLo t + 1 + η)
    (hz : |z - z'| ≤ η) : |pieceWeight t N c i z - pieceWeight t N c i' z'| ≤ 18 * η := by
  have hη0 : 0 ≤ η := (abs_nonneg _).trans hz
  obtain ⟨z1, z2⟩ := abs_le.1 hz
  have hd1 : ((i' - i : ℤ) : K) < 2 := by push_cast; linarith
  have hd2 : ((-2 : ℤ) : K) < ((i' - i : ℤ) : K) := by push_cast; linarith
  have hd1' : i' - i < 2 := by exact_mod_cast hd1
  have hd2' : -2 < i' - i := by exact_mod_cast hd2
  obtain h | h | h : i' = i ∨ i' = i + 1 ∨ i = i' + 1 := by omega
  · subst h
    have := pieceWeight_lip t ht N c i' (z := z) (z' := z') (by linarith) (by linarith) (by linarith) (by linarith)
    linarith
  · subst h
    push_cast at h3 h4
    have a := pieceWeight_lip t ht N c i (z := z) (z' := (i : K) + (pieceLo t + 1)) (by linarith) (by linarith) (by linarith) (by linarith)
    have b := pieceWeight_lip t ht N c (i + 1) (z := (i : K) + (pieceLo t + 1)) (z' := z') (by push_cast; linarith) (by push_cast; linarith)
      (by push_cast; linarith) (by push_cast; linarith)
    rw [← pieceWeight_glue t ht] at b
    have a' : |z - ((i : K) + (pieceLo t + 1))| ≤ 2 * η := by rw [abs_le]; constructor <;> linarith
    have b' : |(i : K) + (pieceLo t + 1) - z'| ≤ η := by rw [abs_le]; constructor <;> linarith
    have := abs_sub_le (pieceWeight t N c i z) (pieceWeight t N c i ((i : K) + (pieceLo t + 1))) (pieceWeight t N c (i + 1) z')
    linarith
  · subst h
    push_cast at h1 h2
    have a := pieceWeight_lip t ht N c (i' + 1) (z := z) (z' := (i' : K) + (pieceLo t + 1)) (by push_cast; linarith) (by push_cast; linarith)
      (by push_cast; linarith) (by push_cast; linarith)
    have b := pieceWeight_lip t ht N c i' (z := (i' : K) + (pieceLo t + 1)) (z' := z') (by linarith) (by linarith) (by linarith) (by linarith)
    rw [pieceWeight_glue t ht] at b
    have a' : |z - ((i' : K) + (pieceLo t + 1))| ≤ 2 * η := by rw [abs_le]; constructor <;> linarith
    have b' : |(i' : K) + (pieceLo t + 1) - z'| ≤ η := by rw [abs_le]; constructor <;> linarith
    have := abs_sub_le (pieceWeight t N c (i' + 1) z) (pieceWeight t N c (i' + 1) ((i' : K) + (pieceLo t + 1))) (pieceWeight t N c i' z')
    linarith

/-- Moving particle and cell by whole cells. -/
theorem pieceWeight_shift (t : Tuned) {N : ℕ} (s : ℤ) {c : ℤ} (h0 : 0 ≤ c) (h1 : c < N) (h2 : 0 ≤ s + c) (h3 : s + c < N) (i : ℤ) (z : K) :
    pieceWeight t N (s + c) (i + s) (z + s) = pieceWeight t N c i z := by
  unfold pieceWeight
  congr 1
  apply List.map_congr_left
  intro q _
  have e : (i + s + q.1) % (N : ℤ) = s + c ↔ (i + q.1) % (N : ℤ) = c := by
    have a : (i + s + q.1) % (N : ℤ) = s + c ↔ (i + s + q.1) % (N : ℤ) = (s + c) % (N : ℤ) := by rw [Int.emod_eq_of_lt h2 h3]
    have b : (i + q.1) % (N : ℤ) = c ↔ (i + q.1) % (N : ℤ) = c % (N : ℤ) := by rw [Int.emod_eq_of_lt h0 h1]
    rw [a, b, Int.emod_eq_emod_iff_emod_sub_eq_zero, Int.emod_eq_emod_iff_emod_sub_eq_zero, show i + s + q.1 - (s + c) = i + q.1 - c by ring]
  simp only [e]
  push_cast
  rw [show z + (s : K) - (i + s) = z - i by ring]

/-- The pieces of the base cell are nonnegative and add up to one. -/
theorem pieces_nonneg (t : Tuned) {f : K} (h1 : pieceLo t ≤ f) (h2 : f ≤ pieceLo t + 1) : ∀ q ∈ pieces t, 0 ≤ q.2 f := by
  intro q hq
  cases t with
  | nnb =>
    simp only [pieces, List.mem_cons, List.not_mem_nil, or_false] at hq
    rw [hq]; norm_num
  | cic =>
    simp only [pieces, pieceLo, List.mem_cons, List.not_mem_nil, or_false] at hq h1 h2
    rcases hq with rfl | rfl <;> simp only <;> linarith
  | tsc =>
    simp only [pieces, pieceLo, List.mem_cons, List.not_mem_nil, or_false] at hq h1 h2
    rcases hq with rfl | rfl | rfl <;> simp only <;> nlinarith
  | pcs =>
    simp only [pieces, pieceLo, List.mem_cons, List.not_mem_nil, or_false, zero_add] at hq h1 h2
    have g1 : 0 ≤ 1 - f := by linarith
    have g2 := mul_nonneg (mul_nonneg h1 h1) h1
    have g3 := mul_nonneg (mul_nonneg g1 g1) g1
    have g4 := mul_nonneg h1 g1
    rcases hq with rfl | rfl | rfl | rfl <;> simp only <;> nlinarith

theorem pieces_sum (t : Tuned) (f : K) : ((pieces t).map fun q => q.2 f).sum = 1 := by
  cases t <;> simp [pieces] <;> ring

theorem pieceWeight_mem (t : Tuned) (N : ℕ) (c i : ℤ) {z : K} (h1 : pieceLo t ≤ z - i) (h2 : z - i ≤ pieceLo t + 1) :
    0 ≤ pieceWeight t N c i z ∧ pieceWeight t N c i z ≤ 1 := by
  have h := pieces_nonneg t h1 h2
  constructor
  · apply List.sum_nonneg
    intro y hy
    obtain ⟨q, hq, rfl⟩ := List.mem_map.1 hy
    split_ifs
    · exact h q hq
    · exact le_refl _
  · rw [← pieces_sum t (z - i)]
    apply List.sum_le_sum
    intro q hq
    split_ifs
    · exact le_refl _
    · exact h q hq

end
end Pmesh
