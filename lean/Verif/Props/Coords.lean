import Verif.Model.Field
import Mathlib.Algebra.Field.Basic
import Mathlib.Algebra.CharZero.Defs
import Mathlib.Tactic.Ring
import Mathlib.Tactic.FieldSimp
import Mathlib.Tactic.NormNum
import Mathlib.Data.Rat.Defs
import Mathlib.Algebra.Order.Field.Rat
import Mathlib.Data.Int.ModEq

/-!
# C26: coordinates are in range and congruent to the mesh index

Violated when a mesh size is odd: the index `N // 2` gets the coordinate `-(N // 2 + 1)`.
-/

namespace Pmesh

/-- `z` is the representative of the index `i` modulo `N` inside `[-N/2, N/2)`. -/
def Representative (N : ℕ) (i z : ℤ) : Prop := z ≡ i [ZMOD N] ∧ -(N : ℤ) ≤ 2 * z ∧ 2 * z < N

theorem wrapIndex_rep {N : ℕ} {i : ℤ} (h0 : 0 ≤ i) (hi : i < N) (hodd : N % 2 = 0 ∨ i ≠ ((N / 2 : ℕ) : ℤ)) :
    Representative N i (wrapIndex N i) := by
  unfold wrapIndex Representative
  split
  · refine ⟨?_, by omega, by omega⟩
    exact Int.modEq_iff_dvd.2 ⟨1, by ring⟩
  · exact ⟨rfl, by omega, by omega⟩

section
variable {K : Type} [Field K]

/-- **C26** (partial: even mesh sizes, or not the index `N // 2`).  Of the local array that starts at `start` and has `len`
elements along an axis of `N` cells and length `box`, the coordinates of element `j` are `z · box / N` for a `RealField`,
`2π z / box` (wavenumber) and `2π z / N` (circular frequency) for a `ComplexField`, where `z` is the representative of the
global index `start + j` modulo `N` inside `[-N/2, N/2)`. -/
theorem C26_coords_partial (pi box : K) (start len N j : ℕ) (hj : j < len) (hle : start + len ≤ N) (hN : (N : K) ≠ 0)
    (hbox : box ≠ 0) (hodd : N % 2 = 0 ∨ start + j ≠ N / 2) :
    (indexAxis start len)[j]? = some ((start + j : ℕ) : ℤ) ∧
    ∃ z : ℤ, Representative N ((start + j : ℕ) : ℤ) z ∧
      (relAxis start len N box)[j]? = some ((z : K) * (box / (N : K))) ∧
      (wavAxis pi start len N box)[j]? = some (2 * pi * (z : K) / box) ∧
      (circAxis pi start len N box)[j]? = some (2 * pi * (z : K) / (N : K)) := by
  have hidx : (indexAxis start len)[j]? = some ((start + j : ℕ) : ℤ) := by
    simp [indexAxis, List.getElem?_range hj, add_comm]
  refine ⟨hidx, wrapIndex N ((start + j : ℕ) : ℤ), wrapIndex_rep (by omega) (by omega) ?_, ?_, ?_, ?_⟩
  · rcases hodd with h | h
    · exact Or.inl h
    · exact Or.inr (by exact_mod_cast h)
  · rw [relAxis, List.getElem?_map, hidx]
    simp only [Option.map_some, Option.some.injEq]
    ring
  · rw [wavAxis, List.getElem?_map, hidx]
    simp only [Option.map_some, Option.some.injEq]
    field_simp
  · rw [circAxis, wavAxis, List.getElem?_map, List.getElem?_map, hidx]
    simp only [Option.map_some, Option.some.injEq]
    field_simp

/-- **C26**, opposite modes (partial: even mesh size, or neither index is `N // 2`).  The wavenumbers of two indices that
add up to 0 modulo `N` are opposite, unless the indices are the Nyquist index, which is its own opposite. -/
theorem C26_opposite_partial (pi box : K) (N : ℕ) (i i' : ℕ) (hi : i < N) (hi' : i' < N) (hsum : (i + i') % N = 0)
    (hn : i ≠ N / 2) (hn' : i' ≠ N / 2) (k k' : K) (hk : (wavAxis pi 0 N N box)[i]? = some k)
    (hk' : (wavAxis pi 0 N N box)[i']? = some k') : k' = -k := by
  have hget : ∀ a < N, (wavAxis pi 0 N N box)[a]? =
      some ((wrapIndex N a : K) * (2 * pi / (N : K)) * (N : K) / box) := by
    intro a ha
    simp [wavAxis, indexAxis, List.getElem?_range ha]
  rw [hget i hi, Option.some.injEq] at hk
  rw [hget i' hi', Option.some.injEq] at hk'
  have hw : wrapIndex N i' = -wrapIndex N i := by
    obtain ⟨q, hq⟩ := Nat.dvd_of_mod_eq_zero hsum
    have : q = 0 ∨ q = 1 := by
      have : q < 2 := by
        by_contra h
        have : N * 2 ≤ N * q := Nat.mul_le_mul_left _ (by omega)
        omega
      omega
    unfold wrapIndex
    rcases this with rfl | rfl
    · have h1 : i = 0 := by omega
      have h2 : i' = 0 := by omega
      subst h1; subst h2
      rw [if_neg (by omega)]
      simp
    · by_cases h : i < N / 2
      · rw [if_pos (by omega), if_neg (by omega)]
        omega
      · rw [if_neg (by omega), if_pos (by omega)]
        omega
  rw [← hk, ← hk', hw]
  push_cast
  ring

/-- The Nyquist index of an even mesh has the coordinate `-N/2`. -/
theorem C26_nyquist (N : ℕ) : wrapIndex (2 * N) N = -N := by
  unfold wrapIndex
  rw [if_pos (by omega)]
  push_cast
  ring

end

/-! ## Non-vacuity and violations -/

example := C26_coords_partial (22 / 7 : ℚ) 5 2 2 6 1 (by decide) (by decide) (by norm_num) (by norm_num) (Or.inl rfl)
example := C26_coords_partial (22 / 7 : ℚ) 5 0 3 7 2 (by decide) (by decide) (by norm_num) (by norm_num) (Or.inr (by decide))
example := C26_opposite_partial (22 / 7 : ℚ) 5 6 1 5 (by decide) (by decide) (by decide) (by decide) (by decide) _ _ rfl rfl

/-- **C26 violated** for odd mesh sizes: on 5 cells the index 2 gets the coordinate -3 (in units of the cell size), outside
`[-5/2, 5/2)`; and the opposite index 3 gets -2, which is not the negative. -/
theorem C26_violated_odd :
    relAxis 0 5 5 (5 : ℚ) = [0, 1, -3, -2, -1] ∧ ¬ ∃ z : ℤ, Representative 5 2 z ∧ (z : ℚ) = -3 := by
  refine ⟨by decide +kernel, ?_⟩
  rintro ⟨z, ⟨_, h, _⟩, hz⟩
  have : z = -3 := by exact_mod_cast hz
  omega

/-- **C26 violated** for a mesh of one cell: the zero mode has the wavenumber `-2π / box`, not 0. -/
theorem C26_violated_one (pi : ℚ) : wavAxis pi 0 1 1 (1 : ℚ) = [-(2 * pi)] := by
  simp [wavAxis, indexAxis, wrapIndex]

#print axioms C26_coords_partial
#print axioms C26_opposite_partial
#print axioms C26_nyquist
#print axioms C26_violated_odd
#print axioms C26_violated_one

end Pmesh
