import Verif.Model.Int16
import Verif.Lemmas.Load

set_option linter.unusedSectionVars false

namespace Pmesh

theorem toInt16_eq {x : ℤ} (h0 : -32768 ≤ x) (h1 : x ≤ 32767) : toInt16 x = x := by unfold toInt16; omega

theorem wrapInt32_eq {x : ℤ} (h0 : -2147483648 ≤ x) (h1 : x ≤ 2147483647) : wrapInt32 x = x := by unfold wrapInt32; omega

section
variable {K : Type*} [Field K] [LinearOrder K] [IsStrictOrderedRing K] [FloorRing K]

theorem axisRange_periodic_bounds {e : List K} (h : EdgesOK e) (s x : K) :
    1 - ((e.length - 1 : ℕ) : ℤ) ≤ (axisRange true e s x).1 ∧ (axisRange true e s x).1 ≤ ((e.length - 1 : ℕ) : ℤ) ∧
      0 ≤ (axisRange true e s x).2 ∧ (axisRange true e s x).2 ≤ 2 * ((e.length - 1 : ℕ) : ℤ) - 1 := by
  have h2 := h.two
  have hn : (0 : ℤ) < ((e.length - 1 : ℕ) : ℤ) := by omega
  have hb := h.last_pos
  have hp := h.digitize_spec (pyMod_nonneg x hb) (pyMod_lt x hb)
  simp only [axisRange, if_true]
  generalize (digitize (pyMod (pyMod x (e.getLastD 0) - s) (e.getLastD 0)) e : ℤ) = l
  generalize (digitize (pyMod (pyMod x (e.getLastD 0) + s) (e.getLastD 0)) e : ℤ) = r
  obtain ⟨p1, p2, -⟩ := hp
  generalize digitize (pyMod x (e.getLastD 0)) e = p at *
  have a1 := Int.emod_nonneg ((p : ℤ) - l) hn.ne'
  have a2 := Int.emod_lt_of_pos ((p : ℤ) - l) hn
  have b1 := Int.emod_nonneg (r - (p : ℤ)) hn.ne'
  have b2 := Int.emod_lt_of_pos (r - (p : ℤ)) hn
  omega

theorem axisRange_open_bounds (e : List K) (s x : K) :
    0 ≤ (axisRange false e s x).1 ∧ (axisRange false e s x).1 ≤ ((e.length - 1 : ℕ) : ℤ) ∧
      0 ≤ (axisRange false e s x).2 ∧ (axisRange false e s x).2 ≤ ((e.length - 1 : ℕ) : ℤ) := by
  simp only [axisRange, clipInt, Bool.false_eq_true, if_false]
  omega

/-- `n + 1` edges at the integers. -/
def unitEdges (n : ℕ) : List K := (List.range (n + 1)).map fun i : ℕ => (i : K)

theorem unitEdges_length (n : ℕ) : (unitEdges (K := K) n).length = n + 1 := by simp [unitEdges]

theorem unitEdges_getD {n i : ℕ} (h : i ≤ n) : (unitEdges (K := K) n).getD i 0 = i := by
  unfold unitEdges
  rw [List.getD_eq_getElem _ _ (by simp; omega)]
  simp

theorem unitEdges_last (n : ℕ) : (unitEdges (K := K) n).getLastD 0 = n := by
  unfold unitEdges
  rw [List.range_succ]
  simp

theorem unitEdges_ok {n : ℕ} (hn : 1 ≤ n) : EdgesOK (unitEdges (K := K) n) := by
  refine ⟨?_, by rw [unitEdges_length]; omega, by rw [unitEdges_getD (by omega)]; simp, ?_⟩
  · unfold unitEdges
    rw [List.pairwise_map]
    refine List.pairwise_le_range.imp ?_
    intro a b h
    exact_mod_cast h
  · rw [unitEdges_last]
    exact_mod_cast hn

theorem unitEdges_digitize {n i : ℕ} (hi : i < n) {z : K} (h0 : (i : K) ≤ z) (h1 : z < i + 1) : digitize z (unitEdges n) = i + 1 := by
  refine (unitEdges_ok (by omega)).digitize_eq (D := i) (by rw [unitEdges_length]; omega) ?_ ?_
  · rw [unitEdges_getD (by omega)]; exact h0
  · rw [unitEdges_getD (by omega)]; push_cast; exact h1

end
end Pmesh
