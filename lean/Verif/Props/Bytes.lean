import Verif.Model.Bytes
import Verif.Props.Window

/-! # C16: the bytes that painting and reading out touch -/

namespace Pmesh

section
variable {K : Type*} [Field K] [LinearOrder K] [IsStrictOrderedRing K] [FloorRing K]

/-- Byte `b` belongs to an element of the array. -/
def InElement (axes : List (PAxis K)) (itemsize : ℕ) (b : ℤ) : Prop :=
  ∃ c, ValidIndex (shapeOf axes) c ∧ elemAddr axes c ≤ b ∧ b < elemAddr axes c + itemsize

/-- **C16**, bytes: for arrays of single or double precision every byte that painting or reading out touches belongs to an element of the array,
for every position.  The strides are in bytes. -/
theorem C16_bytes_partial (P : Painter K) (hP : P.Valid) (pos : List K) (hl : pos.length = P.axes.length) (weight h : K) (itemsize : ℕ)
    (hi : itemsize = 4 ∨ itemsize = 8) :
    ∃ ws rs, paintWrites P pos weight h = some ws ∧ readoutReads P pos h = some rs ∧
      (∀ b ∈ touchedBytes itemsize ws, InElement P.axes itemsize b) ∧ (∀ b ∈ touchedBytes itemsize rs, InElement P.axes itemsize b) := by
  obtain ⟨ws, rs, h1, h2, h3, h4⟩ := C16_in_array P hP pos hl weight h
  have key : ∀ acc : List (ℤ × K), (∀ w ∈ acc, ∃ c, ValidIndex (shapeOf P.axes) c ∧ w.1 = elemAddr P.axes c) →
      ∀ b ∈ touchedBytes itemsize acc, InElement P.axes itemsize b := by
    intro acc hacc b hb
    obtain ⟨w, hw, hb⟩ := List.mem_flatMap.1 hb
    obtain ⟨k, hk, rfl⟩ := List.mem_map.1 hb
    obtain ⟨c, hc, e⟩ := hacc w hw
    have hk' := List.mem_range.1 hk
    refine ⟨c, hc, by omega, ?_⟩
    rcases hi with rfl | rfl <;> simp only [accessWidth] at hk' <;> norm_num at hk' <;> omega
  exact ⟨ws, rs, h1, h2, key ws h3, key rs h4⟩

/-- **C16 violated** for half precision (`f2`): painting into the element of the array with the highest address touches two bytes
behind the array. -/
theorem C16_violated_half (P : Painter K) (pos : List K) (weight h : K) {ws : List (ℤ × K)} (hw : paintWrites P pos weight h = some ws)
    {w : ℤ × K} (hmem : w ∈ ws) (htop : ∀ c, ValidIndex (shapeOf P.axes) c → elemAddr P.axes c ≤ w.1) :
    w.1 + 2 ∈ touchedBytes 2 ws ∧ w.1 + 3 ∈ touchedBytes 2 ws ∧ ∀ b, w.1 + 2 ≤ b → ¬ InElement P.axes 2 b := by
  refine ⟨?_, ?_, ?_⟩
  · exact List.mem_flatMap.2 ⟨w, hmem, List.mem_map.2 ⟨2, by simp [accessWidth], rfl⟩⟩
  · exact List.mem_flatMap.2 ⟨w, hmem, List.mem_map.2 ⟨3, by simp [accessWidth], rfl⟩⟩
  · rintro b hb ⟨c, hc, h1, h2⟩
    have := htop c hc
    push_cast at h2
    omega

end

/-- The tuned cic painter on four cells of single precision, and of half precision. -/
def exCicBytes (itemsize : ℤ) : Painter ℚ := ⟨linearK, some .cic, 2, [⟨0, 1, 0, 4, 4, itemsize⟩]⟩

example := C16_bytes_partial (exCicBytes 4) ⟨by decide, by decide, by intro t ht; cases ht; rfl⟩ [9 / 4] (by decide) 1 1 4 (.inl rfl)

/-- A particle next to the last of the four cells: the bytes 8 and 9 behind the array of eight bytes are changed. -/
example : (8 : ℤ) ∈ touchedBytes 2 ((paintWrites (exCicBytes 2) [9 / 4] 1 1).getD []) ∧
    (9 : ℤ) ∈ touchedBytes 2 ((paintWrites (exCicBytes 2) [9 / 4] 1 1).getD []) := by
  have hw : paintWrites (exCicBytes 2) [9 / 4] 1 1 = some [(4, 3 / 4), (6, 1 / 4)] := by decide +kernel
  have h := C16_violated_half (exCicBytes 2) [9 / 4] 1 1 hw (w := (6, 1 / 4)) (by simp) (by
    intro c hc
    rw [← mem_ndindex] at hc
    revert c
    decide +kernel)
  rw [hw]
  exact ⟨h.1, h.2.1⟩

end Pmesh

#print axioms Pmesh.C16_bytes_partial
#print axioms Pmesh.C16_violated_half
