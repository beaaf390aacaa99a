import Verif.Lemmas.InvariantC
import Verif.Props.Invariant

/-!
# C122: the scale invariant index does not overflow

`getIndexC` computes with the integers of C and the cache of sizes, `getIndex` (C45 to C47) with unbounded integers and without cache.
-/

namespace Pmesh

/-- **C122.**  For meshes with at most `N` points along each of `d` axes with `(N + 1) ^ d < 2 ^ 63` (`ptrdiff_t`), no calculation overflows, whatever the mode,
the storage and the largest index, and the result is the index of C45 to C47. -/
theorem C122_exact_partial {x : List ℤ} {nmesh : List ℕ} (hl : x.length = nmesh.length) (h0 : nmesh ≠ []) (h30 : nmesh.length ≤ 30)
    (hn : ∀ n ∈ nmesh, 0 < n) {N : ℕ} (hN : ∀ n ∈ nmesh, n ≤ N) (h32 : N ≤ 4294967295) (hV : (N + 1) ^ nmesh.length < 2 ^ 63)
    (compressed : Bool) (maxlength : Option ℤ) (hml : ∀ m ∈ maxlength, m < 9223372036854775808) :
    getIndexC x nmesh compressed maxlength = some (getIndex x nmesh compressed maxlength) := by
  by_cases hx : InMesh x nmesh
  · rw [getIndex_eq hn hx]
    have hlen := foldMode_length hx
    have hS : 2 * absmax (foldMode x nmesh) ≤ N := by
      have : absmax (foldMode x nmesh) ≤ N / 2 := absmax_le_iff.2 fun a ha => by
        obtain ⟨n, hn', h⟩ := mem_foldMode ha hx hn
        have := hN n hn'
        omega
      omega
    have := invariantIndexC_ok (k := x.length) (x := foldMode x nmesh) (cm := cmaskOf x.length compressed) hlen.le (by omega)
      (by rw [hlen]; exact cmaskOf_lt (by rw [hl]; simpa using h0) compressed) (by omega)
      (by rw [hlen, hl]; exact lt_of_le_of_lt (Nat.pow_le_pow_left (by omega) _) hV) (ml := maxlength.getD (-1))
      (by cases maxlength with
        | none => exact lt_trans (by decide) ptrEnd_pos
        | some m => exact hml m rfl)
    rw [← this]
    unfold getIndexC
    simp only
    exact if_neg (fun h' => (foldMode_bad hl hn).1 h' hx)
  · rw [getIndex_bad hl hn hx]
    unfold getIndexC
    simp only
    exact if_pos ((foldMode_bad hl hn).2 hx)

/-- A cubic mesh of 2097150 points along each of three axes is within the bound. -/
example := C122_exact_partial (x := [-7, 3, 1048575]) (nmesh := [2097150, 2097150, 2097150]) rfl (by decide) (by decide) (by decide)
  (N := 2097150) (by decide) (by decide) (by norm_num) true (some 1000) (by decide)

/-- **C122 violated** for 2^22 points along three axes: the size of the cube inside the shell of the Nyquist mode is not a `ptrdiff_t`, although
the mode is one of the mesh. -/
theorem C122_violated_large : FFTMode [-2097152, 0, 0] [4194304, 4194304, 4194304] ∧
    getIndexC [-2097152, 0, 0] [4194304, 4194304, 4194304] false none = none ∧
    getIndexC [-2097152, 0, 0] [4194304, 4194304, 4194304] false (some 1000) = none := by
  refine ⟨?_, by decide +kernel, by decide +kernel⟩
  simp [FFTMode]

#print axioms C122_exact_partial
#print axioms C122_violated_large

end Pmesh
