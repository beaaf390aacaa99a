import Verif.Lemmas.LoadTypes
import Verif.Props.Int16
import Verif.Spec.Balance

/-!
# C124: the load of large domains

`loadT` is `GridND.load` with 64-bit integers and doubles, `load` (C10) has integers of any size.
-/

namespace Pmesh

section
variable {K : Type*} [Field K] [LinearOrder K] [IsStrictOrderedRing K] [FloorRing K]

/-- **C124.**  If every rank has particles and the `gamma`-th power of the number of all particles is less than `2 ^ 63`, then `load` is the load of C10 (or
raises the same exception). -/
theorem C124_integers_partial (rnd : ℤ → ℤ) (hr : ∀ z : ℤ, 0 ≤ z → z ≤ 9007199254740992 → rnd z = z) (g : Grid K) (gamma : ℕ)
    (pos : List (List (List K))) (hne : pos ≠ []) (hall : ∀ P ∈ pos, P ≠ [])
    (hN : pos.flatten.length < 9223372036854775808) (hNg : pos.flatten.length ^ gamma < 9223372036854775808) :
    (loadT rnd g gamma pos).map LoadArr.vals = (load g gamma pos).map fun l => l.map Nat.cast :=
  loadT_eq hr g gamma pos hne le_rfl hN hNg fun h => absurd rfl (hall _ h)

/-- **C124.**  If some ranks may be empty, the same up to `2 ^ 53`, where doubles are exact. -/
theorem C124_doubles_partial (rnd : ℤ → ℤ) (hr : ∀ z : ℤ, 0 ≤ z → z ≤ 9007199254740992 → rnd z = z) (g : Grid K) (gamma : ℕ)
    (pos : List (List (List K))) (hne : pos ≠ [])
    (hN : pos.flatten.length ≤ 9007199254740992) (hNg : pos.flatten.length ^ gamma ≤ 9007199254740992) :
    (loadT rnd g gamma pos).map LoadArr.vals = (load g gamma pos).map fun l => l.map Nat.cast :=
  loadT_eq hr g gamma pos hne le_rfl (lt_of_le_of_lt hN (by norm_num)) (lt_of_le_of_lt hNg (by norm_num)) fun _ => ⟨hN, hNg⟩

/-- **C124.**  The result is an array of doubles exactly if some rank has no particles. -/
theorem C124_type (rnd : ℤ → ℤ) (g : Grid K) (gamma : ℕ) (pos : List (List (List K))) (A : LoadArr) (h : loadT rnd g gamma pos = some A) :
    (∃ l, A = .float l) ↔ [] ∈ pos := by
  rw [← loadT_float h]
  cases A <;> simp [LoadArr.IsFloat]

end

example := C124_type id (unitGrid 3) 2 [[[1 / 2], [3 / 2]], [], [[1 / 4]]] (.float [4, 1, 0]) (by decide +kernel)

example := C124_integers_partial id (fun _ _ _ => rfl) (unitGrid 3) 2 [[[1 / 2], [3 / 2]], [[1 / 4]]] (by simp) (by simp) (by simp) (by simp)

example : (loadT id (unitGrid 3) 2 [[[1 / 2], [3 / 2]], [], [[1 / 4]]]).map LoadArr.vals = some [4, 1, 0] :=
  (C124_doubles_partial id (fun _ _ _ => rfl) (unitGrid 3) 2 [[[1 / 2], [3 / 2]], [], [[1 / 4]]] (by simp) (by simp) (by simp)).trans
    (by decide +kernel)

theorem bincount_three (d : List ℕ) : bincount d 3 = [d.count 0, d.count 1, d.count 2] := by
  apply List.ext_getElem (by simp [bincount_length])
  intro i h1 h2
  rw [← List.getD_eq_getElem _ 0, bincount_getD d (by simpa [bincount_length] using h1)]
  simp only [List.length_cons, List.length_nil] at h2
  interval_cases i <;> rfl

/-- The particles of two ranks: `m` in each of the first two domains and one in the third. -/
def heavyParticles (m : ℕ) : List (List (List ℚ)) := [List.replicate m [1 / 2], List.replicate m [3 / 2] ++ [[5 / 2]]]

/-- The same particles, all on the first rank. -/
def heavyOnOne (m : ℕ) : List (List (List ℚ)) := [List.replicate m [1 / 2] ++ (List.replicate m [3 / 2] ++ [[5 / 2]]), []]

theorem heavy_dom (m : ℕ) : (List.replicate m ([1 / 2] : List ℚ)).mapM (loadDomain (unitGrid 3)) = some (List.replicate m 0) ∧
    (List.replicate m ([3 / 2] : List ℚ) ++ [[5 / 2]]).mapM (loadDomain (unitGrid 3)) = some (List.replicate m 1 ++ [2]) := by
  have h1 : loadDomain (unitGrid 3) [1 / 2] = some 0 := by decide +kernel
  have h2 : loadDomain (unitGrid 3) [3 / 2] = some 1 := by decide +kernel
  have h3 : loadDomain (unitGrid 3) [5 / 2] = some 2 := by decide +kernel
  constructor
  · rw [mapM_option_some (g := fun _ => 0) _ (fun a ha => by rw [List.eq_of_mem_replicate ha, h1]), List.map_replicate]
  · rw [List.mapM_append, mapM_option_some (g := fun _ => 1) (List.replicate m _) (fun a ha => by rw [List.eq_of_mem_replicate ha, h2]), List.map_replicate]
    simp [h3]

theorem unitGrid_three : (unitGrid 3).size = 3 := by decide

theorem wrapInt64_square {m : ℕ} (hm : m = 4294967296) : wrapInt64 (wrapInt64 ((m : ℤ) + (0 : ℕ)) ^ 2) = 0 ∧
    wrapInt64 (wrapInt64 (((0 : ℕ) : ℤ) + m) ^ 2) = 0 := by
  subst hm
  exact ⟨by decide +kernel, by decide +kernel⟩

/-- **C124 violated** on grids with `2 ^ 32` particles in a domain, for the default `gamma = 2`.  The load of these domains is 0 if both ranks
have particles, and `loadbalance` puts both heavy domains on the same rank; if one rank has all particles, the loads are right and the heavy domains go
to different ranks. -/
theorem C124_violated_square (rnd : ℤ → ℤ) (hr : ∀ z : ℤ, 0 ≤ z → z ≤ 9007199254740992 → rnd z = z)
    (hr64 : rnd 18446744073709551616 = 18446744073709551616) (m : ℕ) (hm : m = 4294967296) :
    (loadT rnd (unitGrid 3) 2 (heavyParticles m)).map LoadArr.vals = some [0, 0, 1] ∧
    loadbalance [0, 1, 2] 2 ([0, 0, 1] : List ℤ) = [1, 1, 0] ∧
    (heavyOnOne m).flatten = (heavyParticles m).flatten ∧
    (loadT rnd (unitGrid 3) 2 (heavyOnOne m)).map LoadArr.vals = some [18446744073709551616, 18446744073709551616, 1] ∧
    loadbalance [0, 1, 2] 2 ([18446744073709551616, 18446744073709551616, 1] : List ℤ) = [1, 0, 0] := by
  have hpos : (List.replicate m ([1 / 2] : List ℚ)).length ≠ 0 := by rw [List.length_replicate]; omega
  obtain ⟨hd1, hd2⟩ := heavy_dom m
  obtain ⟨hw1, hw2⟩ := wrapInt64_square hm
  refine ⟨?_, by decide +kernel, by simp [heavyOnOne, heavyParticles], ?_, by decide +kernel⟩
  · have l1 : loadLocalT (loadDomain (unitGrid 3)) (unitGrid 3).size (List.replicate m [1 / 2]) = some (.int [(m : ℤ), ((0 : ℕ) : ℤ), ((0 : ℕ) : ℤ)]) := by
      unfold loadLocalT
      rw [if_pos hpos, hd1, unitGrid_three]
      simp [bincount_three, List.count_replicate]
    have l2 : loadLocalT (loadDomain (unitGrid 3)) (unitGrid 3).size (List.replicate m [3 / 2] ++ [[5 / 2]]) =
        some (.int [((0 : ℕ) : ℤ), (m : ℤ), ((1 : ℕ) : ℤ)]) := by
      unfold loadLocalT
      rw [if_pos (by simp), hd2, unitGrid_three]
      simp [bincount_three, List.count_replicate]
    unfold loadT heavyParticles
    rw [List.mapM_cons, List.mapM_cons, List.mapM_nil, l1, l2]
    have : wrapInt64 (wrapInt64 (((0 : ℕ) : ℤ) + ((1 : ℕ) : ℤ)) ^ 2) = 1 := by decide +kernel
    refine (congrArg some (?_ : [wrapInt64 (wrapInt64 ((m : ℤ) + (0 : ℕ)) ^ 2), wrapInt64 (wrapInt64 (((0 : ℕ) : ℤ) + m) ^ 2),
      wrapInt64 (wrapInt64 (((0 : ℕ) : ℤ) + ((1 : ℕ) : ℤ)) ^ 2)] = [0, 0, 1]))
    rw [hw1, hw2, this]
  · have l1 : loadLocalT (loadDomain (unitGrid 3)) (unitGrid 3).size (List.replicate m [1 / 2] ++ (List.replicate m [3 / 2] ++ [[5 / 2]])) =
        some (.int [(m : ℤ), (m : ℤ), 1]) := by
      unfold loadLocalT
      rw [if_pos (by simp), List.mapM_append, hd1, hd2, unitGrid_three]
      simp [bincount_three, List.count_replicate]
    have l2 : loadLocalT (loadDomain (unitGrid 3)) (unitGrid 3).size ([] : List (List ℚ)) = some (.float [0, 0, 0]) := rfl
    unfold loadT heavyOnOne
    rw [List.mapM_cons, List.mapM_cons, List.mapM_nil, l1, l2]
    have hmr : rnd (m : ℤ) = m := rnd_nat hr (by omega)
    have h1 : rnd 1 = 1 := hr 1 (by norm_num) (by norm_num)
    have hsq : rnd (rnd (rnd (m : ℤ) + 0) ^ 2) = 18446744073709551616 := by
      rw [hmr, add_zero, hmr, hm, ← hr64]
      norm_num
    have h11 : rnd (rnd (rnd 1 + 0) ^ 2) = 1 := by
      rw [h1, add_zero, h1, one_pow, h1]
    refine (congrArg some (?_ : [rnd (rnd (rnd (m : ℤ) + 0) ^ 2), rnd (rnd (rnd (m : ℤ) + 0) ^ 2), rnd (rnd (rnd 1 + 0) ^ 2)] = _))
    rw [hsq, h11]

example := C124_violated_square id (fun _ _ _ => rfl) rfl 4294967296 rfl

#print axioms C124_integers_partial
#print axioms C124_doubles_partial
#print axioms C124_type
#print axioms C124_violated_square

end Pmesh
