import Verif.Lemmas.Norm
import Verif.Props.Field
import Verif.Spec.Abopt
import Mathlib.Tactic.FieldSimp

/-!
# C28: norms of compressed spectra equal the full-spectrum sums

Violated for an odd size of the last axis (the plane `N // 2` is not counted twice), and for the imaginary part of `cdot`.
-/

namespace Pmesh

section
variable {K : Type} [Field K]

theorem cnorm_sum (pi : K) (t : Tiling) (ht : t.OK) (hne : t.nmesh ≠ []) (hst : t.Storage)
    (heven : t.cshape ≠ t.nmesh → t.nmesh.getLastD 0 % 2 = 0) (box : List K) (metric2 : Option (K → K))
    (hmetric : metric2 = none ∨ t.cshape = t.nmesh ∨ ∀ n ∈ t.nmesh, n % 2 = 0) (norm : Cx K → K)
    (hnorm : ∀ z, norm (cxConj z) = norm z)
    (S : List ℕ → Cx K) (hS : HermitianSpectrum t.nmesh S) (f : ℕ → List ℕ → Cx K) (hf : t.Holds f S) :
    AllReturn t.nrank (fun r => cnorm pi t box metric2 norm r (f r)) fun _ =>
      some (((ndindex t.nmesh).map fun i => norm (S i) * (metric2.elim 1 fun m => m (kSquared pi t.nmesh box i))).sum, 0) := by
  set F : List ℕ → K := fun i => norm (S i) * (metric2.elim 1 fun m => m (kSquared pi t.nmesh box i)) with hFdef
  have key : ∃ comp, t.compressed = some comp ∧
      ((ndindex t.cshape).map fun i => (expandHermitian (K := K) t comp i (F i, 0)).1).sum = ((ndindex t.nmesh).map F).sum := by
    by_cases hc : t.cshape = t.nmesh
    · exact ⟨false, by simp [Tiling.compressed, hc], by simp [expandHermitian, hc]⟩
    · refine expanded_sum ht hst hne heven F ?_
      intro i hi
      rw [hFdef]
      dsimp only
      rw [hS i hi, hnorm]
      rcases hmetric with h | h | h
      · rw [h]; rfl
      · exact absurd h hc
      · rw [kSquared_opposite pi h box hi]
  obtain ⟨comp, hcomp, hsum⟩ := key
  unfold cnorm
  rw [hcomp]
  dsimp only
  refine AllReturn.coll ht.rank_pos ?_
  refine AllReturn.congr (fun _ _ => rfl) (fun r hr => ?_) (AllReturn.ret t.nrank _)
  congr 1
  symm
  have h1 : ((List.range t.nrank).map fun r => ((ndindex (t.lshape r)).map fun c =>
      expandHermitian t comp (t.global r c)
        ((norm (f r c) * (metric2.elim 1 fun m => m (kSquared pi t.nmesh box (t.global r c))), 0) : Cx K)).sum).sum =
      ((ndindex t.cshape).map fun i => expandHermitian t comp i ((F i, 0) : Cx K)).sum := by
    rw [← tiles_sum ht]
    congr 1
    apply List.map_congr_left
    intro r hr
    rw [List.mem_range] at hr
    congr 1
    apply List.map_congr_left
    intro c hc
    rw [hf r hr c (mem_ndindex.1 hc)]
  rw [h1]
  apply Prod.ext
  · rw [list_sum_fst]; exact hsum
  · rw [list_sum_snd]
    apply sum_zero_map
    intro i _
    exact expandHermitian_snd t comp i _

theorem cdot_sum [CharZero K] (pi : K) (t : Tiling) (ht : t.OK) (hne : t.nmesh ≠ []) (hst : t.Storage)
    (heven : t.cshape ≠ t.nmesh → t.nmesh.getLastD 0 % 2 = 0) (box : List K) (metric2 : Option (K → K))
    (hmetric : metric2 = none ∨ ∀ n ∈ t.nmesh, n % 2 = 0)
    (S T : List ℕ → Cx K) (hS : HermitianSpectrum t.nmesh S) (hT : HermitianSpectrum t.nmesh T)
    (f g : ℕ → List ℕ → Cx K) (hf : t.Holds f S) (hg : t.Holds g T) :
    ∃ re im : K, AllReturn t.nrank (fun r => cdot pi t box metric2 r (f r) (g r)) (fun _ => some (re, im)) ∧
      ((ndindex t.nmesh).map fun i => cxMul (cxMul (S i) (cxConj (T i)))
        (metric2.elim 1 fun m => m (kSquared pi t.nmesh box i), 0)).sum = (re, 0) := by
  set c : List ℕ → K := fun i => metric2.elim 1 fun m => m (kSquared pi t.nmesh box i) with hcdef
  have hc : ∀ i, ValidIndex t.nmesh i → c (opposite t.nmesh i) = c i := by
    intro i hi
    rw [hcdef]
    dsimp only
    rcases hmetric with h | h
    · rw [h]; rfl
    · rw [kSquared_opposite pi h box hi]
  set F : List ℕ → K := fun i => (cxMul (cxConj (T i)) (S i)).1 * c i with hFdef
  have hF : ∀ i, ValidIndex t.nmesh i → F (opposite t.nmesh i) = F i := by
    intro i hi
    rw [hFdef]
    dsimp only
    rw [hS i hi, hT i hi, hc i hi]
    simp only [cxMul, cxConj]
    ring
  obtain ⟨comp, hcomp, hsum⟩ := expanded_sum ht hst hne heven F hF
  set V : Cx K := ((List.range t.nrank).map fun r => ((ndindex (t.lshape r)).map fun i =>
    cxMul (expandHermitian t comp (t.global r i) (cxMul (cxConj (g r i)) (f r i))) (c (t.global r i), 0)).sum).sum with hV
  refine ⟨V.1, V.2, ?_, ?_⟩
  · unfold cdot
    rw [hcomp]
    dsimp only
    refine AllReturn.coll ht.rank_pos ?_
    exact AllReturn.congr (fun _ _ => rfl) (fun r hr => rfl) (AllReturn.ret t.nrank _)
  · have h1 : V = ((ndindex t.cshape).map fun i =>
        cxMul (expandHermitian t comp i (cxMul (cxConj (T i)) (S i))) (c i, 0)).sum := by
      rw [hV, ← tiles_sum ht]
      congr 1
      apply List.map_congr_left
      intro r hr
      rw [List.mem_range] at hr
      congr 1
      apply List.map_congr_left
      intro i hi
      rw [hf r hr i (mem_ndindex.1 hi), hg r hr i (mem_ndindex.1 hi)]
    apply Prod.ext
    · rw [list_sum_fst, h1, list_sum_fst]
      have h2 : ((ndindex t.cshape).map fun i =>
          (cxMul (expandHermitian t comp i (cxMul (cxConj (T i)) (S i))) (c i, 0)).1) =
          (ndindex t.cshape).map fun i => (expandHermitian (K := K) t comp i (F i, 0)).1 := by
        apply List.map_congr_left
        intro i _
        rw [hFdef]
        dsimp only
        rw [← expandHermitian_smul, ← expandHermitian_fst]
        simp [cxMul]
      rw [h2, hsum]
      congr 1
      apply List.map_congr_left
      intro i _
      rw [hFdef]
      simp only [cxMul, cxConj]
      ring
    · rw [list_sum_snd]
      apply odd_sum
      intro i hi
      rw [hS i hi, hT i hi]
      have := hc i hi
      simp only [hcdef] at this
      rw [this]
      simp only [cxMul, cxConj]
      ring

/-- The square that the metric gets is that of the wavevector. -/
theorem kSquared_waveVector [CharZero K] (pi : K) {nmesh : List ℕ} (heven : ∀ n ∈ nmesh, n % 2 = 0) (box : List K) {i : List ℕ}
    (hi : ValidIndex nmesh i) : kSquared pi nmesh box i = ((waveVector pi nmesh box i).map fun k => k ^ 2).sum := by
  unfold kSquared waveVector
  induction hi generalizing box with
  | nil => simp
  | @cons n j ns js h _ ih =>
    cases box with
    | nil => simp
    | cons b box =>
      simp only [List.zipWith_cons_cons, List.zip_cons_cons, List.sum_cons, List.map_cons]
      rw [ih (fun n hn => heven n (by simp [hn]))]
      congr 2
      have hn0 : (n : K) ≠ 0 := by exact_mod_cast (by omega : n ≠ 0)
      have hw : wrapIndex n j = Int.bmod (j : ℤ) n := by
        have he := heven n (by simp)
        unfold wrapIndex Int.bmod
        have : (j : ℤ) % (n : ℤ) = j := Int.emod_eq_of_lt (by omega) (by omega)
        rw [this]
        dsimp only
        split_ifs <;> omega
      rw [hw]
      field_simp

theorem metric_waveVector [CharZero K] (pi : K) {nmesh : List ℕ} (box : List K) (metric2 : Option (K → K))
    (h : metric2 = none ∨ ∀ n ∈ nmesh, n % 2 = 0) {i : List ℕ} (hi : ValidIndex nmesh i) :
    (metric2.elim 1 fun m => m (kSquared pi nmesh box i)) =
      metric2.elim 1 fun m => m ((waveVector pi nmesh box i).map fun k => k ^ 2).sum := by
  rcases h with h | h
  · rw [h]; rfl
  · rw [kSquared_waveVector pi h box hi]

/-- **C28**, `cnorm` (partial: the compressed axis has an even size; with a metric, all axes).  For a Hermitian spectrum
`S`, of which the stored part is held by the local arrays `f`, and a norm that is the same for conjugate numbers, every
rank gets the sum over the full spectrum, weighted with the metric of the squared wavevector. -/
theorem C28_cnorm_partial [CharZero K] (pi : K) (t : Tiling) (ht : t.OK) (hne : t.nmesh ≠ []) (hst : t.Storage)
    (heven : t.cshape ≠ t.nmesh → t.nmesh.getLastD 0 % 2 = 0) (box : List K) (metric2 : Option (K → K))
    (hmetric : metric2 = none ∨ ∀ n ∈ t.nmesh, n % 2 = 0) (norm : Cx K → K)
    (hnorm : ∀ z, norm (cxConj z) = norm z)
    (S : List ℕ → Cx K) (hS : HermitianSpectrum t.nmesh S) (f : ℕ → List ℕ → Cx K) (hf : t.Holds f S) :
    AllReturn t.nrank (fun r => cnorm pi t box metric2 norm r (f r)) fun _ =>
      some (((ndindex t.nmesh).map fun i => norm (S i) *
        (metric2.elim 1 fun m => m ((waveVector pi t.nmesh box i).map fun k => k ^ 2).sum)).sum, 0) := by
  have := cnorm_sum pi t ht hne hst heven box metric2 (hmetric.imp id Or.inr) norm hnorm S hS f hf
  rwa [List.map_congr_left fun i hi => by rw [metric_waveVector pi box metric2 hmetric (mem_ndindex.1 hi)]] at this

/-- **C28**, `cdot` (partial: as above, and only the real part).  The sum of `S · conj T` over the full spectrum of two
Hermitian spectra, weighted with the metric, is the real part of `cdot`, which all ranks get. -/
theorem C28_cdot_partial [CharZero K] (pi : K) (t : Tiling) (ht : t.OK) (hne : t.nmesh ≠ []) (hst : t.Storage)
    (heven : t.cshape ≠ t.nmesh → t.nmesh.getLastD 0 % 2 = 0) (box : List K) (metric2 : Option (K → K))
    (hmetric : metric2 = none ∨ ∀ n ∈ t.nmesh, n % 2 = 0)
    (S T : List ℕ → Cx K) (hS : HermitianSpectrum t.nmesh S) (hT : HermitianSpectrum t.nmesh T)
    (f g : ℕ → List ℕ → Cx K) (hf : t.Holds f S) (hg : t.Holds g T) :
    ∃ re im : K, AllReturn t.nrank (fun r => cdot pi t box metric2 r (f r) (g r)) (fun _ => some (re, im)) ∧
      ((ndindex t.nmesh).map fun i => cxMul (cxMul (S i) (cxConj (T i)))
        (metric2.elim 1 fun m => m ((waveVector pi t.nmesh box i).map fun k => k ^ 2).sum, 0)).sum = (re, 0) := by
  obtain ⟨re, im, h1, h2⟩ := cdot_sum pi t ht hne hst heven box metric2 hmetric S T hS hT f g hf hg
  refine ⟨re, im, h1, ?_⟩
  rwa [List.map_congr_left fun i hi => by rw [metric_waveVector pi box metric2 hmetric (mem_ndindex.1 hi)]] at h2

end

/-! ## Examples and violations -/

/-- A Hermitian spectrum on four by four modes. -/
def exFull : List ℕ → Cx ℚ := fun i =>
  if i = [1, 1] then (1, 2) else if i = [3, 3] then (1, -2) else if i = [3, 0] then (5, 1) else if i = [1, 0] then (5, -1) else (0, 0)

theorem exFull_hermitian : HermitianSpectrum [4, 4] exFull := by
  intro i hi
  replace hi := mem_ndindex.2 hi
  revert i
  decide

example := C28_cnorm_partial (22 / 7) exTiling exTiling_ok (by decide) (Or.inr rfl) (by decide) [1, 2] (some fun k2 => k2 + 1)
  (Or.inr (by decide)) (fun z => z.1 ^ 2 + z.2 ^ 2) (by intro z; simp [cxConj]) exFull exFull_hermitian
  (fun r c => exFull (exTiling.global r c)) (fun _ _ _ _ => rfl)

example := C28_cdot_partial (22 / 7) exTiling exTiling_ok (by decide) (Or.inr rfl) (by decide) [1, 2] (some fun k2 => k2 + 1)
  (Or.inr (by decide)) exFull exFull exFull_hermitian exFull_hermitian
  (fun r c => exFull (exTiling.global r c)) (fun r c => exFull (exTiling.global r c)) (fun _ _ _ _ => rfl) (fun _ _ _ _ => rfl)

/-- Two by three modes, compressed to two by two. -/
def exOdd : Tiling := ⟨[2, 3], [2, 2], 1, fun _ => [0, 0], fun _ => [2, 2]⟩

/-- **C28 violated** for an odd size: the spectrum that is 1 everywhere (2 by 3 modes, sum of squares 6) gets the norm 4,
because the modes of the plane `3 // 2 = 1` are taken for a Nyquist plane and not counted twice. -/
theorem C28_violated_odd :
    exOdd.OK ∧ HermitianSpectrum [2, 3] (fun _ => ((1, 0) : Cx ℚ)) ∧
    AllReturn 1 (fun r => cnorm (22 / 7 : ℚ) exOdd [1, 1] none (fun z => z.1 ^ 2 + z.2 ^ 2) r fun _ => (1, 0))
      (fun _ => some (4, 0)) ∧
    ((ndindex [2, 3]).map fun _ => (1 : ℚ)).sum = 6 :=
  ⟨tiling_ok_of_decide (by decide), by intro i _; simp [cxConj], AllReturn.of_runAll 2 (by decide +kernel), by decide +kernel⟩

/-- **C28 violated** for the imaginary part of `cdot`: the sum over the full spectrum of two Hermitian spectra is real,
`cdot` is not. -/
theorem C28_violated_imag :
    HermitianSpectrum [4, 4] exFull ∧ HermitianSpectrum [4, 4] (fun i => if i = [1, 1] ∨ i = [3, 3] then ((1, 0) : Cx ℚ) else 0) ∧
    AllReturn 2 (fun r => cdot (22 / 7 : ℚ) exTiling [1, 1] none r (fun c => exFull (exTiling.global r c))
      (fun c => if exTiling.global r c = [1, 1] then (1, 0) else 0)) (fun _ => some (2, 4)) ∧
    ((ndindex [4, 4]).map fun i => cxMul (exFull i) (cxConj (if i = [1, 1] ∨ i = [3, 3] then (1, 0) else 0))).sum = (2, 0) := by
  refine ⟨exFull_hermitian, ?_, AllReturn.of_runAll 2 (by decide +kernel), by decide +kernel⟩
  intro i hi
  replace hi := mem_ndindex.2 hi
  revert i
  decide

#print axioms C28_cnorm_partial
#print axioms C28_cdot_partial
#print axioms C28_violated_odd
#print axioms C28_violated_imag

end Pmesh
