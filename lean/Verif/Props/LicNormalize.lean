import Verif.Lemmas.LicNormalize
import Verif.Props.Lic
import Verif.Props.Translate

/-!
# C120: with `normalize=True` line integral convolution follows directions only, pmesh/lic.py
-/

namespace Pmesh

/-- **C120, unit vectors.** After the normalisation the vector of every cell has length 1 and the old direction; where the old vector vanishes the
new one vanishes as well. -/
theorem C120_unit (vectors : List (ℤ → ℝ)) (a : ℤ) :
    (licNormalized vectors).length = vectors.length ∧
    vectorLength (licNormalized vectors) a = (if vectorLength vectors a = 0 then 0 else 1) ∧
    ∀ d < vectors.length, ((licNormalized vectors).getD d fun _ => 0) a * vectorLength vectors a = (vectors.getD d fun _ => 0) a := by
  refine ⟨by simp [licNormalized], ?_, ?_⟩
  · unfold vectorLength
    rw [licNormalized_sumsq, Real.sqrt_div (sumsq_nonneg _ _), Real.sqrt_sq (licAbs_pos _ _).le, licAbs_eq]
    change vectorLength vectors a / _ = if vectorLength vectors a = 0 then 0 else 1
    split_ifs with h
    · rw [h]; simp
    · exact div_self h
  · intro d hd
    rw [licNormalized_getD vectors hd, licAbs_eq]
    split_ifs with h
    · rw [List.getD_eq_getElem _ _ hd, vectorLength_zero h _ (List.getElem_mem hd)]; simp
    · exact div_mul_cancel₀ _ h

/-- **C120, directions.** If the vectors are multiplied by positive numbers, which may differ from cell to cell, every rank runs the same program, with the same
result; and normalising vectors beforehand changes nothing. -/
theorem C120_directions (m : PMesh ℝ) (w : Resampler ℝ) (vectors : List (ℤ → ℝ)) (texture : ℤ → ℝ) (kernel : ℝ → ℝ) (length ds : ℝ) (r : ℕ) :
    (∀ c : ℤ → ℝ, (∀ a, 0 < c a) → licN true m w (vectors.map fun v a => c a * v a) texture kernel length ds r =
      licN true m w vectors texture kernel length ds r) ∧
    licN true m w (licNormalized vectors) texture kernel length ds r = licN true m w vectors texture kernel length ds r ∧
    licN false m w (licNormalized vectors) texture kernel length ds r = licN true m w vectors texture kernel length ds r := by
  have h : ∀ c : ℤ → ℝ, (∀ a, 0 < c a) → licNormalized (vectors.map fun v a => c a * v a) = licNormalized vectors := by
    intro c hc
    rw [licNormalized_mul vectors c (fun a => (hc a).ne')]
    simp only [abs_of_pos (hc _), div_self (hc _).ne', one_mul, List.map_id']
  refine ⟨fun c hc => by simp [licN, h c hc], ?_, rfl⟩
  have h2 : licNormalized vectors = vectors.map fun v a => (licAbs vectors a)⁻¹ * v a := by
    unfold licNormalized
    simp only [div_eq_inv_mul]
  have h3 := h (fun a => (licAbs vectors a)⁻¹) (fun a => inv_pos.2 (licAbs_pos vectors a))
  rw [← h2] at h3
  simp [licN, h3]

/-- **C120, lengths.** The line through a cell is not longer than asked for: all positions at which the texture is read lie within half the length, and
half a step, of the cell. -/
theorem C120_length (m : PMesh ℝ) (hm : m.OK) (st : List ℤ) (w : Resampler ℝ) (hw : w.Valid) (kind : Tuned) (hk : w.kern = Tuned.kern kind)
    (hsup : w.support = w.kern.native) (gv : List (ℤ → ℝ)) (hg : gv.length ≤ m.nmesh.length) (length ds : ℝ) (hds : 0 < ds)
    (x : List ℝ) (hx : x.length = m.nmesh.length) (i : ℕ) (hi : i < licSteps length ds) (sign : ℝ) (hsign : sign = 1 ∨ sign = -1) :
    dist (toPoint m.nmesh.length (follow m st w (licNormalized gv) (ds * sign / 2) (streamline m st w (licNormalized gv) (ds * sign) x i)))
      (toPoint m.nmesh.length x) < length / 2 + ds / 2 := by
  have hg' : (licNormalized gv).length ≤ m.nmesh.length := by simpa [licNormalized] using hg
  have h1 := streamline_dist hm st hw hk hsup hx hg' (licNormalized_le gv) (ds * sign) i
  have h2 := follow_dist hm st hw hk hsup (x := streamline m st w (licNormalized gv) (ds * sign) x i) (by rw [streamline_length]; exact hx) hg'
    (licNormalized_le gv) (ds * sign / 2)
  have h3 := (C63_steps length ds hds i).1 hi
  have habs : |ds * sign| = ds := by
    rcases hsign with rfl | rfl
    · rw [mul_one, abs_of_pos hds]
    · rw [mul_neg_one, abs_neg, abs_of_pos hds]
  have habs2 : |ds * sign / 2| = ds / 2 := by rw [abs_div, habs]; norm_num
  rw [habs] at h1
  rw [habs2] at h2
  have := dist_triangle (toPoint m.nmesh.length (follow m st w (licNormalized gv) (ds * sign / 2) (streamline m st w (licNormalized gv) (ds * sign) x i)))
    (toPoint m.nmesh.length (streamline m st w (licNormalized gv) (ds * sign) x i)) (toPoint m.nmesh.length x)
  linarith

/-- The pieces of the normalised vectors on the ranks are the normalised pieces. -/
theorem vectorsOf_normalized {m : PMesh ℝ} {st : List ℤ} {gv : List (ℤ → ℝ)} {vectors : ℕ → List (ℤ → ℝ)} (h : VectorsOf m st gv vectors) :
    VectorsOf m st (licNormalized gv) (fun r => licNormalized (vectors r)) := by
  intro r hr
  obtain ⟨hl, hv⟩ := h r hr
  refine ⟨by simp [licNormalized, hl], fun d hd c hc => ?_⟩
  have hd : d < gv.length := by simpa [licNormalized] using hd
  have habs : licAbs (vectors r) (m.addr r c) = licAbs gv ((m.serial st).addr 0 (m.global r c)) := by
    have : vectorLength (vectors r) (m.addr r c) = vectorLength gv ((m.serial st).addr 0 (m.global r c)) := by
      unfold vectorLength
      congr 2
      apply List.ext_getElem (by simp [hl])
      intro i h1 h2
      have hi : i < gv.length := by simpa using h2
      have := hv i hi c hc
      rw [List.getD_eq_getElem _ _ (by rw [hl]; exact hi), List.getD_eq_getElem _ _ hi] at this
      simp [this]
    rw [licAbs_eq, licAbs_eq, this]
  rw [licNormalized_getD _ hd, licNormalized_getD _ (by rw [hl]; exact hd), hv d hd c hc, habs]

theorem exMeshR_piece (g : ℤ → ℝ) : ∀ r < exMeshR.nrank, exMeshR.PieceOf [1] g (fun a => g (4 * r + a)) r := by
  intro r hr c hc
  obtain ⟨i, rfl⟩ := List.length_eq_one_iff.1 ((validIndex_iff.1 hc).1.trans (by simp [PMesh.localShape, exMeshR]))
  have : r = 0 ∨ r = 1 := by simp only [exMeshR] at hr; omega
  rcases this with rfl | rfl <;>
    simp [PMesh.addr, PMesh.serial, PMesh.global, PMesh.start, exMeshR]

/-- **C120, all ranks.** With `normalize=True` the values that the ranks integrate are the sums along the streamlines of the unit vectors of the whole
field; and with an even kernel they are the same if all vectors are reversed.  Partial: the restrictions of C63 (the largest component occurs on every
rank, cells not smaller than the unit of length, halo, empty slabs). -/
theorem C120_integral_partial (m : PMesh ℝ) (hm : m.OK) (hp : m.PlainRanks) (hunit : ∀ j < m.nmesh.length, m.scale.getD j 0 ≤ 1)
    (w : Resampler ℝ) (hw : w.Valid) (kind : Tuned) (hk : w.kern = Tuned.kern kind) (hsup : w.support = w.kern.native)
    (hcov : w.Covers ((w.support : ℝ) * (1 / 2)) 1) (st : List ℤ) (gv : List (ℤ → ℝ)) (vectors : ℕ → List (ℤ → ℝ))
    (hvec : VectorsOf m st gv vectors) (hdim : gv.length ≤ m.nmesh.length) (texture : ℕ → ℤ → ℝ) (gt : ℤ → ℝ)
    (htex : ∀ r < m.nrank, m.PieceOf st gt (texture r) r) (kernel : ℝ → ℝ) (length ds : ℝ) (hds : 0 < ds) (V : ℝ)
    (hV : ∀ v ∈ licNormalized gv, ∀ c, ValidIndex m.nmesh c → |v ((m.serial st).addr 0 c)| ≤ V)
    (hat : ∀ r < m.nrank, ∃ v ∈ licNormalized (vectors r), ∃ c, ValidIndex (m.localShape r) c ∧ |v (m.addr r c)| = V)
    (hh : m.HaloFits (List.replicate m.nmesh.length (V * ds * (1 / 2) + (w.support : ℝ) * (1 / 2)))) :
    V ≤ 1 ∧
    AllReturn m.nrank (fun r => licIntegralN true m w (vectors r) (texture r) kernel length ds r)
      (fun r => .ok ((ndindex (m.localShape r)).map fun c =>
        lineIntegral m st w (licNormalized gv) gt kernel length ds (licSteps length ds) (m.global r c))) ∧
    ((∀ s, kernel (-s) = kernel s) →
      AllReturn m.nrank (fun r => licIntegralN true m w ((vectors r).map fun v a => -v a) (texture r) kernel length ds r)
        (fun r => .ok ((ndindex (m.localShape r)).map fun c =>
          lineIntegral m st w (licNormalized gv) gt kernel length ds (licSteps length ds) (m.global r c)))) := by
  have hle : ∀ (l : List (ℤ → ℝ)), ∀ v ∈ licNormalized l, ∀ a, |v a| ≤ 1 := by
    intro l v hv a
    have h1 : v a ^ 2 ≤ ((licNormalized l).map fun v => v a ^ 2).sum :=
      List.single_le_sum (by intro x hx; obtain ⟨v, _, rfl⟩ := List.mem_map.1 hx; positivity) _ (List.mem_map.2 ⟨v, hv, rfl⟩)
    exact abs_le_one_iff_mul_self_le_one.2 (by nlinarith [licNormalized_le l a])
  have hneg : ∀ l : List (ℤ → ℝ), licNormalized (l.map fun v a => -v a) = (licNormalized l).map fun v a => -v a := by
    intro l
    have := licNormalized_mul l (fun _ => -1) (fun _ => by norm_num)
    simpa using this
  have hdim' : (licNormalized gv).length ≤ m.nmesh.length := by simpa [licNormalized] using hdim
  refine ⟨?_, ?_, ?_⟩
  · obtain ⟨v, hv, c, _, h⟩ := hat 0 hm.nrank_pos
    rw [← h]
    exact hle _ v hv _
  · exact C63_integral_partial m hm hp hunit w hw kind hk hsup hcov st (licNormalized gv) (fun r => licNormalized (vectors r))
      (vectorsOf_normalized hvec) hdim' texture gt htex kernel length ds hds V hV hat hh
  · intro heven
    have hvecN : VectorsOf m st ((licNormalized gv).map fun v a => -v a) (fun r => licNormalized ((vectors r).map fun v a => -v a)) := by
      intro r hr
      obtain ⟨hl, hv⟩ := vectorsOf_normalized hvec r hr
      refine ⟨by simp only [hneg, List.length_map]; exact hl, fun d hd c hc => ?_⟩
      have hd : d < (licNormalized gv).length := by simpa using hd
      have := hv d hd c hc
      rw [List.getD_eq_getElem _ _ (by rw [hl]; exact hd), List.getD_eq_getElem _ _ hd] at this
      simp only [hneg]
      rw [List.getD_eq_getElem _ _ (by rw [List.length_map, hl]; exact hd), List.getD_eq_getElem _ _ (by rw [List.length_map]; exact hd)]
      simp only [List.getElem_map, this]
    have h := C63_integral_partial m hm hp hunit w hw kind hk hsup hcov st ((licNormalized gv).map fun v a => -v a) _ hvecN (by simpa using hdim')
      texture gt htex kernel length ds hds V
      (by
        intro v hv c hc
        obtain ⟨v', hv', rfl⟩ := List.mem_map.1 hv
        simpa using hV v' hv' c hc)
      (by
        intro r hr
        obtain ⟨v, hv, c, hc, h⟩ := hat r hr
        exact ⟨fun a => -v a, by rw [hneg]; exact List.mem_map.2 ⟨v, hv, rfl⟩, c, hc, by simpa using h⟩) hh
    refine AllReturn.congr (fun r _ => rfl) (fun r hr => ?_) h
    congr 1
    apply List.map_congr_left
    intro c hc
    unfold lineIntegral
    have hx : (cellPosition m (m.global r c)).length = m.nmesh.length := by simp [cellPosition]
    rw [lineSum_neg hm st hw _ gt heven hx, lineSum_neg hm st hw _ gt heven hx, neg_neg]
    ring

/-! ## The hypotheses can be met -/

/-- A vector field on eight cells that does not vanish and has different lengths. -/
noncomputable def exArrow (a : ℤ) : ℝ := a - 7 / 2

theorem exArrow_unit (r : ℤ) (a : ℤ) : |((fun b : ℤ => exArrow (4 * r + b) / licAbs [fun b => exArrow (4 * r + b)] b) a)| = 1 := by
  have hne : exArrow (4 * r + a) ≠ 0 := by
    unfold exArrow
    intro h
    have h2 : ((2 * (4 * r + a) : ℤ) : ℝ) = ((7 : ℤ) : ℝ) := by push_cast at h ⊢; linarith
    have h3 : 2 * (4 * r + a) = 7 := by exact_mod_cast h2
    omega
  have hl : vectorLength [fun b => exArrow (4 * r + b)] a = |exArrow (4 * r + a)| := by
    simp [vectorLength, Real.sqrt_sq_eq_abs]
  show |exArrow (4 * r + a) / licAbs [fun b => exArrow (4 * r + b)] a| = 1
  rw [licAbs_eq, hl, if_neg (abs_ne_zero.2 hne), abs_div, abs_abs, div_self (abs_ne_zero.2 hne)]

example := C120_length exMeshR exMeshR_ok [1] exWinR exWinR_valid .cic rfl rfl [exArrow] (by simp [exMeshR]) 7 (1 / 2) (by norm_num) [3]
  (by simp [exMeshR]) 6 ((C63_steps _ _ (by norm_num) _).2 (by norm_num)) (-1) (Or.inr rfl)

/-- Two ranks, vectors of different lengths, an even kernel, seven steps. -/
example := C120_integral_partial exMeshR exMeshR_ok exMeshR_plain
  (by intro j hj; simp [exMeshR] at hj; subst hj; simp [PMesh.scale, exMeshR]) exWinR exWinR_valid .cic rfl rfl
  (exWinR_covers _ (by simp [exWinR])) [1] [exArrow] (fun r => [fun a => exArrow (4 * r + a)])
  (fun r hr => ⟨rfl, fun d hd => by
    have : d = 0 := by simpa using hd
    subst this
    exact exMeshR_piece exArrow r hr⟩) (by simp [exMeshR]) (fun r a => (4 * r + a : ℝ)) (fun a => (a : ℝ))
  (fun r hr => by simpa using exMeshR_piece (fun a => (a : ℝ)) r hr) (fun s => 1 - s * s) 7 (1 / 2) (by norm_num) 1
  (by
    intro v hv c _
    simp only [licNormalized, List.map_cons, List.map_nil, List.mem_singleton] at hv
    subst hv
    have := exArrow_unit 0 ((exMeshR.serial [1]).addr 0 c)
    simpa using this.le)
  (by
    intro r hr
    refine ⟨_, List.mem_singleton.2 rfl, [0], ?_, exArrow_unit r _⟩
    have : r = 0 ∨ r = 1 := by simp only [exMeshR] at hr; omega
    rcases this with rfl | rfl <;> decide)
  (by
    intro j hj d hd
    left
    simp [exMeshR] at hj
    subst hj
    simp [exMeshR] at hd
    interval_cases d <;> simp [exMeshR, exWinR] <;> norm_num)

#print axioms C120_unit
#print axioms C120_directions
#print axioms C120_length
#print axioms C120_integral_partial

end Pmesh
