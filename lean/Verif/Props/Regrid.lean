import Verif.Lemmas.Regrid
import Verif.Lemmas.Exec
import Verif.Props.Transpose

/-! # C37: down- and upsampling -/

namespace Pmesh

section
variable {K : Type} [Field K] [LinearOrder K] [IsStrictOrderedRing K] [FloorRing K]

/-- **C37** for `downsample` (partial: `PlainRanks`, `HaloFits`): the result on any number of ranks is that of one rank, for
every window whose support covers it. -/
theorem C37_downsample_ranks_partial (src dst : PMesh K) (hs : src.OK) (hd : dst.OK) (hp : dst.PlainRanks)
    (hr : dst.nrank = src.nrank) (hdim : src.nmesh.length = dst.nmesh.length) (w : Resampler K) (hw : w.Valid)
    (hh : dst.HaloFits (dst.smoothing w)) (hcov : w.Covers ((w.support : K) * (1 / 2)) 1) (keepMean : Bool)
    (ss ds : List ℤ) (hss : (src.serial ss).Distinct 0) (hds : (dst.serial ds).Distinct 0)
    (field : ℕ → ℤ → K) (glob : ℤ → K) (hf : src.Spread ss field glob) :
    ∃ (res : ℕ → ℤ → K) (resS : ℤ → K),
      AllReturn src.nrank (fun r => downsample src dst w keepMean r (field r)) (fun r => .ok (res r)) ∧
      AllReturn 1 (fun r => downsample (src.serial ss) (dst.serial ds) w keepMean r glob) (fun _ => .ok resS) ∧
      dst.Spread ds res resS := by
  obtain ⟨res, h1, h2⟩ := downsample_eq hs hd hp hr hdim hw hh hcov keepMean field
    (fun g => glob ((src.serial ss).addr 0 g)) hf
  obtain ⟨resS, h3, h4⟩ := downsample_eq (src := src.serial ss) (dst := dst.serial ds) (serial_ok hs hss) (serial_ok hd hds)
    (serial_plain dst hd ds) rfl hdim hw (serial_halo dst ds _) hcov keepMean (fun _ => glob)
    (fun g => glob ((src.serial ss).addr 0 g)) (by
      intro r hr c hc
      have hr : r < 1 := hr
      obtain rfl : r = 0 := by omega
      rw [serial_localShape] at hc
      rw [serial_global src ss hc])
  refine ⟨res, resS 0, h1, AllReturn.congr (fun _ _ => rfl) (fun r hr => ?_) h3, fun r hr c hc => ?_⟩
  · have hr : r < 1 := hr
    obtain rfl : r = 0 := by omega
    rfl
  · have hg := hd.global_valid hr hc
    rw [h2 r (by omega) c hc, h4 0 (by show 0 < 1; omega) _ (by rw [serial_localShape]; exact hg), serial_global dst ds hg]
    rfl

/-- **C37**, `downsample` with one of the windows nnb, cic, tsc, pcs keeps the sum of the field; with `keep_mean` it keeps the
density, that is the sum over the number of mesh points times the volume (partial: `PlainRanks`, `HaloFits`). -/
theorem C37_downsample_total_partial (src dst : PMesh K) (hs : src.OK) (hd : dst.OK) (hp : dst.PlainRanks)
    (hr : dst.nrank = src.nrank) (hdim : src.nmesh.length = dst.nmesh.length) (w : Resampler K) (hw : w.Valid)
    (hh : dst.HaloFits (dst.smoothing w)) (kind : Tuned) (hk : w.kern = Tuned.kern kind) (hsup : w.support = w.kern.native)
    (keepMean : Bool) (field : ℕ → ℤ → K) :
    ∃ res : ℕ → ℤ → K,
      AllReturn src.nrank (fun r => downsample src dst w keepMean r (field r)) (fun r => .ok (res r)) ∧
      (keepMean = false → dst.fieldSum res = src.fieldSum field) ∧
      (keepMean = true → dst.fieldSum res / (dst.nmesh.prod : ℕ) * dst.box.prod =
        src.fieldSum field / (src.nmesh.prod : ℕ) * src.box.prod) := by
  obtain ⟨G, hG⟩ := exists_content hs field
  obtain ⟨res, h1, h2⟩ := downsample_eq hs hd hp hr hdim hw hh (tuned_covers hk hsup (by linarith)) keepMean field G hG
  have key : dst.fieldSum res = ((ndindex src.nmesh).map fun g => if keepMean then G g / densityRatio src dst else G g).sum := by
    rw [fieldSum_eq hd (G := fun C => ((ndindex src.nmesh).map fun g => (if keepMean then G g / densityRatio src dst else G g) *
      regridWeight dst src.nmesh w g C).sum) (fun r hr' c hc => h2 r (by omega) c hc), list_sum_comm]
    congr 1
    apply List.map_congr_left
    intro g hg
    have hg := (mem_ndindex.1 hg).len
    rw [List.sum_map_mul_left, regridWeight_sum hd hdim (nmesh_pos' hs) hw hk hsup (by omega), mul_one]
  refine ⟨res, h1, fun hkm => ?_, fun hkm => ?_⟩
  · rw [key, fieldSum_eq hs hG, hkm]
    simp
  · have e : ∀ m : PMesh K, m.OK → ((m.nmesh.prod : ℕ) : K) ≠ 0 ∧ m.box.prod ≠ 0 := by
      intro m hm
      constructor
      · have : 0 < m.nmesh.prod := List.prod_pos (nmesh_pos' hm)
        exact_mod_cast this.ne'
      · exact (List.prod_pos hm.box_pos).ne'
    obtain ⟨a1, a2⟩ := e src hs
    obtain ⟨a3, a4⟩ := e dst hd
    have hsum : ((ndindex src.nmesh).map fun g => G g / densityRatio src dst).sum =
        ((ndindex src.nmesh).map G).sum / densityRatio src dst := by
      simp only [div_eq_mul_inv]
      rw [List.sum_map_mul_right]
    rw [key, fieldSum_eq hs hG, hkm]
    simp only [if_true]
    rw [hsum]
    unfold densityRatio
    field_simp

/-- **C37** for `upsample` (partial: windows of support at most 3 and covered by the smoothing 1.6 that is hard coded, and
`PlainRanks`, `HaloFits`): the result on any number of ranks is that of one rank. -/
theorem C37_upsample_ranks_partial (src dst : PMesh K) (hs : src.OK) (hd : dst.OK) (hp : src.PlainRanks)
    (hr : dst.nrank = src.nrank) (hdim : src.nmesh.length = dst.nmesh.length) (w : Resampler K) (hw : w.Valid)
    (h3 : w.support ≤ 3) (hh : src.HaloFits (List.replicate src.nmesh.length (8 / 5))) (hcov : w.Covers (8 / 5) 1)
    (keepMean : Bool) (ss ds : List ℤ) (hss : (src.serial ss).Distinct 0) (hds : (dst.serial ds).Distinct 0)
    (field : ℕ → ℤ → K) (glob : ℤ → K) (hf : src.Spread ss field glob) :
    ∃ (res : ℕ → ℤ → K) (resS : ℤ → K),
      AllReturn src.nrank (fun r => upsample src dst w keepMean r (field r)) (fun r => .ok (res r)) ∧
      AllReturn 1 (fun r => upsample (src.serial ss) (dst.serial ds) w keepMean r glob) (fun _ => .ok resS) ∧
      dst.Spread ds res resS := by
  obtain ⟨res, h1, h2⟩ := upsample_eq hs hd hp hr hdim hw (halo_support h3 hh) hh hcov keepMean field
    (fun g => glob ((src.serial ss).addr 0 g)) hf
  obtain ⟨resS, h4, h5⟩ := upsample_eq (src := src.serial ss) (dst := dst.serial ds) (serial_ok hs hss) (serial_ok hd hds)
    (serial_plain src hs ss) rfl hdim hw (serial_halo src ss _) (serial_halo src ss _) hcov keepMean (fun _ => glob)
    (fun g => glob ((src.serial ss).addr 0 g)) (by
      intro r hr c hc
      have hr : r < 1 := hr
      obtain rfl : r = 0 := by omega
      rw [serial_localShape] at hc
      rw [serial_global src ss hc])
  refine ⟨res, resS 0, h1, AllReturn.congr (fun _ _ => rfl) (fun r hr => ?_) h4, fun r hr c hc => ?_⟩
  · have hr : r < 1 := hr
    obtain rfl : r = 0 := by omega
    rfl
  · have hg := hd.global_valid hr hc
    rw [h2 r (by omega) c hc, h5 0 (by show 0 < 1; omega) _ (by rw [serial_localShape]; exact hg), serial_global dst ds hg]
    rfl

/-- **C37**: `upsample` with nnb, cic or tsc and `keep_mean` maps a constant field to the same constant. -/
theorem C37_upsample_constant_partial (src dst : PMesh K) (hs : src.OK) (hd : dst.OK) (hp : src.PlainRanks)
    (hr : dst.nrank = src.nrank) (hdim : src.nmesh.length = dst.nmesh.length) (w : Resampler K) (hw : w.Valid)
    (h3 : w.support ≤ 3) (hh : src.HaloFits (List.replicate src.nmesh.length (8 / 5)))
    (kind : Tuned) (hk : w.kern = Tuned.kern kind) (hsup : w.support = w.kern.native) (field : ℕ → ℤ → K) (v : K)
    (hf : ∀ r < src.nrank, ∀ c, ValidIndex (src.localShape r) c → field r (src.addr r c) = v) :
    ∃ res : ℕ → ℤ → K,
      AllReturn src.nrank (fun r => upsample src dst w true r (field r)) (fun r => .ok (res r)) ∧
      ∀ r < dst.nrank, ∀ c, ValidIndex (dst.localShape r) c → res r (dst.addr r c) = v := by
  have h3' : (w.support : K) ≤ 3 := by exact_mod_cast h3
  obtain ⟨res, h1, h2⟩ := upsample_eq hs hd hp hr hdim hw (halo_support h3 hh) hh
    (tuned_covers hk hsup (by linarith)) true field (fun _ => v) hf
  refine ⟨res, h1, fun r hr' c hc => ?_⟩
  have hg := (hd.global_valid hr' hc).len
  rw [h2 r (by omega) c hc, List.sum_map_mul_right, regridWeight_sum hs hdim.symm (nmesh_pos' hd) hw hk hsup (by omega)]
  simp

end

/-- Eight cells on two ranks. -/
def exSrc8 : PMesh ℚ := ⟨[8], [8], [[0, 4, 8]], 2, fun r => [r], fun _ => [1], fun _ => 77⟩
/-- Seven cells on two ranks. -/
def exDst7 : PMesh ℚ := ⟨[7], [8], [[0, 4, 7]], 2, fun r => [r], fun _ => [1], fun _ => 77⟩

theorem exSrc8_ok : exSrc8.OK where
  dim := by decide
  box_len := by decide
  box_pos := by decide +kernel
  edges := .cons (slabEdges_of_decide (by decide)) .nil
  ranks := by decide
  coord_valid := by decide
  coord_inj := by decide
  distinct := by
    intro r hr
    apply distinct_of_decide
    revert r
    decide +kernel

theorem exDst7_ok : exDst7.OK where
  dim := by decide
  box_len := by decide
  box_pos := by decide +kernel
  edges := .cons (slabEdges_of_decide (by decide)) .nil
  ranks := by decide
  coord_valid := by decide
  coord_inj := by decide
  distinct := by
    intro r hr
    apply distinct_of_decide
    revert r
    decide +kernel

/-- The tuned tsc window. -/
def exTscWin : Resampler ℚ := ⟨quadraticK, some .tsc, 3⟩

theorem exTscWin_valid : exTscWin.Valid := ⟨by decide, fun t ht => by cases ht; rfl⟩

/-- Non-vacuity of C37: from eight cells to seven on two ranks, with tsc, a field that depends on the rank and the address. -/
example := C37_downsample_ranks_partial exSrc8 exDst7 exSrc8_ok exDst7_ok (Or.inl (by decide)) rfl rfl exTscWin exTscWin_valid
  (by intro j hj d hd; have : j = 0 := by simpa [exDst7] using hj
      subst this; revert d; decide +kernel)
  (tuned_covers (kind := .tsc) rfl rfl (by decide +kernel)) true [1] [1] (distinct_of_decide (by decide +kernel))
  (distinct_of_decide (by decide +kernel)) (fun r a => (r : ℚ) * 4 + a) (fun a => a) (by
    intro r hr c hc
    replace hc := mem_ndindex.2 hc
    revert c
    revert r
    decide +kernel)

example := C37_downsample_total_partial exSrc8 exDst7 exSrc8_ok exDst7_ok (Or.inl (by decide)) rfl rfl exTscWin exTscWin_valid
  (by intro j hj d hd; have : j = 0 := by simpa [exDst7] using hj
      subst this; revert d; decide +kernel) .tsc rfl rfl true (fun r a => (r : ℚ) * 4 + a)

example := C37_upsample_ranks_partial exSrc8 exDst7 exSrc8_ok exDst7_ok (Or.inl (by decide)) rfl rfl exTscWin exTscWin_valid
  (by decide) (by intro j hj d hd; have : j = 0 := by simpa [exSrc8] using hj
                  subst this; revert d; decide +kernel)
  (tuned_covers (kind := .tsc) rfl rfl (by decide +kernel)) true [1] [1] (distinct_of_decide (by decide +kernel))
  (distinct_of_decide (by decide +kernel)) (fun r a => (r : ℚ) * 4 + a) (fun a => a) (by
    intro r hr c hc
    replace hc := mem_ndindex.2 hc
    revert c
    revert r
    decide +kernel)

example := C37_upsample_constant_partial exSrc8 exDst7 exSrc8_ok exDst7_ok (Or.inl (by decide)) rfl rfl exTscWin exTscWin_valid
  (by decide) (by intro j hj d hd; have : j = 0 := by simpa [exSrc8] using hj
                  subst this; revert d; decide +kernel)
  .tsc rfl rfl (fun _ _ => 5) 5 (fun _ _ _ _ => rfl)

/-- **C37 violated** for `upsample` with the pcs window (support 4) on two ranks: the smoothing is 1.6 instead of 2, so the mesh
point at 2·8/7 is not sent to rank 1, which owns cell 4. The field is one in cell 4 and zero elsewhere; on one rank the value at
that point is 4/1029, on two it is 0. -/
theorem C37_violated_upsample_pcs :
    AllReturn 2 (fun r => (upsample exSrc8 exDst7 ⟨cubicK, some .pcs, 4⟩ true r
        (fun a => if r = 1 ∧ a = 0 then 1 else 0)).andThen fun mem => .ret (.ok (if r = 0 then mem 2 else 0)))
      (fun _ => .ok 0) ∧
    AllReturn 1 (fun r => (upsample (exSrc8.serial [1]) (exDst7.serial [1]) ⟨cubicK, some .pcs, 4⟩ true r
        (fun a => if a = 4 then 1 else 0)).andThen fun mem => .ret (.ok (mem 2)))
      (fun _ => .ok (4 / 1029)) :=
  ⟨AllReturn.of_runAll 60 (by decide +kernel), AllReturn.of_runAll 60 (by decide +kernel)⟩

#print axioms C37_downsample_ranks_partial
#print axioms C37_downsample_total_partial
#print axioms C37_upsample_ranks_partial
#print axioms C37_upsample_constant_partial
#print axioms C37_violated_upsample_pcs

end Pmesh
