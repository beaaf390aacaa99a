import Verif.Lemmas.MeshCovered

/-!
# C23, C24: painting and readout on several ranks

`pmPaint`, `pmReadoutLocal`, `pmReadoutGather` are the programs that the ranks run; the reference is the painter of
the same mesh in a single process.
-/

namespace Pmesh

section
open Classical
variable {K : Type} [Field K] [LinearOrder K] [IsStrictOrderedRing K] [FloorRing K]

/-- **C23**.  All ranks finish `decompose` and then `paint` with the layout of `decompose`, and afterwards each rank
holds exactly its piece of the field that a single process paints from the particles of all ranks; memory outside the
array is not touched. Any number of ranks, any distribution of the particles over the ranks, any window, smoothing
length, gradient direction, with or without `hold`, and any smoothing `sm` given to `decompose` that covers the windows
of the particles.
Partial: the slabs must not be so wide that the halo wraps around the box (`HaloFits`), empty slabs are only allowed in
C order of the ranks and at most one per axis (`PlainRanks`, `SlabEdges`), the default smoothing covers only `hsml ≤ 1`.
See the violations below. -/
theorem C23_paint_partial (m : PMesh K) (hm : m.OK) (hp : m.PlainRanks) (w : Resampler K) (hw : w.Valid)
    (sm : List K) (hsm : m.SmoothingOK sm) (hh : m.HaloFits sm) (gradient : Option ℕ) (hold : Bool)
    (pos : ℕ → List (List K)) (hpos : ∀ r < m.nrank, ∀ x ∈ pos r, x.length = m.nmesh.length) (mass hsml : ℕ → Quant K)
    (hmass : QuantOK m.nrank (fun r => (pos r).length) mass) (hhsml : QuantOK m.nrank (fun r => (pos r).length) hsml)
    (hcov : ∀ p ∈ allParticles m.nrank pos mass hsml, ∀ s ∈ sm, w.Covers s p.hsml)
    (strides : List ℤ) (hser : (m.serial strides).Distinct 0)
    (out : ℕ → ℤ → K) (glob : ℤ → K) (hout : hold = true → ∀ r < m.nrank, m.PieceOf strides glob (out r) r) :
    ∃ (memS : ℤ → K) (mem : ℕ → ℤ → K),
      paint ((m.serial strides).painter w gradient 0) (if hold then glob else fun _ => 0)
        (allParticles m.nrank pos mass hsml) = some memS ∧
      AllReturn m.nrank (fun r => (pmDecompose m sm r (pos r)).andThen fun lay =>
          pmPaint m w gradient hold r (some lay) (pos r) (mass r) (hsml r) (out r))
        (fun r => .ok (mem r)) ∧
      ∀ r < m.nrank, m.PieceOf strides memS (mem r) r ∧
        ∀ a, (∀ c, ValidIndex (m.localShape r) c → a ≠ m.addr r c) → mem r a = if hold then out r a else 0 := by
  obtain ⟨a, L, ho, hL, hsent, hdec⟩ := pmDecompose_return hm hm.nrank_pos hp hsm hh hpos
  have hlen : ∀ q < m.nrank, (L q).sendlength = (pos q).length := fun q hq => (hsent q hq).1
  have hnd : ∀ q < m.nrank, ∀ r < m.nrank, ((L q).sentIdx r).Nodup := fun q hq r hr => by
    rw [(hsent q hq).2 r hr]; exact List.nodup_range.filter _
  have hC : Covered m w gradient pos hsml L := by
    refine covered_of_near hm hw gradient ho hpos hpos (fun _ _ => rfl) (sm := fun _ => sm) (s := fun _ _ => sm)
      (fun q hq r hr => (hsent q hq).2 r hr) (fun q hq i hi j hj => ?_) (fun q hq i hi j hj => ?_)
    · rw [List.getD_eq_getElem _ _ (by rw [hsm.len]; exact hj)]
      exact hcov _ (List.mem_flatMap.2 ⟨q, List.mem_range.2 hq, List.mem_map.2 ⟨i, List.mem_range.2 hi, rfl⟩⟩) _ (List.getElem_mem _)
    · simp
  obtain ⟨memS, mem, h1, h2, h3⟩ := paint_of_covered hm hw gradient hold hpos hmass hhsml hL hlen hnd hC strides hser out glob hout
  exact ⟨memS, mem, h1, AllReturn.andThen hdec h2, h3⟩

/-- **C23** (without a layout).  A mass or smoothing length given as an array with a single entry is the same as the number. -/
theorem C23_broadcast (m : PMesh K) (w : Resampler K) (gradient : Option ℕ) (hold : Bool) (r : ℕ) (pos : List (List K)) (a : K) (q : Quant K)
    (out : ℤ → K) :
    pmPaint m w gradient hold r none pos (.array [a]) q out = pmPaint m w gradient hold r none pos (.scalar a) q out ∧
    pmPaint m w gradient hold r none pos q (.array [a]) out = pmPaint m w gradient hold r none pos q (.scalar a) out := by
  have e : (Quant.array [a]).toArray pos.length = (Quant.scalar a).toArray pos.length := by
    simp only [Quant.toArray, List.length_singleton]
    by_cases h : 1 = pos.length
    · rw [if_pos h, ← h]; rfl
    · rw [if_neg h]; rfl
  constructor <;> · simp only [pmPaint, pmRoute, mkParticles, e]

/-- **C24**.  All ranks finish `decompose` and then `readout` with the layout of `decompose`, and each rank gets for its
particles the values that a single process reads from the whole field. Partial: same restrictions as
`C23_paint_partial`. -/
theorem C24_readout_partial (m : PMesh K) (hm : m.OK) (hp : m.PlainRanks) (w : Resampler K) (hw : w.Valid)
    (sm : List K) (hsm : m.SmoothingOK sm) (hh : m.HaloFits sm) (gradient : Option ℕ) (pos : ℕ → List (List K))
    (hpos : ∀ r < m.nrank, ∀ x ∈ pos r, x.length = m.nmesh.length) (hsml : ℕ → Quant K)
    (hhsml : QuantOK m.nrank (fun r => (pos r).length) hsml)
    (hcov : ∀ p ∈ allParticles m.nrank pos (fun _ => .none) hsml, ∀ s ∈ sm, w.Covers s p.hsml)
    (strides : List ℤ) (field : ℕ → ℤ → K) (glob : ℤ → K) (hf : ∀ r < m.nrank, m.PieceOf strides glob (field r) r) :
    ∃ res : ℕ → List K,
      AllReturn m.nrank (fun r => (pmDecompose m sm r (pos r)).andThen fun lay =>
        pmReadout m w gradient r (some lay) (pos r) (hsml r) (field r)) (fun r => .ok (res r)) ∧
      ∀ r < m.nrank, readout ((m.serial strides).painter w gradient 0) glob (particlesOf (pos r) .none (hsml r)) =
        some (res r) := by
  obtain ⟨a, L, ho, hL, hsent, hdec⟩ := pmDecompose_return hm hm.nrank_pos hp hsm hh hpos
  have hlen : ∀ q < m.nrank, (L q).sendlength = (pos q).length := fun q hq => (hsent q hq).1
  have hnd : ∀ q < m.nrank, ∀ r < m.nrank, ((L q).sentIdx r).Nodup := fun q hq r hr => by
    rw [(hsent q hq).2 r hr]; exact List.nodup_range.filter _
  have hC : Covered m w gradient pos hsml L := by
    refine covered_of_near hm hw gradient ho hpos hpos (fun _ _ => rfl) (sm := fun _ => sm) (s := fun _ _ => sm)
      (fun q hq r hr => (hsent q hq).2 r hr) (fun q hq i hi j hj => ?_) (fun q hq i hi j hj => ?_)
    · rw [List.getD_eq_getElem _ _ (by rw [hsm.len]; exact hj)]
      exact hcov _ (List.mem_flatMap.2 ⟨q, List.mem_range.2 hq, List.mem_map.2 ⟨i, List.mem_range.2 hi, rfl⟩⟩) _ (List.getElem_mem _)
    · simp
  obtain ⟨res, h1, h2⟩ := readout_of_covered hm hw gradient hpos hhsml hL hlen hnd hC strides field glob hf
  exact ⟨res, AllReturn.andThen hdec h1, h2⟩

end

/-! ## The hypotheses can be met -/

/-- Eight cells on two ranks. -/
def exMesh : PMesh ℚ := ⟨[8], [8], [[0, 4, 8]], 2, fun r => [r], fun _ => [1], fun _ => 77⟩

/-- Four by six cells on a process mesh of 2 by 3, the third slab of axis 1 having one cell, in Fortran order of the
ranks; the second axis is the slow one in memory. -/
def exMesh2 : PMesh ℚ :=
  ⟨[4, 6], [1, 2], [[0, 2, 4], [0, 3, 5, 6]], 6, fun r => [r % 2, r / 2], fun _ => [1, 2], fun _ => 77⟩

def exWin : Resampler ℚ := ⟨linearK, some .cic, 2⟩

theorem exWin_valid : exWin.Valid := ⟨by decide, by intro t ht; cases ht; rfl⟩

theorem slabEdges_of_decide {n : ℕ} {e : List ℕ} (h : 2 ≤ e.length ∧ e.getD 0 0 = 0 ∧ e.getLastD 0 = n ∧ 0 < n ∧
    e.dropLast.Pairwise (· < ·) ∧ e.Pairwise (· ≤ ·)) : SlabEdges n e :=
  ⟨h.1, h.2.1, h.2.2.1, h.2.2.2.1, h.2.2.2.2.1, h.2.2.2.2.2⟩

theorem exMesh_ok : exMesh.OK where
  dim := by decide
  box_len := by decide
  box_pos := by decide
  edges := .cons (slabEdges_of_decide (by decide)) .nil
  ranks := by decide
  coord_valid := by decide
  coord_inj := by decide
  distinct := by
    intro r _ c c' hc hc' h
    obtain ⟨i, rfl⟩ := List.length_eq_one_iff.1 ((validIndex_iff.1 hc).1.trans (by simp [PMesh.localShape, exMesh]))
    obtain ⟨j, rfl⟩ := List.length_eq_one_iff.1 ((validIndex_iff.1 hc').1.trans (by simp [PMesh.localShape, exMesh]))
    simpa [PMesh.addr, exMesh] using h

theorem exMesh_serial : (exMesh.serial [1]).Distinct 0 := by
  intro c c' hc hc' h
  obtain ⟨i, rfl⟩ := List.length_eq_one_iff.1 ((validIndex_iff.1 hc).1.trans (by simp [PMesh.localShape, PMesh.serial, exMesh]))
  obtain ⟨j, rfl⟩ := List.length_eq_one_iff.1 ((validIndex_iff.1 hc').1.trans (by simp [PMesh.localShape, PMesh.serial, exMesh]))
  simpa [PMesh.addr, PMesh.serial, exMesh] using h

theorem exMesh_smooth : exMesh.SmoothingOK [1] := ⟨rfl, by decide⟩

/-- The default smoothing of the `cic` window. -/
example : exMesh.smoothing exWin = [1] := by decide +kernel

theorem exMesh_halo : exMesh.HaloFits [1] := by unfold PMesh.HaloFits; decide +kernel

theorem exMesh_plain : exMesh.PlainRanks := Or.inr (by decide)

theorem exWin_covers : exWin.Covers 1 1 := Or.inr (Or.inr (by decide +kernel))

/-- Non-vacuity of C23: two particles, one on each rank but not in the slab of its rank; the rank-dependent masses are
arrays. -/
example := C23_paint_partial exMesh exMesh_ok exMesh_plain exWin exWin_valid [1] exMesh_smooth exMesh_halo none true
  (fun r => if r = 0 then [[15 / 2]] else [[7 / 2]]) (by decide) (fun r => .array [(r : ℚ)]) (fun _ => .none)
  (Or.inr (Or.inr (by intro r hr; exact ⟨_, rfl, by dsimp only; split <;> rfl⟩))) (Or.inl fun _ _ => rfl)
  (by
    intro p hp s hs
    rw [List.mem_singleton] at hs
    subst hs
    have : p.hsml = 1 := by
      obtain ⟨r, _, hp⟩ := List.mem_flatMap.1 hp
      obtain ⟨i, _, rfl⟩ := List.mem_map.1 hp
      rfl
    rw [this]
    exact exWin_covers)
  [1] exMesh_serial (fun r a => (4 * r + a : ℚ)) (fun a => (a : ℚ)) (by
    intro _ r hr c hc
    obtain ⟨i, rfl⟩ := List.length_eq_one_iff.1 ((validIndex_iff.1 hc).1.trans (by simp [PMesh.localShape, exMesh]))
    have : r = 0 ∨ r = 1 := by simp only [exMesh] at hr; omega
    rcases this with rfl | rfl <;>
      simp [PMesh.addr, PMesh.serial, PMesh.global, PMesh.start, exMesh])

/-- Non-vacuity of C24. -/
example := C24_readout_partial exMesh exMesh_ok exMesh_plain exWin exWin_valid [1] exMesh_smooth exMesh_halo (some 0)
  (fun r => if r = 0 then [[15 / 2]] else [[7 / 2]]) (by decide) (fun _ => .none) (Or.inl fun _ _ => rfl)
  (by
    intro p hp s hs
    rw [List.mem_singleton] at hs
    subst hs
    have : p.hsml = 1 := by
      obtain ⟨r, _, hp⟩ := List.mem_flatMap.1 hp
      obtain ⟨i, _, rfl⟩ := List.mem_map.1 hp
      rfl
    rw [this]
    exact exWin_covers)
  [1] (fun r a => (4 * r + a : ℚ)) (fun a => (a : ℚ)) (by
    intro r hr c hc
    obtain ⟨i, rfl⟩ := List.length_eq_one_iff.1 ((validIndex_iff.1 hc).1.trans (by simp [PMesh.localShape, exMesh]))
    have : r = 0 ∨ r = 1 := by simp only [exMesh] at hr; omega
    rcases this with rfl | rfl <;>
      simp [PMesh.addr, PMesh.serial, PMesh.global, PMesh.start, exMesh])

/-- The other conditions on a mesh can also be met in two dimensions, with uneven slabs and another order of the
ranks. -/
example : List.Forall₂ SlabEdges exMesh2.nmesh exMesh2.edges ∧ exMesh2.nrank = exMesh2.shape.prod ∧
    (∀ r < exMesh2.nrank, ValidIndex exMesh2.shape (exMesh2.coord r)) ∧
    (∀ r < exMesh2.nrank, ∀ r' < exMesh2.nrank, exMesh2.coord r = exMesh2.coord r' → r = r') ∧
    exMesh2.PlainRanks ∧ exMesh2.HaloFits [1, 1] :=
  ⟨.cons (slabEdges_of_decide (by decide)) (.cons (slabEdges_of_decide (by decide)) .nil), by decide, by decide, by decide,
    Or.inl (by decide), by unfold PMesh.HaloFits; decide +kernel⟩

/-! ## Where the code violates the properties -/

/-- `decompose`, `paint` into a new field, and look at element `a` of the local array. -/
def paintAndLook (m : PMesh ℚ) (sm : List ℚ) (w : Resampler ℚ) (pos : List (List ℚ)) (mass hsml : Quant ℚ) (a : ℤ)
    (r : ℕ) : Prog (Msg (List ℚ)) (Except MeshErr ℚ) :=
  ((pmDecompose m sm r pos).andThen fun lay => pmPaint m w none false r (some lay) pos mass hsml fun _ => 0).andThen fun mem =>
    .ret (.ok (mem a))

/-- **C23 violated** for particles with a smoothing length and the default smoothing: `decompose` does not know `hsml`, so a particle in the slab
of rank 0 whose window reaches into the slab of rank 1 is not sent there.  The window of the particle at 2 with
`hsml = 4` deposits mass in cell 5, but element 1 of rank 1 (cell 5) stays empty. -/
theorem C23_violated_hsml :
    AllReturn 2 (fun r => paintAndLook exMesh (exMesh.smoothing exWin) exWin (if r = 0 then [[2]] else []) .none
      (.array (if r = 0 then [4] else [])) 1 r) (fun r => .ok (if r = 0 then 3 / 16 else 0)) ∧
    (paint ((exMesh.serial [1]).painter exWin none 0) (fun _ => 0) [⟨[2], 1, 4⟩]).map (fun m => m 5) = some (1 / 16) :=
  ⟨AllReturn.of_runAll 20 (by decide +kernel), by decide +kernel⟩

/-- **C23 violated** for a mass that is one number on each rank, but not the same: a number is not routed, the rank that
paints a particle uses its own. Rank 1's particle of mass 5 is painted with mass 3. -/
theorem C23_violated_scalar_mass :
    AllReturn 2 (fun r => paintAndLook exMesh (exMesh.smoothing exWin) exWin (if r = 0 then [] else [[2]])
      (.scalar (if r = 0 then 3 else 5)) .none 2 r) (fun r => .ok (if r = 0 then 3 else 0)) ∧
    (paint ((exMesh.serial [1]).painter exWin none 0) (fun _ => 0) [⟨[2], 5, 1⟩]).map (fun m => m 2) = some 5 :=
  ⟨AllReturn.of_runAll 20 (by decide +kernel), by decide +kernel⟩

/-- Three cells on two ranks. -/
def exThin : PMesh ℚ := ⟨[3], [3], [[0, 2, 3]], 2, fun r => [r], fun _ => [1], fun _ => 77⟩

/-- **C23 violated** when the halo wraps around the box: with the `tsc` window (support 3) on three cells and two ranks,
the particle at 7/4 is sent to rank 0 only, and 11/16 of its mass, which belongs into cell 2 of rank 1, is lost. -/
theorem C23_violated_halo :
    AllReturn 2 (fun r => paintAndLook exThin (exThin.smoothing ⟨quadraticK, none, 3⟩) ⟨quadraticK, none, 3⟩
      (if r = 0 then [[7 / 4]] else []) .none .none 0 r) (fun r => .ok (if r = 0 then 1 / 32 else 0)) ∧
    (paint ((exThin.serial [1]).painter ⟨quadraticK, none, 3⟩ none 0) (fun _ => 0) [⟨[7 / 4], 1, 1⟩]).map (fun m => m 2) =
      some (11 / 16) :=
  ⟨AllReturn.of_runAll 20 (by decide +kernel), by decide +kernel⟩

/-- Nine cells on seven ranks in blocks of two: ranks 5 and 6 are empty and start at the same cell. -/
def exEmptyMesh (junk : ℕ → ℕ) : PMesh ℚ :=
  ⟨[9], [9], [[0, 2, 4, 6, 8, 9, 9, 9]], 7, fun r => [r], fun _ => [1], junk⟩

/-- **C23 violated** when several ranks have empty slabs: two ranks claim the same entry of `DomainAssign`, and the last
entry is whatever `numpy.empty` contains.  If that is not a rank, `gridnd_fill` writes outside its buffers as soon as a
particle comes near the end of the box. -/
theorem C23_violated_empty_slabs :
    (exEmptyMesh fun _ => 0).domainAssign = some [0, 1, 2, 3, 4, 6, 0] ∧
    (exEmptyMesh fun _ => 77).domainAssign = some [0, 1, 2, 3, 4, 6, 77] ∧
    ((exEmptyMesh fun _ => 77).domain.map fun g => decompose g [1] [[17 / 2]]) = some (.error .outOfBounds) := by
  decide +kernel

/-- **C24 violated** when the halo wraps around the box, as in `C23_violated_halo`: read from the field that is 1 everywhere, the particle at
7/4 gets 5/16. -/
theorem C24_violated_halo :
    AllReturn 2 (fun r => (pmDecompose exThin (exThin.smoothing ⟨quadraticK, none, 3⟩) r (if r = 0 then [[7 / 4]] else [])).andThen fun lay =>
      pmReadout exThin ⟨quadraticK, none, 3⟩ none r (some lay) (if r = 0 then [[7 / 4]] else []) .none fun _ => 1)
      (fun r => .ok (if r = 0 then [5 / 16] else [])) ∧
    readout ((exThin.serial [1]).painter ⟨quadraticK, none, 3⟩ none 0) (fun _ => 1) [⟨[7 / 4], 1, 1⟩] = some [1] :=
  ⟨AllReturn.of_runAll 20 (by decide +kernel), by decide +kernel⟩

/-- **C24 violated** for particles with a smoothing length and the default smoothing, as in `C23_violated_hsml`: a field that is 1 everywhere is
read as 3/4. -/
theorem C24_violated_hsml :
    AllReturn 2 (fun r => (pmDecompose exMesh (exMesh.smoothing exWin) r (if r = 0 then [[2]] else [])).andThen fun lay =>
      pmReadout exMesh exWin none r (some lay) (if r = 0 then [[2]] else []) (.array (if r = 0 then [4] else [])) fun _ => 1)
      (fun r => .ok (if r = 0 then [3 / 4] else [])) ∧
    readout ((exMesh.serial [1]).painter exWin none 0) (fun _ => 1) [⟨[2], 1, 4⟩] = some [1] :=
  ⟨AllReturn.of_runAll 40 (by decide +kernel), by decide +kernel⟩

#print axioms C23_paint_partial
#print axioms C24_readout_partial
#print axioms C24_violated_halo
#print axioms C24_violated_hsml
#print axioms C23_violated_hsml
#print axioms C23_violated_scalar_mass
#print axioms C23_violated_halo
#print axioms C23_violated_empty_slabs

end Pmesh
