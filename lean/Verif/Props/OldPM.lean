import Verif.Lemmas.OldPM
import Verif.Props.Mesh

/-!
# C65: the deprecated `ParticleMesh`, pmesh/particlemesh.py

The reference is the painter of the new code in a single process.
-/

namespace Pmesh

section
variable {K : Type} [Field K] [LinearOrder K] [IsStrictOrderedRing K] [FloorRing K]

/-- **C65** (paint).  With the default brush, all ranks finish `decompose`, the exchange of positions and masses and `paint`, and
afterwards each rank holds its piece of what a single process with the new cic window adds to the field, the masses divided by
the volume of a cell; with numba or without, any number of ranks, any positions, and on top of whatever was in the field.
Partial: the ranks of the FFT library must be in C order (`C65_violated_order`), the real field must be C-contiguous, the slabs must not
be so wide that the halo wraps around. -/
theorem C65_paint_partial (m : PMesh K) (hm : m.OK) (N : ℕ) (hN : m.nmesh = [N, N, N]) (hr : m.CRanks) (hc : m.CContiguous)
    (hh : m.HaloFits [1, 1, 1]) (numba : Bool) (pos : ℕ → List (List K))
    (hpos : ∀ r < m.nrank, ∀ x ∈ pos r, x.length = 3) (mass : ℕ → Quant K) (hmass : QuantOK m.nrank (fun r => (pos r).length) mass)
    (strides : List ℤ) (hser : (m.serial strides).Distinct 0) (real : ℕ → ℤ → K) (glob : ℤ → K)
    (hreal : ∀ r < m.nrank, m.PieceOf strides glob (real r) r) :
    ∃ (memS : ℤ → K) (mem : ℕ → ℤ → K),
      paint ((m.serial strides).painter cicWindow none 0) glob
        (asDensity m.cellVolume (allParticles m.nrank pos mass fun _ => .none)) = some memS ∧
      AllReturn m.nrank (fun r => (oldDecompose m r (pos r)).andThen fun lay =>
        oldPaint m N .cic numba true r lay (pos r) (mass r) (real r)) (fun r => .ok (mem r)) ∧
      ∀ r < m.nrank, m.PieceOf strides memS (mem r) r := by
  classical
  have h3 : m.nmesh.length = 3 := by rw [hN]; rfl
  have hone : List.replicate m.nmesh.length (1 : K) = [1, 1, 1] := by rw [h3]; rfl
  have hpos' : ∀ r < m.nrank, ∀ x ∈ pos r, x.length = m.nmesh.length := by rw [h3]; exact hpos
  have hn := hm.nrank_pos
  obtain ⟨a, L, ho, hL, hsent, hdec⟩ := pmDecompose_return hm hn (Or.inr hr) (smooth_one m) (by rw [hone]; exact hh) hpos'
  have hlen : ∀ q < m.nrank, (L q).sendlength = (pos q).length := fun q hq => (hsent q hq).1
  have hnd : ∀ q < m.nrank, ∀ r < m.nrank, ((L q).sentIdx r).Nodup := fun q hq r hr => by
    rw [(hsent q hq).2 r hr]; exact List.nodup_range.filter _
  have hC := covered_cic hm ho hpos' (fun q hq r hr => (hsent q hq).2 r hr)
  have hnone : QuantOK m.nrank (fun r => (pos r).length) (fun _ => (.none : Quant K)) := Or.inl fun _ _ => rfl
  obtain ⟨memS, memN, h1, h2, h3⟩ := paint_of_covered hm cicWindow_valid none true hpos' (hmass.times (oldNorm m N)) hnone hL hlen hnd hC
    strides hser real glob (fun _ => hreal)
  rw [allParticles_times, heavier_asDensity hm hN, if_pos rfl] at h1
  have hexp := AllReturn.unique h2 (pmPaint_return hm.dim cicWindow_valid none true hn (.layout hL hlen) hpos'
    (hmass.times (oldNorm m N)) hnone real)
  set recv : ℕ → List (Particle K) := fun r => (List.range m.nrank).flatMap fun q =>
    ((L q).sentIdx r).map (partAt pos mass (fun _ => .none) q) with hrecv
  have hrl : ∀ r, ∀ p ∈ recv r, p.pos.length = m.nmesh.length ∧ p.hsml = 1 := by
    intro r p hp
    refine ⟨received_len (.layout hL hlen) hpos' mass (fun _ => .none) r p hp, ?_⟩
    obtain ⟨q, _, hp⟩ := List.mem_flatMap.1 hp
    obtain ⟨i, _, rfl⟩ := List.mem_map.1 hp
    rfl
  have hloc : ∀ r, ∃ mem, r < m.nrank → oldPaintLocal m N .cic numba true r (real r) (recv r) = some mem ∧
      ∀ c, ValidIndex (m.localShape r) c → mem (m.addr r c) = memN r (m.addr r c) := by
    intro r
    by_cases hrr : r < m.nrank
    · obtain ⟨mem, mem', e1, e2, e3⟩ := oldPaintLocal_eq hm hN hc numba hrr (real r) (hrl r)
      refine ⟨mem, fun _ => ⟨e1, fun c hcv => ?_⟩⟩
      rw [e3 c hcv]
      rw [paint_eq _ (painter_valid cicWindow_valid hm.dim none r) _ (by
        intro p hp
        obtain ⟨q, hq, rfl⟩ := List.mem_map.1 hp
        rw [painter_len]
        exact (hrl r q hq).1)] at e2
      have e4 := Except.ok.inj (hexp r hrr)
      rw [recv_times] at e4
      rw [e4, ← Option.some.inj e2]
      rfl
    · exact ⟨fun _ => 0, fun h => absurd h hrr⟩
  choose mem hmem using hloc
  refine ⟨memS, mem, h1, ?_, ?_⟩
  · refine AllReturn.andThen (f := L) (AllReturn.congr (fun r _ => oldDecompose_eq hm hr r (pos r)) (fun _ _ => rfl) hdec) ?_
    unfold oldPaint
    refine pmRoute_return m hn (lay := fun r => some (L r)) (.layout hL hlen) hmass hnone (R := Except MeshErr (ℤ → K)) (k := fun r e => match e with
      | .error e => .ret (.error e)
      | .ok ps =>
        match oldPaintLocal m N .cic numba true r (real r) ps with
        | none => .ret (.error .value)
        | some mem => .ret (.ok mem)) ?_
    refine AllReturn.congr (fun r hr => ?_) (fun _ _ => rfl) (AllReturn.ret _ _)
    have := (hmem r hr).1
    rw [hrecv] at this
    simp only [this]
  · intro r hr c hcv
    rw [(hmem r hr).2 c hcv]
    exact (h3 r hr).1 c hcv

/-- **C65** (readout).  All ranks finish `decompose`, the exchange of the positions, `readout` and `gather`, and get the values that a single
process reads from the whole field with the new cic window. Partial: as `C65_paint_partial`. -/
theorem C65_readout_partial (m : PMesh K) (hm : m.OK) (N : ℕ) (hN : m.nmesh = [N, N, N]) (hr : m.CRanks) (hc : m.CContiguous)
    (hh : m.HaloFits [1, 1, 1]) (numba : Bool) (pos : ℕ → List (List K))
    (hpos : ∀ r < m.nrank, ∀ x ∈ pos r, x.length = 3) (strides : List ℤ) (real : ℕ → ℤ → K) (glob : ℤ → K)
    (hreal : ∀ r < m.nrank, m.PieceOf strides glob (real r) r) :
    ∃ res : ℕ → List K,
      AllReturn m.nrank (fun r => (oldDecompose m r (pos r)).andThen fun lay =>
        oldReadout m N numba true r lay (pos r) (real r)) (fun r => .ok (res r)) ∧
      ∀ r < m.nrank, readout ((m.serial strides).painter cicWindow none 0) glob (particlesOf (pos r) .none .none) = some (res r) := by
  classical
  have h3 : m.nmesh.length = 3 := by rw [hN]; rfl
  have hone : List.replicate m.nmesh.length (1 : K) = [1, 1, 1] := by rw [h3]; rfl
  have hpos' : ∀ r < m.nrank, ∀ x ∈ pos r, x.length = m.nmesh.length := by rw [h3]; exact hpos
  have hn := hm.nrank_pos
  obtain ⟨a, L, ho, hL, hsent, hdec⟩ := pmDecompose_return hm hn (Or.inr hr) (smooth_one m) (by rw [hone]; exact hh) hpos'
  have hlen : ∀ q < m.nrank, (L q).sendlength = (pos q).length := fun q hq => (hsent q hq).1
  have hnd : ∀ q < m.nrank, ∀ r < m.nrank, ((L q).sentIdx r).Nodup := fun q hq r hr => by
    rw [(hsent q hq).2 r hr]; exact List.nodup_range.filter _
  have hC := covered_cic hm ho hpos' (fun q hq r hr => (hsent q hq).2 r hr)
  have hnone : QuantOK m.nrank (fun r => (pos r).length) (fun _ => (.none : Quant K)) := Or.inl fun _ _ => rfl
  obtain ⟨res, h1, h2⟩ := readout_of_covered hm cicWindow_valid none hpos' hnone hL hlen hnd hC strides real glob hreal
  set recv : ℕ → List (Particle K) := fun r => (List.range m.nrank).flatMap fun q =>
    ((L q).sentIdx r).map (partAt pos (fun _ => .none) (fun _ => .none) q) with hrecv
  have hrl : ∀ r, ∀ p ∈ recv r, p.pos.length = m.nmesh.length ∧ p.hsml = 1 := by
    intro r p hp
    refine ⟨received_len (.layout hL hlen) hpos' (fun _ => .none) (fun _ => .none) r p hp, ?_⟩
    obtain ⟨q, _, hp⟩ := List.mem_flatMap.1 hp
    obtain ⟨i, _, rfl⟩ := List.mem_map.1 hp
    rfl
  have hloc : ∀ r, ∃ vals, r < m.nrank → oldReadoutLocal m N numba true r (real r) (recv r) = some vals ∧
      readout (m.painter cicWindow none r) (real r) (recv r) = some vals := by
    intro r
    by_cases hrr : r < m.nrank
    · obtain ⟨v, e1, e2⟩ := oldReadoutLocal_eq hm hN hc numba hrr (real r) (hrl r)
      exact ⟨v, fun _ => ⟨e1, e2⟩⟩
    · exact ⟨[], fun h => absurd h hrr⟩
  choose vals hvals using hloc
  have hvl : ∀ r < m.nrank, (vals r).length = (L r).recvlength := by
    intro r hr
    have e := (hvals r hr).2
    rw [readout_eq _ (painter_valid cicWindow_valid hm.dim none r) _ (fun p hp => by rw [painter_len]; exact (hrl r p hp).1)] at e
    rw [← Option.some.inj e, List.length_map]
    exact received_length hL (partAt pos (fun _ => .none) (fun _ => .none)) hr
  obtain ⟨g, hg, _, _⟩ := pmGather_return hn hL hvl
  have hnew : AllReturn m.nrank (fun r => pmReadout m cicWindow none r (some (L r)) (pos r) .none (real r)) (fun r => .ok (g r)) := by
    unfold pmReadout
    refine pmRoute_return m hn (lay := fun r => some (L r)) (.layout hL hlen) hnone hnone (R := Except MeshErr (List K)) (k := fun r e => match e with
      | .error e => .ret (.error e)
      | .ok ps =>
        match readout (m.painter cicWindow none r) (real r) ps with
        | none => .ret (.error .value)
        | some vals => pmGather r (L r) vals) ?_
    refine AllReturn.congr (fun r hr => ?_) (fun _ _ => rfl) hg
    have := (hvals r hr).2
    rw [hrecv] at this
    simp only [this]
  have hu := AllReturn.unique h1 hnew
  refine ⟨res, ?_, h2⟩
  refine AllReturn.andThen (f := L) (AllReturn.congr (fun r _ => oldDecompose_eq hm hr r (pos r)) (fun _ _ => rfl) hdec) ?_
  refine AllReturn.congr (fun _ _ => rfl) hu ?_
  unfold oldReadout
  refine pmRoute_return m hn (lay := fun r => some (L r)) (.layout hL hlen) hnone hnone (R := Except MeshErr (List K)) (k := fun r e => match e with
    | .error e => .ret (.error e)
    | .ok ps =>
      match oldReadoutLocal m N numba true r (real r) ps with
      | none => .ret (.error .value)
      | some vals => pmGather r (L r) vals) ?_
  refine AllReturn.congr (fun r hr => ?_) (fun _ _ => rfl) hg
  have := (hvals r hr).1
  rw [hrecv] at this
  simp only [this]

end

/-! ## The hypotheses can be met -/

/-- `4³` cells on two ranks, the box being `4 × 8 × 2`. -/
def exOldMesh : PMesh ℚ := ⟨[4, 4, 4], [4, 8, 2], [[0, 2, 4], [0, 4], [0, 4]], 2, fun r => [r, 0, 0], fun _ => [16, 4, 1], fun _ => 77⟩

theorem exOldMesh_valid {r : ℕ} (hr : r < 2) {c : List ℕ} (h : ValidIndex (exOldMesh.localShape r) c) :
    ∃ i j k, c = [i, j, k] ∧ i < 2 ∧ j < 4 ∧ k < 4 := by
  have e : exOldMesh.localShape r = [2, 4, 4] := by interval_cases r <;> decide
  rw [e] at h
  obtain ⟨hl, hb⟩ := validIndex_iff.1 h
  obtain ⟨i, j, k, rfl⟩ := List.length_eq_three.1 hl
  exact ⟨i, j, k, rfl, by simpa using hb 0 (by simp), by simpa using hb 1 (by simp), by simpa using hb 2 (by simp)⟩

theorem exOldMesh_contiguous : exOldMesh.CContiguous := by
  intro r hr c hc
  obtain ⟨i, j, k, rfl, hi, hj, hk⟩ := exOldMesh_valid hr hc
  have e : exOldMesh.localShape r = [2, 4, 4] := by
    have hr : r < 2 := hr
    interval_cases r <;> decide
  rw [e]
  have : r < 2 := hr
  interval_cases r <;> interval_cases i <;> interval_cases j <;> interval_cases k <;> decide

theorem exOldMesh_ok : exOldMesh.OK where
  dim := by decide
  box_len := by decide
  box_pos := by decide
  edges := .cons (slabEdges_of_decide (by decide)) (.cons (slabEdges_of_decide (by decide)) (.cons (slabEdges_of_decide (by decide)) .nil))
  ranks := by decide
  coord_valid := by decide
  coord_inj := by decide
  distinct := by
    intro r hr c c' hc hc' h
    obtain ⟨i, j, k, rfl, hi, hj, hk⟩ := exOldMesh_valid hr hc
    obtain ⟨i', j', k', rfl, hi', hj', hk'⟩ := exOldMesh_valid hr hc'
    simp [PMesh.addr, exOldMesh] at h
    simp only [List.cons.injEq, and_true]
    omega

theorem exOldMesh_serial : (exOldMesh.serial [16, 4, 1]).Distinct 0 := by
  intro c c' hc hc' h
  have e : (exOldMesh.serial [16, 4, 1]).localShape 0 = [4, 4, 4] := by decide
  rw [e] at hc hc'
  obtain ⟨hl, hb⟩ := validIndex_iff.1 hc
  obtain ⟨i, j, k, rfl⟩ := List.length_eq_three.1 hl
  obtain ⟨hl', hb'⟩ := validIndex_iff.1 hc'
  obtain ⟨i', j', k', rfl⟩ := List.length_eq_three.1 hl'
  have h0 : i < 4 := by simpa using hb 0 (by simp)
  have h1 : j < 4 := by simpa using hb 1 (by simp)
  have h2 : k < 4 := by simpa using hb 2 (by simp)
  have h0' : i' < 4 := by simpa using hb' 0 (by simp)
  have h1' : j' < 4 := by simpa using hb' 1 (by simp)
  have h2' : k' < 4 := by simpa using hb' 2 (by simp)
  simp [PMesh.addr, PMesh.serial, exOldMesh] at h
  simp only [List.cons.injEq, and_true]
  omega

theorem exOldMesh_ranks : exOldMesh.CRanks := by unfold PMesh.CRanks; decide

theorem exOldMesh_halo : exOldMesh.HaloFits [1, 1, 1] := by unfold PMesh.HaloFits; decide +kernel

theorem exOldMesh_piece : ∀ r : ℕ, r < 2 → exOldMesh.PieceOf [16, 4, 1] (fun a => (a : ℚ)) (fun a => (32 * (r : ℕ) + a : ℚ)) r := by
  intro r hr c hc
  obtain ⟨i, j, k, rfl, hi, hj, hk⟩ := exOldMesh_valid hr hc
  interval_cases r <;> simp [PMesh.addr, PMesh.serial, PMesh.global, PMesh.start, exOldMesh] <;> ring

/-- Non-vacuity of C65: particles on the wrong ranks, with masses, painted over a field that is not empty. -/
example := C65_paint_partial exOldMesh exOldMesh_ok 4 rfl exOldMesh_ranks exOldMesh_contiguous exOldMesh_halo false
  (fun r => if r = 0 then [[15 / 4, 1, 1]] else [[7 / 4, 0, 1 / 2], [1 / 2, 1 / 3, 7]]) (by decide)
  (fun r => .array (if r = 0 then [3] else [1, 2]))
  (Or.inr (Or.inr (by intro r hr; refine ⟨_, rfl, ?_⟩; dsimp only; split <;> rfl)))
  [16, 4, 1] exOldMesh_serial (fun r a => (32 * r + a : ℚ)) (fun a => (a : ℚ)) exOldMesh_piece

example := C65_readout_partial exOldMesh exOldMesh_ok 4 rfl exOldMesh_ranks exOldMesh_contiguous exOldMesh_halo true
  (fun r => if r = 0 then [[15 / 4, 1, 1]] else [[7 / 4, 0, 1 / 2], [1 / 2, 1 / 3, 7]]) (by decide)
  [16, 4, 1] (fun r a => (32 * r + a : ℚ)) (fun a => (a : ℚ)) exOldMesh_piece

/-! ## Where the code violates the property -/

/-- `decompose`, `paint` on an empty canvas, and look at element `a` of the local array. -/
def oldPaintAndLook (m : PMesh ℚ) (N : ℕ) (brush : Brush) (pos : List (List ℚ)) (a : ℤ) (r : ℕ) :
    Prog (Msg (List ℚ)) (Except MeshErr ℚ) :=
  ((oldDecompose m r pos).andThen fun lay => oldPaint m N brush true true r lay pos .none fun _ => 0).andThen fun mem =>
    .ret (.ok (mem a))

/-- `6³` cells, on two ranks and on one. -/
def exOld6 : PMesh ℚ := ⟨[6, 6, 6], [6, 6, 6], [[0, 3, 6], [0, 6], [0, 6]], 2, fun r => [r, 0, 0], fun _ => [36, 6, 1], fun _ => 77⟩
def exOld6Serial : PMesh ℚ := ⟨[6, 6, 6], [6, 6, 6], [[0, 6], [0, 6], [0, 6]], 1, fun _ => [0, 0, 0], fun _ => [36, 6, 1], fun _ => 77⟩

/-- **C65 violated** for `paintbrush='tsc'`: the window reaches 3/2 cells to each side, and `tsc.paint` moves everything down by one cell
(C52), but `decompose` sends a particle only to the ranks within one cell. Of the particle at 17/4 a single process puts 9/512 into
cell (2, 1, 1); on two ranks rank 0, which holds that cell, gets nothing. -/
theorem C65_violated_tsc :
    AllReturn 2 (fun r => oldPaintAndLook exOld6 6 .tsc (if r = 0 then [[17 / 4, 2, 2]] else []) 79 r) (fun _ => .ok 0) ∧
    AllReturn 1 (fun r => oldPaintAndLook exOld6Serial 6 .tsc [[17 / 4, 2, 2]] 79 r) (fun _ => .ok (9 / 512)) :=
  ⟨AllReturn.of_runAll 20 (by decide +kernel), AllReturn.of_runAll 20 (by decide +kernel)⟩

/-- The slabs of `exOld6`, the other way round. -/
def exOld6Reversed : PMesh ℚ := { exOld6 with coord := fun r => [1 - r, 0, 0] }

/-- **C65 violated** when the FFT library does not hand out the slabs in C order: unlike the new class, the domain decomposition has the
default `DomainAssign`. The particle at (1, 2, 2) goes to rank 0, which holds the other half of the mesh, and is lost; on a
single rank cell (1, 2, 2) gets its mass. -/
theorem C65_violated_order :
    AllReturn 2 (fun r => oldPaintAndLook exOld6Reversed 6 .cic (if r = 0 then [[1, 2, 2]] else []) 50 r) (fun _ => .ok 0) ∧
    exOld6Reversed.global 1 [1, 2, 2] = [1, 2, 2] ∧ exOld6Reversed.addr 1 [1, 2, 2] = 50 ∧
    AllReturn 1 (fun r => oldPaintAndLook exOld6Serial 6 .cic [[1, 2, 2]] 50 r) (fun _ => .ok 1) :=
  ⟨AllReturn.of_runAll 20 (by decide +kernel), by decide, by decide, AllReturn.of_runAll 20 (by decide +kernel)⟩

/-- **C65 violated** for the name of the brush: `paintbrush.lower()` is stored, but it is the name as given that is compared, so
`'CIC'` and `'TSC'` raise ValueError. -/
theorem C65_violated_name : brushOf "cic" = some .cic ∧ brushOf "tsc" = some .tsc ∧ brushOf "CIC" = none ∧ brushOf "TSC" = none := by
  decide

#print axioms C65_paint_partial
#print axioms C65_readout_partial
#print axioms C65_violated_tsc
#print axioms C65_violated_order
#print axioms C65_violated_name

end Pmesh
