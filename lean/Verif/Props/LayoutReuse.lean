import Verif.Props.Mesh

/-!
# C61: a layout used after the particles have moved

Codes that move particles (`pmesh/lic.py` is one) call `decompose` once and use the layout again for `paint` and
`readout` at the new positions.
-/

namespace Pmesh

section
open Classical
variable {K : Type} [Field K] [LinearOrder K] [IsStrictOrderedRing K] [FloorRing K]

/-- The windows of the particles at the positions `y`, widened on each axis by how far the particle has moved from
`x` (in cells), stay within the smoothing that rank `r` gave to `decompose`. -/
def MovesWithin (m : PMesh K) (w : Resampler K) (sm : ℕ → List K) (x y : ℕ → List (List K)) (hsml : ℕ → Quant K) : Prop :=
  ∀ r < m.nrank, (y r).length = (x r).length ∧ ∀ i < (x r).length, ∀ j < m.nmesh.length,
    ∃ s, w.Covers s ((hsml r).at i) ∧
      s + m.scale.getD j 0 * |((y r).getD i []).getD j 0 - ((x r).getD i []).getD j 0| ≤ (sm r).getD j 0

theorem covered_of_moves {m : PMesh K} (hm : m.OK) {w : Resampler K} (hw : w.Valid) (gradient : Option ℕ) {a : List ℕ}
    (ho : ∀ r < m.nrank, a[cOrder m.shape (m.coord r)]? = some r) {sm : ℕ → List K} {x y : ℕ → List (List K)}
    (hx : ∀ r < m.nrank, ∀ p ∈ x r, p.length = m.nmesh.length) (hy : ∀ r < m.nrank, ∀ p ∈ y r, p.length = m.nmesh.length)
    {hsml : ℕ → Quant K} (hmove : MovesWithin m w sm x y hsml) {L : ℕ → Lay}
    (hsent : ∀ q < m.nrank, ∀ r < m.nrank, (L q).sentIdx r = (List.range (x q).length).filter fun i =>
      decide ((m.gridWith a).Reaches (sm q) (m.toGrid ((x q).getD i [])) r)) : Covered m w gradient y hsml L := by
  have h : ∀ q i j, ∃ s, q < m.nrank → i < (x q).length → j < m.nmesh.length → w.Covers s ((hsml q).at i) ∧
      s + m.scale.getD j 0 * |((y q).getD i []).getD j 0 - ((x q).getD i []).getD j 0| ≤ (sm q).getD j 0 := by
    intro q i j
    by_cases h : q < m.nrank ∧ i < (x q).length ∧ j < m.nmesh.length
    · obtain ⟨s, hs⟩ := (hmove q h.1).2 i h.2.1 j h.2.2
      exact ⟨s, fun _ _ _ => hs⟩
    · exact ⟨0, fun h1 h2 h3 => absurd ⟨h1, h2, h3⟩ h⟩
  choose s hs using h
  have e : ∀ q i, ∀ j < m.nmesh.length, ((List.range m.nmesh.length).map (s q i)).getD j 0 = s q i j := by
    intro q i j hj
    rw [List.getD_eq_getElem _ _ (by simpa using hj)]; simp
  refine covered_of_near hm hw gradient ho hx hy (fun r hr => (hmove r hr).1) hsent
    (s := fun q i => (List.range m.nmesh.length).map (s q i)) (fun q hq i hi j hj => ?_) (fun q hq i hi j hj => ?_)
  · rw [e q i j hj]; exact (hs q i j hq hi hj).1
  · rw [e q i j hj]; exact (hs q i j hq hi hj).2

/-- **C61** (paint).  All ranks finish `decompose` at the positions `x` and then `paint` with that layout at other
positions `y`, and each rank holds its piece of the field that a single process paints at `y`, provided that no
particle has moved by more than the smoothing that is left beside its window. The ranks may give different smoothing to
`decompose`. Partial: the restrictions on the halo and on empty slabs of C23. -/
theorem C61_paint_partial (m : PMesh K) (hm : m.OK) (hp : m.PlainRanks) (w : Resampler K) (hw : w.Valid)
    (sm : ℕ → List K) (hsm : ∀ r < m.nrank, m.SmoothingOK (sm r)) (hh : ∀ r < m.nrank, m.HaloFits (sm r))
    (gradient : Option ℕ) (hold : Bool) (x y : ℕ → List (List K))
    (hx : ∀ r < m.nrank, ∀ p ∈ x r, p.length = m.nmesh.length) (hy : ∀ r < m.nrank, ∀ p ∈ y r, p.length = m.nmesh.length)
    (mass hsml : ℕ → Quant K)
    (hmass : QuantOK m.nrank (fun r => (y r).length) mass) (hhsml : QuantOK m.nrank (fun r => (y r).length) hsml)
    (hmove : MovesWithin m w sm x y hsml) (strides : List ℤ) (hser : (m.serial strides).Distinct 0)
    (out : ℕ → ℤ → K) (glob : ℤ → K) (hout : hold = true → ∀ r < m.nrank, m.PieceOf strides glob (out r) r) :
    ∃ (memS : ℤ → K) (mem : ℕ → ℤ → K),
      paint ((m.serial strides).painter w gradient 0) (if hold then glob else fun _ => 0)
        (allParticles m.nrank y mass hsml) = some memS ∧
      AllReturn m.nrank (fun r => (pmDecompose m (sm r) r (x r)).andThen fun lay =>
          pmPaint m w gradient hold r (some lay) (y r) (mass r) (hsml r) (out r))
        (fun r => .ok (mem r)) ∧
      ∀ r < m.nrank, m.PieceOf strides memS (mem r) r := by
  obtain ⟨a, L, ho, hL, hsent, hdec⟩ := pmDecompose_return_ranks hm hm.nrank_pos hp hsm hh hx
  have hC := covered_of_moves hm hw gradient ho hx hy hmove (fun q hq r hr => (hsent q hq).2 r hr)
  obtain ⟨memS, mem, h1, h2, h3⟩ := paint_of_covered hm hw gradient hold hy hmass hhsml hL
    (fun q hq => by rw [(hsent q hq).1, (hmove q hq).1])
    (fun q hq r hr => by rw [(hsent q hq).2 r hr]; exact List.nodup_range.filter _) hC strides hser out glob hout
  exact ⟨memS, mem, h1, AllReturn.andThen hdec h2, fun r hr => (h3 r hr).1⟩

/-- **C61** (readout).  The same for `readout`: each rank gets for its particles the values that a single process reads
at `y`. Partial: as above. -/
theorem C61_readout_partial (m : PMesh K) (hm : m.OK) (hp : m.PlainRanks) (w : Resampler K) (hw : w.Valid)
    (sm : ℕ → List K) (hsm : ∀ r < m.nrank, m.SmoothingOK (sm r)) (hh : ∀ r < m.nrank, m.HaloFits (sm r))
    (gradient : Option ℕ) (x y : ℕ → List (List K))
    (hx : ∀ r < m.nrank, ∀ p ∈ x r, p.length = m.nmesh.length) (hy : ∀ r < m.nrank, ∀ p ∈ y r, p.length = m.nmesh.length)
    (hsml : ℕ → Quant K) (hhsml : QuantOK m.nrank (fun r => (y r).length) hsml)
    (hmove : MovesWithin m w sm x y hsml) (strides : List ℤ) (field : ℕ → ℤ → K) (glob : ℤ → K)
    (hf : ∀ r < m.nrank, m.PieceOf strides glob (field r) r) :
    ∃ res : ℕ → List K,
      AllReturn m.nrank (fun r => (pmDecompose m (sm r) r (x r)).andThen fun lay =>
        pmReadout m w gradient r (some lay) (y r) (hsml r) (field r)) (fun r => .ok (res r)) ∧
      ∀ r < m.nrank, readout ((m.serial strides).painter w gradient 0) glob (particlesOf (y r) .none (hsml r)) =
        some (res r) := by
  obtain ⟨a, L, ho, hL, hsent, hdec⟩ := pmDecompose_return_ranks hm hm.nrank_pos hp hsm hh hx
  have hC := covered_of_moves hm hw gradient ho hx hy hmove (fun q hq r hr => (hsent q hq).2 r hr)
  obtain ⟨res, h1, h2⟩ := readout_of_covered hm hw gradient hy hhsml hL (fun q hq => by rw [(hsent q hq).1, (hmove q hq).1])
    (fun q hq r hr => by rw [(hsent q hq).2 r hr]; exact List.nodup_range.filter _) hC strides field glob hf
  exact ⟨res, AllReturn.andThen hdec h1, h2⟩

end

/-! ## The hypotheses can be met -/

/-- A particle that moves over the edge of a slab, and one that moves over the end of the box. -/
def exMoveX (r : ℕ) : List (List ℚ) := if r = 0 then [[15 / 2]] else [[7 / 2]]
def exMoveY (r : ℕ) : List (List ℚ) := if r = 0 then [[33 / 4]] else [[17 / 4]]

/-- The smoothing is that of the window plus one cell on rank 0 and 3/4 of a cell on rank 1. -/
def exMoveSm (r : ℕ) : List ℚ := if r = 0 then [2] else [7 / 4]

theorem exMove_within : MovesWithin exMesh exWin exMoveSm exMoveX exMoveY (fun _ => .none) := by
  intro r hr
  have : r = 0 ∨ r = 1 := by simp only [exMesh] at hr; omega
  refine ⟨by rcases this with rfl | rfl <;> rfl, fun i hi j hj => ⟨1, exWin_covers, ?_⟩⟩
  have hj0 : j = 0 := by simp only [exMesh, List.length_singleton] at hj; omega
  subst hj0
  rcases this with rfl | rfl
  · have : i = 0 := by simpa [exMoveX] using hi
    subst this; decide +kernel
  · have : i = 0 := by simpa [exMoveX] using hi
    subst this; decide +kernel

theorem exMove_smooth : ∀ r < exMesh.nrank, exMesh.SmoothingOK (exMoveSm r) := by
  intro r hr
  have : r = 0 ∨ r = 1 := by simp only [exMesh] at hr; omega
  rcases this with rfl | rfl <;> exact ⟨rfl, by decide +kernel⟩

theorem exMove_halo : ∀ r < exMesh.nrank, exMesh.HaloFits (exMoveSm r) := by
  intro r hr
  have : r = 0 ∨ r = 1 := by simp only [exMesh] at hr; omega
  rcases this with rfl | rfl <;> · unfold PMesh.HaloFits; decide +kernel

/-- Non-vacuity of C61. -/
example := C61_paint_partial exMesh exMesh_ok exMesh_plain exWin exWin_valid exMoveSm exMove_smooth exMove_halo none false
  exMoveX exMoveY (by decide) (by decide) (fun r => .array [(r : ℚ)]) (fun _ => .none)
  (Or.inr (Or.inr (by intro r hr; exact ⟨_, rfl, by simp only [exMoveY]; split <;> rfl⟩))) (Or.inl fun _ _ => rfl)
  exMove_within [1] exMesh_serial (fun _ _ => 7) (fun _ => 5) (by simp)

example := C61_readout_partial exMesh exMesh_ok exMesh_plain exWin exWin_valid exMoveSm exMove_smooth exMove_halo (some 0)
  exMoveX exMoveY (by decide) (by decide) (fun _ => .none) (Or.inl fun _ _ => rfl)
  exMove_within [1] (fun r a => (4 * r + a : ℚ)) (fun a => (a : ℚ)) (by
    intro r hr c hc
    obtain ⟨i, rfl⟩ := List.length_eq_one_iff.1 ((validIndex_iff.1 hc).1.trans (by simp [PMesh.localShape, exMesh]))
    have : r = 0 ∨ r = 1 := by simp only [exMesh] at hr; omega
    rcases this with rfl | rfl <;>
      simp [PMesh.addr, PMesh.serial, PMesh.global, PMesh.start, exMesh])

/-! ## The condition cannot be dropped -/

/-- **C61 violated** with the default smoothing: it leaves no room for moving. The particle of rank 0 moves from 2 to
13/4; a quarter of its mass belongs into cell 4 of rank 1 and is lost (element 0 of rank 1 stays empty). -/
theorem C61_violated_default :
    AllReturn 2 (fun r => ((pmDecompose exMesh (exMesh.smoothing exWin) r (if r = 0 then [[2]] else [])).andThen fun lay =>
        pmPaint exMesh exWin none false r (some lay) (if r = 0 then [[13 / 4]] else []) .none .none fun _ => 0).andThen fun mem =>
          .ret (.ok (mem 0))) (fun _ => .ok 0) ∧
    (paint ((exMesh.serial [1]).painter exWin none 0) (fun _ => 0) [⟨[13 / 4], 1, 1⟩]).map (fun m => m 4) = some (1 / 4) :=
  ⟨AllReturn.of_runAll 20 (by decide +kernel), by decide +kernel⟩

#print axioms C61_paint_partial
#print axioms C61_readout_partial
#print axioms C61_violated_default

end Pmesh
