import Verif.Lemmas.MeshPaint
import Verif.Lemmas.Exec

/-! # Painting and readout with a layout that sends every particle where its window is not zero -/

namespace Pmesh

section
open Classical
variable {K : Type} [Field K] [LinearOrder K] [IsStrictOrderedRing K] [FloorRing K]

theorem sum_eq_range_of_nodup {l : List ℕ} (hnd : l.Nodup) {n : ℕ} (hlt : ∀ i ∈ l, i < n) {f : ℕ → K}
    (h0 : ∀ i ∈ List.range n, i ∉ l → f i = 0) : (l.map f).sum = ((List.range n).map f).sum := by
  have hperm : l.Perm ((List.range n).filter fun i => decide (i ∈ l)) := by
    rw [List.perm_ext_iff_of_nodup hnd (List.nodup_range.filter _)]
    intro i
    rw [List.mem_filter, List.mem_range, decide_eq_true_iff]
    exact ⟨fun h => ⟨hlt i h, h⟩, fun h => h.2⟩
  rw [(hperm.map f).sum_eq, sum_filter_of_zero]
  intro i hi hf
  exact h0 i hi (decide_eq_false_iff_not.1 hf)

/-- Every particle is sent to every rank on which its window is not zero. -/
def Covered (m : PMesh K) (w : Resampler K) (g : Option ℕ) (pos : ℕ → List (List K)) (hsml : ℕ → Quant K) (L : ℕ → Lay) : Prop :=
  ∀ q < m.nrank, ∀ i < (pos q).length, ∀ r < m.nrank, ∀ c, ValidIndex (m.localShape r) c →
    cwProd (List.zipWith (axisStencil (m.painter w g r) ((hsml q).at i)) (m.painter w g r).axes ((pos q).getD i [])) c ≠ 0 →
    i ∈ (L q).sentIdx r

/-- `readout` with a layout that sends every particle at most once to a rank, and to every rank where its window is not zero. -/
theorem readout_of_covered {m : PMesh K} (hm : m.OK) {w : Resampler K} (hw : w.Valid) (gradient : Option ℕ) {pos : ℕ → List (List K)}
    (hpos : ∀ r < m.nrank, ∀ x ∈ pos r, x.length = m.nmesh.length) {hsml : ℕ → Quant K}
    (hhsml : QuantOK m.nrank (fun r => (pos r).length) hsml) {L : ℕ → Lay} (hL : LayOK m.nrank L)
    (hlen : ∀ q < m.nrank, (L q).sendlength = (pos q).length) (hnd : ∀ q < m.nrank, ∀ r < m.nrank, ((L q).sentIdx r).Nodup)
    (hcov : Covered m w gradient pos hsml L)
    (strides : List ℤ) (field : ℕ → ℤ → K) (glob : ℤ → K) (hf : ∀ r < m.nrank, m.PieceOf strides glob (field r) r) :
    ∃ res : ℕ → List K,
      AllReturn m.nrank (fun r => pmReadout m w gradient r (some (L r)) (pos r) (hsml r) (field r)) (fun r => .ok (res r)) ∧
      ∀ r < m.nrank, readout ((m.serial strides).painter w gradient 0) glob (particlesOf (pos r) .none (hsml r)) =
        some (res r) := by
  set part := partAt pos (fun _ => (.none : Quant K)) hsml with hpartdef
  obtain ⟨res, hres, hrl, hent⟩ := pmReadout_return hm.dim hw gradient hm.nrank_pos (.layout hL hlen) hpos hhsml field
  refine ⟨res, hres, ?_⟩
  intro q hq
  have hglen := hrl q hq
  rw [readout_eq _ (painter_valid (m := m.serial strides) hw hm.dim gradient 0) _ (fun p hp => ?_) _]
  · congr 1
    apply List.ext_getElem
    · simp [particlesOf, hglen]
    · intro i h1 h2
      have hi : i < (pos q).length := by omega
      have hx : (part q i).pos.length = m.nmesh.length := partAt_len hpos _ hsml hq hi
      rw [← List.getD_eq_getElem (res q) 0 h2, hent q hq i hi]
      have hone : ∀ r < m.nrank, (((L q).sentIdx r).map fun j => if j = i then
          readOn m w gradient (field r) r (part q j) else 0).sum =
          if i ∈ (L q).sentIdx r then readOn m w gradient (field r) r (part q i) else 0 := by
        intro r hr
        rw [← sum_filter_eq_of_nodup _ (hnd q hq r hr) (fun j => readOn m w gradient (field r) r (part q j)) i, ← filter_zip_sum,
          zip_self_map, List.filter_map, List.map_map]
        rfl
      rw [List.map_congr_left (fun r hr => hone r (List.mem_range.1 hr))]
      have hsl : ((m.serial strides).localShape 0).length = (m.serial strides).nmesh.length := by
        rw [serial_localShape]; rfl
      -- all ranks together
      have hall : ∀ r < m.nrank, (if i ∈ (L q).sentIdx r then readOn m w gradient (field r) r (part q i) else 0) =
          ((ndindex (m.localShape r)).map fun c =>
            (fun C => cwProd (List.zipWith (axisStencil ((m.serial strides).painter w gradient 0) (part q i).hsml)
              ((m.serial strides).painter w gradient 0).axes (part q i).pos) C *
              glob ((m.serial strides).addr 0 C)) (m.global r c)).sum := by
        intro r hr
        have hshl := hm.localShape_len hr
        have hv : readOn m w gradient (field r) r (part q i) = ((ndindex (m.localShape r)).map fun c =>
            (fun C => cwProd (List.zipWith (axisStencil ((m.serial strides).painter w gradient 0) (part q i).hsml)
              ((m.serial strides).painter w gradient 0).axes (part q i).pos) C *
              glob ((m.serial strides).addr 0 C)) (m.global r c)).sum := by
          unfold readOn weightOn
          rw [shapeOf_painter w gradient r hshl]
          congr 1
          apply List.map_congr_left
          intro c hc
          rw [mem_ndindex] at hc
          have hcl := (validIndex_iff.1 hc).1
          rw [cwProd_local_serial hm strides w gradient hr _ hx hc, elemAddr_painter w gradient r (by omega),
            hf r hr c hc]
        split
        · exact hv
        · next hni =>
          rw [← hv]
          unfold readOn weightOn
          symm
          apply List.sum_eq_zero
          intro y hy
          obtain ⟨c, hc, rfl⟩ := List.mem_map.1 hy
          rw [mem_ndindex, shapeOf_painter w gradient r hshl] at hc
          by_contra hne
          exact hni (hcov q hq i hi r hr c hc (left_ne_zero_of_mul hne))
      rw [List.map_congr_left (fun r hr => hall r (List.mem_range.1 hr))]
      refine Eq.trans ?_ (sum_ranks hm (fun C => cwProd (List.zipWith
        (axisStencil ((m.serial strides).painter w gradient 0) (part q i).hsml)
        ((m.serial strides).painter w gradient 0).axes (part q i).pos) C * glob ((m.serial strides).addr 0 C))).symm
      simp only [particlesOf, List.map_map, List.getElem_map, List.getElem_range, Function.comp]
      rw [shapeOf_painter w gradient 0 hsl, serial_localShape]
      congr 1
      apply List.map_congr_left
      intro C hC
      rw [mem_ndindex] at hC
      rw [elemAddr_painter w gradient 0 (m := m.serial strides) (validIndex_iff.1 hC).1]
      rfl
  · obtain ⟨i, hi, rfl⟩ := List.mem_map.1 hp
    rw [painter_len]
    exact partAt_len hpos (fun _ => .none) hsml hq (List.mem_range.1 hi)

/-- `paint` with such a layout. -/
theorem paint_of_covered {m : PMesh K} (hm : m.OK) {w : Resampler K} (hw : w.Valid) (gradient : Option ℕ) (hold : Bool)
    {pos : ℕ → List (List K)} (hpos : ∀ r < m.nrank, ∀ x ∈ pos r, x.length = m.nmesh.length) {mass hsml : ℕ → Quant K}
    (hmass : QuantOK m.nrank (fun r => (pos r).length) mass) (hhsml : QuantOK m.nrank (fun r => (pos r).length) hsml)
    {L : ℕ → Lay} (hL : LayOK m.nrank L)
    (hlen : ∀ q < m.nrank, (L q).sendlength = (pos q).length) (hnd : ∀ q < m.nrank, ∀ r < m.nrank, ((L q).sentIdx r).Nodup)
    (hcov : Covered m w gradient pos hsml L)
    (strides : List ℤ) (hser : (m.serial strides).Distinct 0)
    (out : ℕ → ℤ → K) (glob : ℤ → K) (hout : hold = true → ∀ r < m.nrank, m.PieceOf strides glob (out r) r) :
    ∃ (memS : ℤ → K) (mem : ℕ → ℤ → K),
      paint ((m.serial strides).painter w gradient 0) (if hold then glob else fun _ => 0)
        (allParticles m.nrank pos mass hsml) = some memS ∧
      AllReturn m.nrank (fun r => pmPaint m w gradient hold r (some (L r)) (pos r) (mass r) (hsml r) (out r))
        (fun r => .ok (mem r)) ∧
      ∀ r < m.nrank, m.PieceOf strides memS (mem r) r ∧
        ∀ a, (∀ c, ValidIndex (m.localShape r) c → a ≠ m.addr r c) → mem r a = if hold then out r a else 0 := by
  have hlenAll : ∀ p ∈ allParticles m.nrank pos mass hsml, p.pos.length = m.nmesh.length := by
    intro p hp
    obtain ⟨r, hr, hp⟩ := List.mem_flatMap.1 hp
    obtain ⟨i, hi, rfl⟩ := List.mem_map.1 hp
    rw [List.mem_range] at hr hi
    simp only
    rw [List.getD_eq_getElem _ _ hi]
    exact hpos r hr _ (List.getElem_mem _)
  have hS := paint_eq ((m.serial strides).painter w gradient 0)
    (painter_valid (m := m.serial strides) hw hm.dim gradient 0)
    (allParticles m.nrank pos mass hsml) (fun p hp => by rw [painter_len]; exact hlenAll p hp)
    (if hold then glob else fun _ => 0)
  set recv : ℕ → List (Particle K) := fun r => (List.range m.nrank).flatMap fun q =>
    ((L q).sentIdx r).map (partAt pos mass hsml q) with hrecv
  have hpart : ∀ q < m.nrank, ∀ i < (pos q).length, partAt pos mass hsml q i ∈ allParticles m.nrank pos mass hsml :=
    fun q hq i hi => List.mem_flatMap.2 ⟨q, List.mem_range.2 hq, List.mem_map.2 ⟨i, List.mem_range.2 hi, rfl⟩⟩
  refine ⟨_, fun r a => (if hold then out r else fun _ => 0) a +
    ((recv r).map fun p => p.mass * unitDeposit (m.painter w gradient r) p a).sum, hS, ?_, ?_⟩
  · exact (pmPaint_return hm.dim hw gradient hold hm.nrank_pos (.layout hL hlen) hpos hmass hhsml out)
  · intro r hr
    have hshl := hm.localShape_len hr
    constructor
    · intro c hc
      have hcl := (validIndex_iff.1 hc).1
      have hgv := hm.global_valid hr hc
      have hgl := (validIndex_iff.1 hgv).1
      simp only
      congr 1
      · cases hold with
        | false => rfl
        | true => exact hout rfl r hr c hc
      · -- deposits
        have e1 : ∀ p : Particle K, unitDeposit (m.painter w gradient r) p (m.addr r c) =
            cwProd (List.zipWith (axisStencil (m.painter w gradient r) p.hsml) (m.painter w gradient r).axes p.pos) c := by
          intro p
          rw [← elemAddr_painter w gradient r (by omega)]
          exact unitDeposit_elem _ (distinct_painter w gradient r hshl (hm.distinct r hr)) p c
            (by rw [shapeOf_painter w gradient r hshl]; exact hc)
        have e2 : ∀ p : Particle K, unitDeposit ((m.serial strides).painter w gradient 0) p
              ((m.serial strides).addr 0 (m.global r c)) =
            cwProd (List.zipWith (axisStencil ((m.serial strides).painter w gradient 0) p.hsml)
              ((m.serial strides).painter w gradient 0).axes p.pos) (m.global r c) := by
          intro p
          have hsl : ((m.serial strides).localShape 0).length = (m.serial strides).nmesh.length := by
            rw [serial_localShape]; rfl
          rw [← elemAddr_painter w gradient 0 (m := m.serial strides) hgl]
          exact unitDeposit_elem _ (distinct_painter w gradient 0 hsl hser) p _
            (by rw [shapeOf_painter w gradient 0 hsl, serial_localShape]; exact hgv)
        simp only [e1, e2]
        rw [hrecv]
        unfold allParticles particlesOf
        rw [sum_flatMap', sum_flatMap']
        congr 1
        apply List.map_congr_left
        intro q hq
        rw [List.mem_range] at hq
        rw [List.map_map, List.map_map, sum_eq_range_of_nodup (hnd q hq r hr) (n := (pos q).length) (fun i hi => sent_lt (.layout hL hlen) hq hi)]
        · congr 1
          apply List.map_congr_left
          intro i hi
          rw [List.mem_range] at hi
          simp only [Function.comp, partAt]
          have := cwProd_local_serial hm strides w gradient hr ((hsml q).at i) (x := (pos q).getD i [])
            (hlenAll _ (hpart q hq i hi)) hc
          rw [this]
        · intro i hi hf
          rw [List.mem_range] at hi
          simp only [Function.comp]
          by_contra hne
          exact hf (hcov q hq i hi r hr c hc (right_ne_zero_of_mul hne))
    · intro b hb
      simp only
      have : ((recv r).map fun p => p.mass * unitDeposit (m.painter w gradient r) p b).sum = 0 := by
        apply List.sum_eq_zero
        intro y hy
        obtain ⟨p, _, rfl⟩ := List.mem_map.1 hy
        rw [unitDeposit_other, mul_zero]
        intro c hc
        rw [shapeOf_painter w gradient r hshl] at hc
        rw [elemAddr_painter w gradient r (by have := (validIndex_iff.1 hc).1; omega)]
        exact hb c hc
      rw [this, add_zero]
      cases hold <;> rfl

/-- A layout of `decompose` for positions `y` also serves positions `x` that are nearer than the extra smoothing. -/
theorem covered_of_near {m : PMesh K} (hm : m.OK) {a : List ℕ} {w : Resampler K} (hw : w.Valid) (gradient : Option ℕ)
    (ho : ∀ r < m.nrank, a[cOrder m.shape (m.coord r)]? = some r) {pos pos' : ℕ → List (List K)}
    (hpos : ∀ r < m.nrank, ∀ x ∈ pos r, x.length = m.nmesh.length) (hpos' : ∀ r < m.nrank, ∀ x ∈ pos' r, x.length = m.nmesh.length)
    (hll : ∀ r < m.nrank, (pos' r).length = (pos r).length) {hsml : ℕ → Quant K} {sm : ℕ → List K} {L : ℕ → Lay}
    (hsent : ∀ q < m.nrank, ∀ r < m.nrank, (L q).sentIdx r = (List.range (pos q).length).filter fun i =>
      decide ((m.gridWith a).Reaches (sm q) (m.toGrid ((pos q).getD i [])) r))
    {s : ℕ → ℕ → List K} (hcov : ∀ q < m.nrank, ∀ i < (pos q).length, ∀ j < m.nmesh.length, w.Covers ((s q i).getD j 0) ((hsml q).at i))
    (hnear : ∀ q < m.nrank, ∀ i < (pos q).length, ∀ j < m.nmesh.length,
      (s q i).getD j 0 + m.scale.getD j 0 * |((pos' q).getD i []).getD j 0 - ((pos q).getD i []).getD j 0| ≤ (sm q).getD j 0) :
    Covered m w gradient pos' hsml L := by
  intro q hq i hi r hr c hc hne
  rw [hll q hq] at hi
  have hi' : i < (pos' q).length := by rw [hll q hq]; exact hi
  have hx : ((pos q).getD i []).length = m.nmesh.length := by
    rw [List.getD_eq_getElem _ _ hi]; exact hpos q hq _ (List.getElem_mem _)
  have hx' : ((pos' q).getD i []).length = m.nmesh.length := by
    rw [List.getD_eq_getElem _ _ hi']; exact hpos' q hq _ (List.getElem_mem _)
  rw [hsent q hq r hr, List.mem_filter]
  refine ⟨List.mem_range.2 hi, ?_⟩
  rw [decide_eq_true_iff]
  have hr' := reaches_of_weight hm hr (ho r hr) hw gradient (sm := s q i) (hcov q hq i hi) hx' hc hne
  obtain ⟨d, hd1, hd2, hd3⟩ := hr'
  refine ⟨d, hd1, hd2, fun j hj => ?_⟩
  obtain ⟨p, h1, h2, k, h3, h4⟩ := hd3 j hj
  rw [gridWith_ndim hm] at hj
  have hn := hnear q hq i hi j hj
  rw [toGrid_getD hm hx' hj] at h1 h2
  rw [toGrid_getD hm hx hj]
  have hs := scale_pos hm hj
  have hab := abs_le.1 (le_refl |((pos' q).getD i []).getD j 0 - ((pos q).getD i []).getD j 0|)
  refine ⟨p, ?_, ?_, k, h3, h4⟩
  · nlinarith [hab.1, hab.2]
  · nlinarith [hab.1, hab.2]

end
end Pmesh
