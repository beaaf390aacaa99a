import Verif.Lemmas.Homogeneous

/-! # C100: what repeats itself in the box goes on to do so, and a homogeneous universe stays homogeneous (examples/nbody.py) -/

namespace Pmesh

section
variable (w : Resampler ℝ) (hw : w.Valid) (om : ℝ) (fac : Factors) (scheme : List ℝ → List NbOp) (hscheme : scheme ∈ nbSchemes) (times : List ℝ)
  (a : Machine) (ha : a.OK w) (s : ℕ → List NBody) (hx : ∀ q ∈ a.all s, q.Sane a.m.nmesh.length)
include hw hscheme ha hx

/-- **C100**, repetition (partial: the restrictions of C23 on the decomposition).  If the particles of all ranks, moved by some numbers `c` of cells of the
mesh, are the same particles again (places, displacements and velocities, up to the order and whole boxes), then this holds for the end of a run of any
scheme, with any factors and times. -/
theorem C100_repeats_partial (c : List ℤ) (hc : c.length = a.m.nmesh.length) (hr : Repeats a.m c (a.all s)) :
    (∃ s', a.NbRun w om fac (scheme times) s s') ∧ ∀ s', a.NbRun w om fac (scheme times) s s' → Repeats a.m c (a.all s') := by
  obtain ⟨l, hl⟩ := scheme_force hscheme times
  rw [hl]
  obtain ⟨h1, h2⟩ := nbRun_force hw ha om fac l s (sane_of_all hx)
  have hst : StoredShape a.m.nmesh a.t.cshape := by rw [← ha.modes_mesh]; exact ha.storage
  refine ⟨h1, fun s' hs' => ?_⟩
  rw [nbAll_map a s s' _ (h2 s' hs')]
  exact (movedBody_run ha.mesh w hc hst om fac l hx hr).1

/-- **C100**, no force along an axis (partial: the restrictions of C23 on the decomposition).  If the particles repeat themselves after one cell in direction
`d`, or after two cells (particles on a grid, and forces on a mesh that is twice as fine: `boost` 2), then no particle ever feels a force in direction `d`:
component `d` of each velocity stays what it was, and component `d` of each displacement grows by the sum of the drift factors times it. -/
theorem C100_axis_partial (d : ℕ) (hd : d < a.m.nmesh.length) (z : ℤ) (hz : z = 1 ∨ z = 2)
    (hr : Repeats a.m (alongAxis a.m.nmesh.length d z) (a.all s)) :
    (∃ s', a.NbRun w om fac (scheme times) s s') ∧ ∀ s', a.NbRun w om fac (scheme times) s s' → ∀ r < a.m.nrank,
      (s' r).map (fun b => (b.q, b.v.getD d 0, b.s.getD d 0)) =
        (s r).map fun b => (b.q, b.v.getD d 0, b.s.getD d 0 + ((scheme times).map fac.driftOf).sum * b.v.getD d 0) := by
  obtain ⟨l, hl⟩ := scheme_force hscheme times
  rw [hl]
  obtain ⟨h1, h2⟩ := nbRun_force hw ha om fac l s (sane_of_all hx)
  have hst : StoredShape a.m.nmesh a.t.cshape := by rw [← ha.modes_mesh]; exact ha.storage
  have hc : (alongAxis a.m.nmesh.length d z).length = a.m.nmesh.length := by simp [alongAxis]
  refine ⟨h1, fun s' hs' r hr' => ?_⟩
  rw [h2 s' hs' r hr', List.map_map]
  apply List.map_congr_left
  intro b hb
  have := free_run w om fac hd (RepeatsF a.m (alongAxis a.m.nmesh.length d z)) (fun L hL hP b _ => force_axis ha.mesh w hst om hd hz hL hP.repeats _)
    (fun op L hL hP => repeats_op ha.mesh w hc hst om fac op hL hP.repeats fun _ => hP) l (a.all s) hx
    (repeats_op ha.mesh w hc hst om fac .force hx hr fun h => absurd rfl h) (fun b _ => force_axis ha.mesh w hst om hd hz hx hr _) b
    (List.mem_flatMap.2 ⟨r, List.mem_range.2 hr', hb⟩)
  simp only [Function.comp_apply, this.1, this.2, nbTraj_q]

/-- **C100**, homogeneous universe (partial: the restrictions of C23 on the decomposition).  If each particle can be moved to the place of each other one by
whole cells such that the particles as a whole (with displacements and velocities) are the same again, then no particle ever feels a force, for any window,
mesh, scheme, factors and times: all velocities stay what they were, and the displacements grow by the sum of the drift factors times the velocity. -/
theorem C100_homogeneous_partial (hh : Homogeneous a.m (a.all s)) :
    (∃ s', a.NbRun w om fac (scheme times) s s') ∧ ∀ s', a.NbRun w om fac (scheme times) s s' → Homogeneous a.m (a.all s') ∧ ∀ r < a.m.nrank,
      (s' r).map NBody.state =
        (s r).map fun b => (b.q, List.zipWith (fun s v => s + ((scheme times).map fac.driftOf).sum * v) b.s b.v, b.v) := by
  obtain ⟨l, hl⟩ := scheme_force hscheme times
  rw [hl]
  obtain ⟨h1, h2⟩ := nbRun_force hw ha om fac l s (sane_of_all hx)
  have hst : StoredShape a.m.nmesh a.t.cshape := by rw [← ha.modes_mesh]; exact ha.storage
  refine ⟨h1, fun s' hs' => ⟨?_, fun r hr' => ?_⟩⟩
  · rw [nbAll_map a s s' _ (h2 s' hs')]
    intro b hb b' hb'
    obtain ⟨b0, h0, rfl⟩ := List.mem_map.1 hb
    obtain ⟨b0', h0', rfl⟩ := List.mem_map.1 hb'
    obtain ⟨c, hc, hr, hm⟩ := hh b0 h0 b0' h0'
    obtain ⟨i1, i2⟩ := movedBody_run ha.mesh w hc hst om fac l hx hr
    exact ⟨c, hc, i1, i2 _ _ (hx _ h0) (hx _ h0') hm⟩
  · rw [h2 s' hs' r hr', List.map_map]
    apply List.map_congr_left
    intro b hb
    have hmem : b ∈ a.all s := List.mem_flatMap.2 ⟨r, List.mem_range.2 hr', hb⟩
    obtain ⟨P, hP⟩ : ∃ P : List NBody → Prop, P = fun L => ∀ b ∈ L, ∀ b' ∈ L, ∃ c : List ℤ, c.length = a.m.nmesh.length ∧ RepeatsF a.m c L ∧ MovedBody a.m c b b' ∧ b'.f = b.f :=
      ⟨_, rfl⟩
    have hPh : ∀ L, P L → Homogeneous a.m L := by
      intro L hL b hb b' hb'
      rw [hP] at hL
      obtain ⟨c, hc, h1, h2, -⟩ := hL b hb b' hb'
      exact ⟨c, hc, h1.repeats, h2⟩
    have hstep : ∀ (op : NbOp) (L : List NBody), (∀ b ∈ L, b.Sane a.m.nmesh.length) → Homogeneous a.m L → (op ≠ .force → P L) →
        P (L.map (nbOp a.m a.t.cshape w om fac L op)) := by
      intro op L hL hhL hPL
      rw [hP]
      intro b hb b' hb'
      obtain ⟨b0, h0, rfl⟩ := List.mem_map.1 hb
      obtain ⟨b0', h0', rfl⟩ := List.mem_map.1 hb'
      by_cases ho : op = .force
      · obtain ⟨c, hc, hr, hm⟩ := hhL b0 h0 b0' h0'
        obtain ⟨i1, i2⟩ := movedBody_op ha.mesh w hc hst om fac op hL hr (hL _ h0) (hL _ h0') hm fun h => absurd ho h
        exact ⟨c, hc, repeats_op ha.mesh w hc hst om fac op hL hr fun h => absurd ho h, i1, i2⟩
      · have := hPL ho
        rw [hP] at this
        obtain ⟨c, hc, hr, hm, hf⟩ := this b0 h0 b0' h0'
        obtain ⟨i1, i2⟩ := movedBody_op ha.mesh w hc hst om fac op hL hr.repeats (hL _ h0) (hL _ h0') hm fun _ => hf
        exact ⟨c, hc, repeats_op ha.mesh w hc hst om fac op hL hr.repeats fun _ => hr, i1, i2⟩
    have key : ∀ d < a.m.nmesh.length, _ := fun d hd => free_run w om fac hd P (fun L hL hPL b hb => force_homogeneous ha.mesh w hst om d hL (hPh L hPL) hb)
      (fun op L hL hPL => hstep op L hL (hPh L hPL) fun _ => hPL) l (a.all s) hx (hstep .force (a.all s) hx hh fun h => absurd rfl h)
      (fun b hb => force_homogeneous ha.mesh w hst om d hx hh hb) b hmem
    have hsane := nbTraj_sane (w := w) a.m a.t.cshape om fac l (a.all s) b (hx b hmem)
    have hb := hx b hmem
    simp only [Function.comp_apply, NBody.state, nbTraj_q, Prod.mk.injEq, true_and]
    constructor
    · refine list_ext_getD (by simp [hsane.s, hb.s, hb.v]) fun d hd => ?_
      rw [hsane.s] at hd
      rw [(key d hd).2]
      have e1 : d < b.s.length := by rw [hb.s]; exact hd
      have e2 : d < b.v.length := by rw [hb.v]; exact hd
      simp [e1, e2]
    · refine list_ext_getD (by simp [hsane.v, hb.v]) fun d hd => ?_
      rw [hsane.v] at hd
      exact (key d hd).1

end

/-- **C100**, grids (partial: the restrictions of C23 on the decomposition).  The particles are those of `generate_uniform_particle_grid(shift)` of the mesh
`m0`, on the ranks where this leaves them, with displacements and velocities that are functions of the cell; the forces are computed on a mesh that is `B`
times as fine (`boost`).  At the end the displacements and velocities are again functions of the cell, that depend on no direction on which they did not depend
at the start.  With `B` 1 or 2, the velocities in these directions do not change, and the displacements in these directions drift freely.  If the displacements
and velocities are the same for all particles, this holds for all components and any `B`. -/
theorem C100_grid_partial (w : Resampler ℝ) (hw : w.Valid) (om : ℝ) (fac : Factors) (scheme : List ℝ → List NbOp) (hscheme : scheme ∈ nbSchemes) (times : List ℝ)
    (a : Machine) (ha : a.OK w) (m0 : PMesh ℝ) (hm0 : m0.OK) (B : ℕ) (hB : 0 < B) (hn : a.m.nmesh = m0.nmesh.map (B * ·)) (hbox : a.m.box = m0.box)
    (hrank : a.m.nrank = m0.nrank) (shift : List ℝ) (S V : List ℕ → List ℝ) (hS : ∀ g, ValidIndex m0.nmesh g → (S g).length = m0.nmesh.length)
    (hV : ∀ g, ValidIndex m0.nmesh g → (V g).length = m0.nmesh.length) (s : ℕ → List NBody)
    (hs : ∀ r < m0.nrank, s r = (m0.meshCoordinates r).map fun g => ⟨gridPlace m0 shift g, S g, V g, []⟩) :
    (∃ s', a.NbRun w om fac (scheme times) s s') ∧ ∀ s', a.NbRun w om fac (scheme times) s s' → ∃ S' V' : List ℕ → List ℝ,
      (∀ r < m0.nrank, (s' r).map NBody.state = (m0.meshCoordinates r).map fun g => (gridPlace m0 shift g, S' g, V' g)) ∧
      (∀ d < m0.nmesh.length, NotAlong m0 d S → NotAlong m0 d V → NotAlong m0 d S' ∧ NotAlong m0 d V' ∧
        (B ≤ 2 → ∀ g, ValidIndex m0.nmesh g → (V' g).getD d 0 = (V g).getD d 0 ∧
          (S' g).getD d 0 = (S g).getD d 0 + ((scheme times).map fac.driftOf).sum * (V g).getD d 0)) ∧
      ((∀ g g', ValidIndex m0.nmesh g → ValidIndex m0.nmesh g' → S g = S g' ∧ V g = V g') → ∀ g, ValidIndex m0.nmesh g →
        V' g = V g ∧ S' g = List.zipWith (fun s v => s + ((scheme times).map fac.driftOf).sum * v) (S g) (V g)) := by
  have hl : a.m.nmesh.length = m0.nmesh.length := by rw [hn, List.length_map]
  have hst : StoredShape a.m.nmesh a.t.cshape := by rw [← ha.modes_mesh]; exact ha.storage
  have hperm : (a.all s).Perm ((ndindex m0.nmesh).map (gridBody m0 shift S V)) := by
    have e : a.all s = ((List.range m0.nrank).flatMap fun r => (ndindex (m0.localShape r)).map (m0.global r)).map (gridBody m0 shift S V) := by
      unfold Machine.all
      rw [List.map_flatMap, hrank]
      apply List.flatMap_congr
      intro r hr
      rw [hs r (List.mem_range.1 hr), meshCoordinates_eq]
      rfl
    rw [e]
    exact (ranks_perm hm0).map _
  have hx : ∀ q ∈ a.all s, q.Sane a.m.nmesh.length := by
    intro q hq
    obtain ⟨g, hg, rfl⟩ := List.mem_map.1 (hperm.mem_iff.1 hq)
    have hg := mem_ndindex.1 hg
    exact ⟨by simp [gridBody, gridPlace, hl], by rw [hl]; exact hS g hg, by rw [hl]; exact hV g hg⟩
  have hmem : ∀ g, ValidIndex m0.nmesh g → gridBody m0 shift S V g ∈ a.all s := fun g hg =>
    hperm.mem_iff.2 (List.mem_map_of_mem (mem_ndindex.2 hg))
  obtain ⟨l, hl'⟩ := scheme_force hscheme times
  have hrun := nbRun_force hw ha om fac l s (sane_of_all hx)
  rw [← hl'] at hrun
  obtain ⟨h1, h2⟩ := hrun
  refine ⟨h1, fun s' hs' => ?_⟩
  obtain ⟨T, hT⟩ : ∃ T, T = nbTraj a.m a.t.cshape w om fac (scheme times) (a.all s) := ⟨_, rfl⟩
  rw [← hT] at h2
  have hq : ∀ b, (T b).q = b.q := fun b => by rw [hT, nbTraj_q]
  -- values along the run, from the ranks
  have hown : ∀ g, ValidIndex m0.nmesh g → ∀ (f f' : NBody → List ℝ × ℝ × ℝ), (∀ r < a.m.nrank, (s' r).map f = (s r).map f') →
      f (T (gridBody m0 shift S V g)) = f' (gridBody m0 shift S V g) := by
    intro g hg f f' hff
    obtain ⟨r, hr, hb⟩ := List.mem_flatMap.1 (hmem g hg)
    have hr := List.mem_range.1 hr
    have := hff r hr
    rw [h2 s' hs' r hr, List.map_map] at this
    exact List.map_inj_left.1 this _ hb
  have hown' : ∀ g, ValidIndex m0.nmesh g → ∀ (f f' : NBody → List ℝ × List ℝ × List ℝ), (∀ r < a.m.nrank, (s' r).map f = (s r).map f') →
      f (T (gridBody m0 shift S V g)) = f' (gridBody m0 shift S V g) := by
    intro g hg f f' hff
    obtain ⟨r, hr, hb⟩ := List.mem_flatMap.1 (hmem g hg)
    have hr := List.mem_range.1 hr
    have := hff r hr
    rw [h2 s' hs' r hr, List.map_map] at this
    exact List.map_inj_left.1 this _ hb
  refine ⟨fun g => (T (gridBody m0 shift S V g)).s, fun g => (T (gridBody m0 shift S V g)).v, fun r hr => ?_, fun d hd hSd hVd => ?_, fun hc g hg => ?_⟩
  · rw [h2 s' hs' r (by rw [hrank]; exact hr), hs r hr, List.map_map, List.map_map]
    apply List.map_congr_left
    intro g _
    simp only [Function.comp_apply, NBody.state, hq]
    rfl
  · have hlz : ∀ z : ℤ, (alongAxis m0.nmesh.length d z).length = m0.nmesh.length := by simp [alongAxis]
    have hB' : ∀ z : ℤ, (alongAxis m0.nmesh.length d z).map ((B : ℤ) * ·) = alongAxis a.m.nmesh.length d (B * z) := by
      intro z
      rw [hl]
      simp only [alongAxis, List.map_map]
      apply List.map_congr_left
      intro j _
      simp
    have hmv : ∀ (z : ℤ) g, ValidIndex m0.nmesh g → ∀ j, j ≠ d → g.getD j 0 = (movedCell m0.nmesh (alongAxis m0.nmesh.length d z) g).getD j 0 := by
      intro z g hg j hj
      by_cases hjl : j < m0.nmesh.length
      · rw [movedCell_getD (hlz z) hg.len hjl]
        have : (alongAxis m0.nmesh.length d z).getD j 0 = 0 := by simp [alongAxis, hjl, hj]
        rw [this, add_zero]
        have hlt := valid_getD hg hjl
        rw [Int.emod_eq_of_lt (by omega) (by exact_mod_cast hlt), Int.toNat_natCast]
      · rw [List.getD_eq_default _ _ (by rw [hg.len]; omega), List.getD_eq_default _ _ (by rw [(movedCell_valid (hlz z) hg).len]; omega)]
    have hSm : ∀ (z : ℤ) g, ValidIndex m0.nmesh g → S (movedCell m0.nmesh (alongAxis m0.nmesh.length d z) g) = S g := fun z g hg =>
      (hSd _ _ hg (movedCell_valid (hlz z) hg) (hmv z g hg)).symm
    have hVm : ∀ (z : ℤ) g, ValidIndex m0.nmesh g → V (movedCell m0.nmesh (alongAxis m0.nmesh.length d z) g) = V g := fun z g hg =>
      (hVd _ _ hg (movedCell_valid (hlz z) hg) (hmv z g hg)).symm
    have hrep : ∀ z : ℤ, Repeats a.m ((alongAxis m0.nmesh.length d z).map ((B : ℤ) * ·)) (a.all s) := fun z =>
      grid_repeats ha.mesh hm0 hB hn hbox shift (hlz z) (hSm z) (hVm z) hperm
    have hpair : ∀ g g', ValidIndex m0.nmesh g → ValidIndex m0.nmesh g' → (∀ j, j ≠ d → g.getD j 0 = g'.getD j 0) →
        (T (gridBody m0 shift S V g')).s = (T (gridBody m0 shift S V g)).s ∧ (T (gridBody m0 shift S V g')).v = (T (gridBody m0 shift S V g)).v := by
      intro g g' hg hg' hj
      obtain ⟨z, hz⟩ : ∃ z : ℤ, z = (g'.getD d 0 : ℤ) - (g.getD d 0 : ℤ) := ⟨_, rfl⟩
      have e : movedCell m0.nmesh (alongAxis m0.nmesh.length d z) g = g' := by
        have hlen := (movedCell_valid (hlz z) hg).len
        apply List.ext_getElem (by rw [hlen, hg'.len])
        intro j j1 j2
        have hjl : j < m0.nmesh.length := by rw [← hlen]; exact j1
        rw [← List.getD_eq_getElem _ 0 j1, ← List.getD_eq_getElem _ 0 j2]
        by_cases hjd : j = d
        · subst hjd
          rw [movedCell_getD (hlz z) hg.len hjl]
          have : (alongAxis m0.nmesh.length j z).getD j 0 = z := by simp [alongAxis, hjl]
          rw [this, hz, add_sub_cancel]
          have hlt := valid_getD hg' hjl
          rw [Int.emod_eq_of_lt (by omega) (by exact_mod_cast hlt), Int.toNat_natCast]
        · rw [← hmv z g hg j hjd, hj j hjd]
      have hmb := gridBody_moved ha.mesh hm0 hB hn hbox shift (S := S) (V := V) (hlz z) hg (hSm z g hg) (hVm z g hg)
      rw [e] at hmb
      have := (movedBody_run ha.mesh w (by rw [List.length_map, hlz, hl]) hst om fac l hx (hrep z)).2 _ _ (hx _ (hmem g hg)) (hx _ (hmem g' hg')) hmb
      rw [← hl', ← hT] at this
      exact ⟨this.s, this.v⟩
    refine ⟨fun g g' hg hg' hj => (hpair g g' hg hg' hj).1.symm, fun g g' hg hg' hj => (hpair g g' hg hg' hj).2.symm, fun hB2 g hg => ?_⟩
    have h3 := (C100_axis_partial w hw om fac scheme hscheme times a ha s hx d (by rw [hl]; exact hd) B (by omega) (by
      have := hrep 1
      rwa [hB', mul_one] at this)).2 s' hs'
    have := hown g hg _ _ h3
    simp only [Prod.mk.injEq] at this
    exact ⟨this.2.1, this.2.2⟩
  · have hh : Homogeneous a.m (a.all s) := by
      intro b hb b' hb'
      obtain ⟨g, hg, rfl⟩ := List.mem_map.1 (hperm.mem_iff.1 hb)
      obtain ⟨g', hg', rfl⟩ := List.mem_map.1 (hperm.mem_iff.1 hb')
      have hg := mem_ndindex.1 hg
      have hg' := mem_ndindex.1 hg'
      obtain ⟨z, hz⟩ : ∃ z : List ℤ, z = (List.range m0.nmesh.length).map fun j => (g'.getD j 0 : ℤ) - (g.getD j 0 : ℤ) := ⟨_, rfl⟩
      have hlz : z.length = m0.nmesh.length := by simp [hz]
      have e : movedCell m0.nmesh z g = g' := by
        have hlen := (movedCell_valid hlz hg).len
        apply List.ext_getElem (by rw [hlen, hg'.len])
        intro j j1 j2
        have hjl : j < m0.nmesh.length := by rw [← hlen]; exact j1
        rw [← List.getD_eq_getElem _ 0 j1, ← List.getD_eq_getElem _ 0 j2, movedCell_getD hlz hg.len hjl]
        have : z.getD j 0 = (g'.getD j 0 : ℤ) - (g.getD j 0 : ℤ) := by simp [hz, hjl]
        rw [this, add_sub_cancel]
        have hlt := valid_getD hg' hjl
        rw [Int.emod_eq_of_lt (by omega) (by exact_mod_cast hlt), Int.toNat_natCast]
      refine ⟨z.map ((B : ℤ) * ·), by rw [List.length_map, hlz, hl], ?_, ?_⟩
      · exact grid_repeats ha.mesh hm0 hB hn hbox shift hlz (fun g hg => (hc _ _ (movedCell_valid hlz hg) hg).1) (fun g hg => (hc _ _ (movedCell_valid hlz hg) hg).2) hperm
      · have := gridBody_moved ha.mesh hm0 hB hn hbox shift (S := S) (V := V) hlz hg (hc _ _ (movedCell_valid hlz hg) hg).1 (hc _ _ (movedCell_valid hlz hg) hg).2
        rwa [e] at this
    have h3 := ((C100_homogeneous_partial w hw om fac scheme hscheme times a ha s hx hh).2 s' hs').2
    have := hown' g hg _ _ h3
    simp only [NBody.state, Prod.mk.injEq] at this
    exact ⟨this.2.2, this.2.1⟩

/-- **C100**, grids: the places are those of `generate_uniform_particle_grid`. -/
theorem C100_places (m0 : PMesh ℝ) (hm0 : m0.OK) (shift : List ℝ) (hshift : shift.length = m0.nmesh.length) (r : ℕ) (hr : r < m0.nrank) :
    m0.uniformGrid shift r = (m0.meshCoordinates r).map (gridPlace m0 shift) := by
  unfold PMesh.uniformGrid
  apply List.map_congr_left
  intro g hg
  rw [meshCoordinates_eq] at hg
  obtain ⟨c, hc, rfl⟩ := List.mem_map.1 hg
  have hv := (hm0.global_valid hr (mem_ndindex.1 hc)).len
  apply List.ext_getElem
  · simp [gridPlace, hv, hshift, hm0.box_len]
  · intro d h1 h2
    have hd : d < m0.nmesh.length := by simpa [gridPlace] using h2
    have e1 : d < (m0.global r c).length := by rw [hv]; exact hd
    have e2 : d < shift.length := by rw [hshift]; exact hd
    have e3 : d < m0.box.length := by rw [hm0.box_len]; exact hd
    simp [gridPlace, hd, e1, e2, e3]

/-! ### Non-vacuity: two ranks, a grid of 2 x 2 x 2 particles, forces on a mesh of 4 x 4 x 4 cells -/

noncomputable def exGrid2 : PMesh ℝ := ⟨[2, 2, 2], [4, 4, 4], [[0, 2], [0, 1, 2], [0, 2]], 2, fun r => [0, r, 0], fun _ => [2, 2, 1], fun _ => 77⟩

theorem exGrid2_ok : exGrid2.OK where
  dim := by simp [exGrid2]
  box_len := rfl
  box_pos := by simp [exGrid2]
  edges := .cons (slabEdges_of_decide (by decide)) (.cons (slabEdges_of_decide (by decide)) (.cons (slabEdges_of_decide (by decide)) .nil))
  ranks := by simp [exGrid2, PMesh.shape]
  coord_valid := by
    intro r hr
    have hr : r < 2 := hr
    interval_cases r <;> exact show ValidIndex [1, 2, 1] _ by decide
  coord_inj := by
    intro r _ r' _ h
    simpa [exGrid2] using h
  distinct := by
    intro r hr
    have hr : r < 2 := hr
    have hs : exGrid2.localShape r = [2, 1, 2] := by interval_cases r <;> rfl
    intro c c' hc hc' h
    rw [hs] at hc hc'
    exact (proper_of_decide (shape := [2, 1, 2]) (strides := [2, 2, 1]) rfl (by decide)).inj c c' hc hc' h

/-- A plane wave along the first axis, that also drifts along the second. -/
example (pt : Growth) (s' : ℕ → List NBody)
    (h : exMachine2.NbRun exWinR (3 / 10) (fastPM pt) (symp2 [1 / 10, 1 / 2, 1]) (fun r => (exGrid2.meshCoordinates r).map fun g =>
      ⟨gridPlace exGrid2 [0, 0, 0] g, [if g.getD 0 0 = 0 then 1 / 10 else 0, 0, 0], [if g.getD 0 0 = 0 then 1 / 7 else 0, 1, 0], []⟩) s') :=
  (C100_grid_partial exWinR exWinR_valid (3 / 10) (fastPM pt) symp2 (by simp [nbSchemes]) [1 / 10, 1 / 2, 1] exMachine2 exMachine2_ok exGrid2 exGrid2_ok 2 (by norm_num)
    rfl rfl rfl [0, 0, 0] (fun g => [if g.getD 0 0 = 0 then 1 / 10 else 0, 0, 0]) (fun g => [if g.getD 0 0 = 0 then 1 / 7 else 0, 1, 0]) (fun _ _ => rfl) (fun _ _ => rfl)
    _ (fun _ _ => rfl)).2 s' h

example : NotAlong exGrid2 1 (fun g => [if g.getD 0 0 = 0 then 1 / 10 else 0, 0, 0]) ∧ ¬ NotAlong exGrid2 0 (fun g => [if g.getD 0 0 = 0 then 1 / 10 else 0, 0, 0]) := by
  refine ⟨fun g g' _ _ h => by beta_reduce; rw [h 0 (by norm_num)], fun h => ?_⟩
  have := h [0, 0, 0] [1, 0, 0] (show ValidIndex [2, 2, 2] _ by decide) (show ValidIndex [2, 2, 2] _ by decide) (by
    intro j hj
    match j, hj with
    | j + 1, _ => rfl)
  simp at this

/-- Two particles half a box apart repeat themselves after two cells. -/
example : Repeats exMachine2.m (alongAxis 3 0 2) [⟨[0, 0, 0], [1 / 3, 0, 0], [1, 2, 3], []⟩, ⟨[2, 0, 0], [1 / 3, 0, 0], [1, 2, 3], []⟩] := by
  refine ⟨[⟨[2, 0, 0], [1 / 3, 0, 0], [1, 2, 3], []⟩, ⟨[0, 0, 0], [1 / 3, 0, 0], [1, 2, 3], []⟩], List.Perm.swap _ _ _, .cons ⟨?_, rfl, rfl⟩ (.cons ⟨?_, rfl, rfl⟩ .nil)⟩
  · refine ⟨rfl, rfl, fun d hd => ⟨0, ?_⟩⟩
    have hd : d < 3 := hd
    interval_cases d <;> simp [alongAxis, exMachine2, exMesh3, shiftedPos, List.range_succ]
  · refine ⟨rfl, rfl, fun d hd => ⟨if d = 0 then -1 else 0, ?_⟩⟩
    have hd : d < 3 := hd
    interval_cases d <;> simp [alongAxis, exMachine2, exMesh3, shiftedPos, List.range_succ]
    norm_num

example (s : ℕ → List NBody) (hx : ∀ q ∈ exMachine2.all s, q.Sane 3) (h : Repeats exMachine2.m (alongAxis 3 0 2) (exMachine2.all s)) (pt : Growth) :=
  And.intro (C100_repeats_partial exWinR exWinR_valid (3 / 10) (naive pt) symp3 (by simp [nbSchemes]) [1 / 10, 1] exMachine2 exMachine2_ok s hx _ rfl h)
    (C100_axis_partial exWinR exWinR_valid (3 / 10) (naive pt) symp3 (by simp [nbSchemes]) [1 / 10, 1] exMachine2 exMachine2_ok s hx 0 (show 0 < 3 by norm_num) 2 (Or.inr rfl) h)

/-- One particle is homogeneous. -/
example (pt : Growth) (b : NBody) (hb : b.Sane 3) := C100_homogeneous_partial exWinR exWinR_valid (3 / 10) (quinn pt) symp1 (by simp [nbSchemes]) [1 / 10, 1] exMachine2
  exMachine2_ok (fun r => if r = 0 then [b] else []) (by
    intro q hq
    have : q ∈ [b] := hq
    rw [List.mem_singleton] at this
    rw [this]
    exact hb) (by
    have hmv : MovedBody exMachine2.m [0, 0, 0] b b := by
      obtain ⟨q, s, v, f⟩ := b
      obtain ⟨hq, -, -⟩ := hb
      match q, hq with
      | [x, y, z], _ =>
        refine ⟨⟨rfl, rfl, fun d hd => ⟨0, ?_⟩⟩, rfl, rfl⟩
        have hd : d < 3 := hd
        interval_cases d <;> simp [exMachine2, exMesh3, shiftedPos]
    intro x hx y hy
    have hx : x ∈ [b] := hx
    have hy : y ∈ [b] := hy
    rw [List.mem_singleton] at hx hy
    subst hx hy
    exact ⟨[0, 0, 0], rfl, ⟨[_], List.Perm.refl _, .cons hmv .nil⟩, hmv⟩)

example := C100_places exGrid2 exGrid2_ok [0, 0, 0] rfl 1 (show 1 < 2 by norm_num)

#print axioms C100_repeats_partial
#print axioms C100_axis_partial
#print axioms C100_homogeneous_partial
#print axioms C100_grid_partial
#print axioms C100_places

end Pmesh
