import Verif.Spec.OldCic
import Verif.Lemmas.OldTsc
import Verif.Props.Window

/-!
# C51 and C52: the deprecated python windows agree with the compiled ones, or not
-/

set_option linter.unusedSectionVars false

namespace Pmesh
section
variable {K : Type*} [Field K] [LinearOrder K] [IsStrictOrderedRing K] [FloorRing K]

theorem SamePeriod.eq {P : Painter K} {period : Option (List ℕ)} (h : SamePeriod P period) {n : ℕ} (hn : n = P.axes.length) :
    cicPeriod n period = P.axes.map (·.period) := by
  subst hn
  cases period with
  | none =>
    simp only [cicPeriod]
    symm
    rw [List.eq_replicate_iff]
    refine ⟨by simp, ?_⟩
    intro b hb
    obtain ⟨ax, hax, rfl⟩ := List.mem_map.1 hb
    exact h ax hax
  | some p => exact h

/-- The deposits in both arrays. -/
theorem deposit_same {P : Painter K} {t : Tuned} (hP : PlainPainter P t) {mem flat : ℤ → K} (hsame : SameContent P.axes mem flat)
    (ps : List (Particle K)) (hps : NativeParticles P ps) (sts : Particle K → List (List (ℤ × K)))
    (hst : ∀ p ∈ ps, ∀ c, cwProd (sts p) c = cwProd (List.zipWith (tunedStencil t) P.axes p.pos) c) (m : ℤ → K)
    (hm : ∀ a, m a = flat a + (ps.map fun p => p.mass * stDeposit (shapeOf P.axes) (sts p) a).sum) :
    ∃ mem', paint P mem ps = some mem' ∧ SameContent P.axes mem' m := by
  refine ⟨_, paint_eq P hP.valid ps (fun p hp => (hps p hp).1) mem, ?_⟩
  intro c hc
  rw [hm, hsame c hc]
  congr 2
  apply List.map_congr_left
  intro p hp
  rw [unitDeposit_elem P hP.distinct p c hc, stDeposit_elem _ _ c hc, hst p hp]
  congr 2
  apply zipWith_congr_mem
  intro ax x hx
  exact (axisStencil_native hP.valid t hP.kern p.hsml (hps p hp).2 ax (hP.values ax (List.of_mem_zip hx).1) x).symm

theorem cic_stencils {P : Painter K} (hP : PlainPainter P .cic) (ps : List (Particle K)) (hps : NativeParticles P ps) :
    ∀ p ∈ ps, ∀ c, cwProd (List.zipWith oldCicSt (P.axes.map (·.period)) (List.zipWith PAxis.grid P.axes p.pos)) c =
      cwProd (List.zipWith (tunedStencil .cic) P.axes p.pos) c := by
  intro p hp c
  rw [← zipWith_cic hP.valid hP.kern p.hsml (hps p hp).2 P.axes hP.values p.pos (hps p hp).1]
  congr 1
  apply zipWith_congr_mem
  intro ax x hx
  exact axisStencil_native hP.valid .cic hP.kern p.hsml (hps p hp).2 ax (hP.values ax (List.of_mem_zip hx).1) x

theorem inMeshUnits_length {P : Painter K} {ps : List (Particle K)} (hps : NativeParticles P ps) :
    ∀ p ∈ inMeshUnits P ps, p.pos.length = P.axes.length := by
  intro p hp
  obtain ⟨q, hq, rfl⟩ := List.mem_map.1 hp
  simp [(hps q hq).1]

/-! ### C51, numba -/

/-- **C51** for `_cic.paint` and a C-contiguous mesh: if it does not raise, it paints what the cic window paints.
Missing: meshes that are not contiguous, see `C51_violated_noncontiguous`. -/
theorem C51_numba_paint_partial {P : Painter K} (hP : PlainPainter P .cic) {mem : ℤ → K} {mesh : FlatMesh K} (hshape : mesh.shape = shapeOf P.axes)
    (hcont : mesh.contiguous = true) (hsame : SameContent P.axes mem mesh.flat) {period : Option (List ℕ)} (hper : SamePeriod P period)
    {chunksize : ℕ} (hc : 0 < chunksize) {raise : Bool} (ps : List (Particle K)) (hps : NativeParticles P ps)
    (hok : (nbPaint chunksize raise mesh period (inMeshUnits P ps)).2 = false) :
    ∃ mem', paint P mem ps = some mem' ∧ SameContent P.axes mem' (nbPaint chunksize raise mesh period (inMeshUnits P ps)).1 := by
  have hlen : mesh.shape.length = P.axes.length := by rw [hshape]; simp [shapeOf]
  have hpe := hper.eq hlen
  unfold nbPaint at hok ⊢
  rw [hpe] at hok ⊢
  simp only [hcont, if_true] at hok ⊢
  have hloop := chunkLoop_ok chunksize hc (fun (flat : ℤ → K) chunk =>
    ((cicPaintSome mesh.shape (P.axes.map (·.period)) flat chunk).1, decide ((cicPaintSome mesh.shape (P.axes.map (·.period)) flat chunk).2 ≠ 0) && raise))
    (fun flat c => (cicPaintSome mesh.shape (P.axes.map (·.period)) flat c).1) (fun _ => rfl)
    (fun s a b => cicPaintSome_append mesh.shape _ s a b) (fun _ _ => rfl) _ (inMeshUnits P ps) mesh.flat le_rfl hok
  refine deposit_same hP hsame ps hps (fun p => List.zipWith oldCicSt (P.axes.map (·.period)) (List.zipWith PAxis.grid P.axes p.pos))
    (cic_stencils hP ps hps) _ ?_
  intro a
  refine (congrFun hloop a).trans ?_
  rw [cicPaintSome_flat mesh.shape _ (by simp [hlen]) _ (by rw [hlen]; exact inMeshUnits_length hps), hshape]
  simp only [inMeshUnits, List.map_map]
  rfl

/-- **C51** for `_cic.readout`: if it does not raise, it returns what the cic window reads. -/
theorem C51_numba_readout {P : Painter K} (hP : PlainPainter P .cic) {mem : ℤ → K} {mesh : FlatMesh K} (hshape : mesh.shape = shapeOf P.axes)
    (hsame : SameContent P.axes mem mesh.flat) {period : Option (List ℕ)} (hper : SamePeriod P period)
    {chunksize : ℕ} (hc : 0 < chunksize) {raise : Bool} (ps : List (Particle K)) (hps : NativeParticles P ps)
    (hok : (nbReadout chunksize raise mesh period ((inMeshUnits P ps).map (·.pos))).2 = false) :
    readout P mem ps = some (nbReadout chunksize raise mesh period ((inMeshUnits P ps).map (·.pos))).1 := by
  have hlen : mesh.shape.length = P.axes.length := by rw [hshape]; simp [shapeOf]
  have hpe := hper.eq hlen
  unfold nbReadout at hok ⊢
  rw [hpe] at hok ⊢
  have hloop := chunkLoop_ok chunksize hc (fun (out : List K) chunk =>
    (out ++ (cicReadSome mesh.shape (P.axes.map (·.period)) mesh.flat chunk).1,
      decide ((cicReadSome mesh.shape (P.axes.map (·.period)) mesh.flat chunk).2 ≠ 0) && raise))
    (fun out c => out ++ c.map fun pos => (cicReadPart mesh.shape (P.axes.map (·.period)) mesh.flat pos).1) (fun _ => by simp)
    (fun s a b => by simp) (fun _ _ => rfl) _ ((inMeshUnits P ps).map (·.pos)) [] le_rfl hok
  rw [readout_eq P hP.valid ps (fun p hp => (hps p hp).1)]
  refine congrArg some (Eq.trans ?_ hloop.symm)
  simp only [inMeshUnits, List.map_map, List.nil_append]
  apply List.map_congr_left
  intro p hp
  simp only [Function.comp]
  rw [cicReadPart_eq mesh.shape _ (by simp [hlen]) _ _ (by simp [hlen, (hps p hp).1]), stRead, hshape]
  congr 1
  apply List.map_congr_left
  intro c hcm
  rw [hsame c (mem_ndindex.1 hcm), ← zipWith_cic hP.valid hP.kern p.hsml (hps p hp).2 P.axes hP.values p.pos (hps p hp).1]

/-- **C51**: on a fully periodic mesh neither of them raises; with `mode = 'ignore'` they never do. -/
theorem C51_numba_returns {P : Painter K} {mesh : FlatMesh K} (hshape : mesh.shape = shapeOf P.axes)
    {period : Option (List ℕ)} (hper : SamePeriod P period) {chunksize : ℕ} {raise : Bool} (ps : List (Particle K)) (hps : NativeParticles P ps)
    (h : raise = false ∨ ∀ ax ∈ P.axes, FullPeriod ax) :
    (nbPaint chunksize raise mesh period (inMeshUnits P ps)).2 = false ∧
    (nbReadout chunksize raise mesh period ((inMeshUnits P ps).map (·.pos))).2 = false := by
  have hlen : mesh.shape.length = P.axes.length := by rw [hshape]; simp [shapeOf]
  have hpe := hper.eq hlen
  rcases h with h | h
  · subst h
    exact ⟨chunkLoop_total _ _ _ _ _ fun s c _ => by simp, chunkLoop_total _ _ _ _ _ fun s c _ => by simp⟩
  · have hfull : P.axes.map (·.period) = mesh.shape := by
      rw [hshape, shapeOf]
      apply List.map_congr_left
      intro ax hax
      exact (h ax hax).2
    have hpos : ∀ n ∈ mesh.shape, 0 < n := by
      rw [hshape]
      intro n hn
      obtain ⟨ax, hax, rfl⟩ := List.mem_map.1 hn
      exact (h ax hax).1
    have hin : ∀ p ∈ inMeshUnits P ps, AllIn mesh.shape mesh.shape p.pos := fun p hp =>
      allIn_of_full mesh.shape hpos p.pos (by rw [hlen]; exact inMeshUnits_length hps p hp)
    unfold nbPaint nbReadout
    rw [hpe, hfull]
    constructor
    · apply chunkLoop_total
      intro s c hc
      simp only
      rw [cicPaintSome_count _ _ _ (fun p hp => hin p (hc p hp))]
      simp
    · apply chunkLoop_total
      intro s c hc
      have : (cicReadSome mesh.shape mesh.shape mesh.flat c).2 = 0 := by
        unfold cicReadSome
        apply List.sum_eq_zero
        intro k hk
        obtain ⟨pos, hpos, rfl⟩ := List.mem_map.1 hk
        obtain ⟨p, hp, rfl⟩ := List.mem_map.1 (hc pos hpos)
        exact cicReadPart_count _ _ _ _ (hin p hp)
      simp only
      rw [this]
      simp

/-! ### C51, numpy -/

theorem SamePeriod.pos {P : Painter K} {period : Option (List ℕ)} (h : SamePeriod P period) (hpos : ∀ p, period = some p → ∀ n ∈ p, 0 < n) {n : ℕ}
    (hn : n = P.axes.length) : ∀ p, period = some p → (∀ n ∈ p, 0 < n) ∧ p.length = n := by
  rintro p rfl
  refine ⟨hpos p rfl, ?_⟩
  simp only [SamePeriod] at h
  rw [h, hn]
  simp

/-- **C51** for `paint` of cic.py: if it does not raise, it paints what the cic window paints. -/
theorem C51_numpy_paint {P : Painter K} (hP : PlainPainter P .cic) {mem : ℤ → K} {mesh : FlatMesh K} (hshape : mesh.shape = shapeOf P.axes)
    (hsame : SameContent P.axes mem mesh.flat) {period : Option (List ℕ)} (hper : SamePeriod P period) (hpos : ∀ p, period = some p → ∀ n ∈ p, 0 < n)
    {chunksize : ℕ} (hc : 0 < chunksize) {raise : Bool} (ps : List (Particle K)) (hps : NativeParticles P ps) {m : ℤ → K}
    (hok : pyPaint chunksize raise mesh period (inMeshUnits P ps) = some m) :
    ∃ mem', paint P mem ps = some mem' ∧ SameContent P.axes mem' m := by
  have hlen : mesh.shape.length = P.axes.length := by rw [hshape]; simp [shapeOf]
  have hpe := hper.eq hlen
  refine deposit_same hP hsame ps hps (fun p => List.zipWith oldCicSt (P.axes.map (·.period)) (List.zipWith PAxis.grid P.axes p.pos))
    (cic_stencils hP ps hps) _ ?_
  intro a
  rw [pyPaint_eq chunksize hc raise mesh period (hper.pos hpos hlen) _ (by rw [hlen]; exact inMeshUnits_length hps) m hok a, hpe, hshape]
  simp only [inMeshUnits, List.map_map]
  rfl

/-- **C51** for `readout` of cic.py. -/
theorem C51_numpy_readout {P : Painter K} (hP : PlainPainter P .cic) {mem : ℤ → K} {mesh : FlatMesh K} (hshape : mesh.shape = shapeOf P.axes)
    (hsame : SameContent P.axes mem mesh.flat) {period : Option (List ℕ)} (hper : SamePeriod P period) (hpos : ∀ p, period = some p → ∀ n ∈ p, 0 < n)
    {raise : Bool} (ps : List (Particle K)) (hps : NativeParticles P ps) {v : List K}
    (hok : pyReadout raise mesh period ((inMeshUnits P ps).map (·.pos)) = some v) : readout P mem ps = some v := by
  have hlen : mesh.shape.length = P.axes.length := by rw [hshape]; simp [shapeOf]
  have hpe := hper.eq hlen
  have hv := mapM_eq_map _ (fun pos => stRead mesh.shape (List.zipWith oldCicSt (cicPeriod mesh.shape.length period) pos) mesh.flat) _ _ (by
    intro pos hp y hy
    obtain ⟨p, hp', rfl⟩ := List.mem_map.1 hp
    exact pyReadPart_eq raise mesh period (hper.pos hpos hlen) p.pos (by rw [hlen]; exact inMeshUnits_length hps p hp') y hy) hok
  rw [readout_eq P hP.valid ps (fun p hp => (hps p hp).1), hv]
  simp only [inMeshUnits, List.map_map]
  refine congrArg some ?_
  apply List.map_congr_left
  intro p hp
  simp only [Function.comp, stRead, hshape]
  congr 1
  apply List.map_congr_left
  intro c hcm
  have hpe' := hper.eq (n := (shapeOf P.axes).length) (by simp [shapeOf])
  rw [hsame c (mem_ndindex.1 hcm), hpe', ← zipWith_cic hP.valid hP.kern p.hsml (hps p hp).2 P.axes hP.values p.pos (hps p hp).1]

/-- **C51**: on a fully periodic mesh neither of them raises; with `mode = 'ignore'` they never do. -/
theorem C51_numpy_returns {P : Painter K} {mesh : FlatMesh K} (hshape : mesh.shape = shapeOf P.axes)
    {period : Option (List ℕ)} (hper : SamePeriod P period) (hpos : ∀ p, period = some p → ∀ n ∈ p, 0 < n)
    {chunksize : ℕ} {raise : Bool} (ps : List (Particle K)) (hps : NativeParticles P ps)
    (h : raise = false ∨ ∀ ax ∈ P.axes, FullPeriod ax) :
    (pyPaint chunksize raise mesh period (inMeshUnits P ps)).isSome ∧
    (pyReadout raise mesh period ((inMeshUnits P ps).map (·.pos))).isSome := by
  have hlen : mesh.shape.length = P.axes.length := by rw [hshape]; simp [shapeOf]
  have hpe := hper.eq hlen
  have hin : raise = true → ∀ p ∈ inMeshUnits P ps, AllIn mesh.shape (cicPeriod mesh.shape.length period) p.pos := by
    intro hr p hp
    rcases h with h | h
    · rw [h] at hr; cases hr
    · have hfull : P.axes.map (·.period) = mesh.shape := by
        rw [hshape, shapeOf]
        apply List.map_congr_left
        intro ax hax
        exact (h ax hax).2
      have hpos' : ∀ n ∈ mesh.shape, 0 < n := by
        rw [hshape]
        intro n hn
        obtain ⟨ax, hax, rfl⟩ := List.mem_map.1 hn
        exact (h ax hax).1
      rw [hpe, hfull]
      exact allIn_of_full mesh.shape hpos' p.pos (by rw [hlen]; exact inMeshUnits_length hps p hp)
  constructor
  · exact pyPaint_isSome chunksize raise mesh period (hper.pos hpos hlen) _ (by rw [hlen]; exact inMeshUnits_length hps) hin
  · refine pyReadout_isSome raise mesh period (hper.pos hpos hlen) _ ?_ ?_
    · intro pos hp
      obtain ⟨p, hp', rfl⟩ := List.mem_map.1 hp
      rw [hlen]
      exact inMeshUnits_length hps p hp'
    · intro hr pos hp
      obtain ⟨p, hp', rfl⟩ := List.mem_map.1 hp
      exact hin hr p hp'

/-! ### C52 -/

/-- **C52**, what `tsc.paint` does: a particle at mesh position `x + 1` is painted as the tsc window paints one at `x`, one cell too low.
Missing: the position itself, see `C52_violated`. -/
theorem C52_shifted_partial {P : Painter K} (hP : PlainPainter P .tsc) {mem : ℤ → K} {mesh : FlatMesh K} (hshape : mesh.shape = shapeOf P.axes)
    (hcont : mesh.contiguous = true) (hsame : SameContent P.axes mem mesh.flat) {period : ℕ} (hper : ∀ ax ∈ P.axes, ax.period = period)
    {chunksize : ℕ} (hc : 0 < chunksize) (ps : List (Particle K)) (hps : NativeParticles P ps) :
    ∃ mem' m, paint P mem ps = some mem' ∧ SameContent P.axes mem' m ∧
      tscPaint chunksize false mesh period
        (ps.map fun p => ⟨List.zipWith (fun (ax : PAxis K) x => ax.grid x + 1) P.axes p.pos, p.mass⟩) = some (m, false) := by
  have hlen : mesh.shape.length = P.axes.length := by rw [hshape]; simp [shapeOf]
  have hloop := chunkLoop_eq chunksize hc (fun (flat : ℤ → K) chunk =>
    ((tscPaintSome mesh.shape period flat chunk).1, decide ((tscPaintSome mesh.shape period flat chunk).2 ≠ 0) && false))
    (fun flat c => (tscPaintSome mesh.shape period flat c).1) (fun _ => rfl)
    (fun s a b => tscPaintSome_append mesh.shape _ s a b) _
    (ps.map fun p => (⟨List.zipWith (fun (ax : PAxis K) x => ax.grid x + 1) P.axes p.pos, p.mass⟩ : OldPart K)) mesh.flat le_rfl
    (fun s c _ => by simp)
  have hdep := deposit_same hP hsame ps hps
    (fun p => (List.zipWith (fun (ax : PAxis K) x => ax.grid x + 1) P.axes p.pos).map (oldTscSt period))
    (fun p hp c => cwProd_tsc period P.axes (fun ax hax => ⟨hP.values ax hax, hper ax hax⟩) p.pos c (hps p hp).1)
    (tscPaintSome mesh.shape period mesh.flat
      (ps.map fun p => (⟨List.zipWith (fun (ax : PAxis K) x => ax.grid x + 1) P.axes p.pos, p.mass⟩ : OldPart K))).1 (by
      intro a
      rw [tscPaintSome_flat mesh.shape period _ (by
        intro p hp
        obtain ⟨q, hq, rfl⟩ := List.mem_map.1 hp
        simp [hlen, (hps q hq).1]), hshape]
      simp only [List.map_map]
      rfl)
  obtain ⟨mem', h1, h2⟩ := hdep
  refine ⟨mem', _, h1, h2, ?_⟩
  unfold tscPaint
  rw [if_pos hcont]
  exact congrArg some hloop

end

/-! ### examples and violations -/

/-- A mesh of four cells. -/
def exFlat : FlatMesh ℚ := ⟨[4], fun _ => 0, true⟩

theorem exCic_plain : PlainPainter exCic .cic := ⟨exCic_valid, rfl, by intro ax h; simp [exCic] at h; subst h; rfl, exCic_distinct⟩

/-- Two particles on the periodic mesh of four cells, one of them split over the boundary: the hypotheses of C51 hold. -/
example : ∃ mem', paint exCic (fun _ => 0) [⟨[7 / 2], 2, 1⟩, ⟨[1 / 4], 1, 1⟩] = some mem' ∧
    SameContent exCic.axes mem' (nbPaint 65536 true exFlat (some [4]) (inMeshUnits exCic [⟨[7 / 2], 2, 1⟩, ⟨[1 / 4], 1, 1⟩])).1 := by
  have hn : NativeParticles exCic [⟨[7 / 2], 2, 1⟩, ⟨[1 / 4], 1, 1⟩] := by
    intro p hp
    simp only [List.mem_cons, List.not_mem_nil, or_false] at hp
    rcases hp with rfl | rfl <;> exact ⟨rfl, by norm_num [windowSize, exCic, linearK]⟩
  exact C51_numba_paint_partial exCic_plain rfl rfl (fun _ _ => rfl) (show SamePeriod exCic (some [4]) from rfl) (by norm_num) _ hn
    (C51_numba_returns rfl (show SamePeriod exCic (some [4]) from rfl) _ hn (Or.inr (by intro ax h; simp [exCic] at h; subst h; exact ⟨by decide, rfl⟩))).1

/-- The same with cic.py. -/
example : ∃ m mem', pyPaint 65536 true exFlat (some [4]) (inMeshUnits exCic [⟨[7 / 2], 2, 1⟩, ⟨[1 / 4], 1, 1⟩]) = some m ∧
    paint exCic (fun _ => 0) [⟨[7 / 2], 2, 1⟩, ⟨[1 / 4], 1, 1⟩] = some mem' ∧ SameContent exCic.axes mem' m := by
  have hn : NativeParticles exCic [⟨[7 / 2], 2, 1⟩, ⟨[1 / 4], 1, 1⟩] := by
    intro p hp
    simp only [List.mem_cons, List.not_mem_nil, or_false] at hp
    rcases hp with rfl | rfl <;> exact ⟨rfl, by norm_num [windowSize, exCic, linearK]⟩
  have hsp : SamePeriod exCic (some [4]) := rfl
  have hpos : ∀ p, some [4] = some p → ∀ n ∈ p, 0 < n := by
    rintro p hp n hn
    cases hp
    simp at hn
    omega
  have hret := C51_numpy_returns (P := exCic) (mesh := exFlat) (chunksize := 65536) (raise := true) rfl hsp hpos _ hn
    (Or.inr (by intro ax h; simp [exCic] at h; subst h; exact ⟨by decide, rfl⟩))
  obtain ⟨m, hm⟩ := Option.isSome_iff_exists.1 hret.1
  obtain ⟨mem', h1, h2⟩ := C51_numpy_paint (mem := fun _ => 0) exCic_plain rfl (fun _ _ => rfl) hsp hpos (by norm_num) _ hn hm
  exact ⟨m, mem', hm, h1, h2⟩

/-- C51 violated for `_cic.paint` and a mesh that is not C-contiguous: nothing is ever painted. -/
theorem C51_violated_noncontiguous (chunksize : ℕ) (raise : Bool) (mesh : FlatMesh ℚ) (h : mesh.contiguous = false) (period : Option (List ℕ))
    (ps : List (OldPart ℚ)) : (nbPaint chunksize raise mesh period ps).1 = mesh.flat := by
  have key : ∀ (body : (ℤ → ℚ) → List (OldPart ℚ) → (ℤ → ℚ) × Bool), (∀ s c, (body s c).1 = s) → ∀ (fuel : ℕ) (ps : List (OldPart ℚ)) (s : ℤ → ℚ),
      (chunkLoop chunksize body fuel s ps).1 = s := by
    intro body hb fuel
    induction fuel with
    | zero => intro ps s; rfl
    | succ fuel ih =>
      intro ps s
      rw [chunkLoop]
      split
      · rfl
      · simp only
        split
        · exact hb _ _
        · rw [ih, hb]
  exact key _ (fun s c => by simp [h]) _ _ _

/-- For instance: the particle that a contiguous mesh gets. -/
example : (nbPaint 1048576 true { exFlat with contiguous := false } (some [4]) [⟨[1], 1⟩]).1 1 = 0 ∧
    (nbPaint 1048576 true { exFlat with contiguous := false } (some [4]) [⟨[1], 1⟩]).2 = false ∧
    (nbPaint 1048576 true exFlat (some [4]) [⟨[1], 1⟩]).1 1 = 1 := by
  refine ⟨?_, ?_, ?_⟩ <;> decide +kernel

/-- C51, an entry 0 of `period`: no period for the window and for `_cic`, but `cic.paint` puts everything in cell 0. -/
theorem C51_violated_zero_period :
    (pyPaint 65536 true exFlat (some [0]) [⟨[1], 1⟩]).map (fun m => (m 0, m 1)) = some (1, 0) ∧
    (nbPaint 1048576 true exFlat (some [0]) [⟨[1], 1⟩]).1 1 = 1 := by
  constructor <;> decide +kernel

/-- The tsc painter on the periodic mesh of four cells. -/
def exOldTsc : Painter ℚ := ⟨quadraticK, some .tsc, 3, [exAx]⟩

theorem exOldTsc_plain : PlainPainter exOldTsc .tsc :=
  ⟨⟨by decide, by decide, by intro t ht; cases ht; rfl⟩, rfl, by intro ax h; simp [exOldTsc] at h; subst h; rfl, exCic_distinct⟩

/-- C52 violated: a particle on cell 1 puts 3/4 of its mass in cell 1 with the tsc window, with `tsc.paint` it puts that in cell 0. -/
theorem C52_violated :
    (paint exOldTsc (fun _ => 0) [⟨[1], 1, 1⟩]).map (fun m => [m 0, m 1, m 2, m 3]) = some [1 / 8, 3 / 4, 1 / 8, 0] ∧
    (tscPaint 1048576 true exFlat 4 [⟨[1], 1⟩]).map (fun m => [m.1 0, m.1 1, m.1 2, m.1 3]) = some [3 / 4, 1 / 8, 0, 1 / 8] := by
  constructor <;> decide +kernel

/-- C52 violated: `tsc.readout` raises `NameError`. -/
theorem C52_violated_readout (mesh : FlatMesh ℚ) (ps : List (List ℚ)) : tscReadout mesh ps = none := rfl

example : NativeParticles exOldTsc [⟨[7 / 2], 2, 1⟩, ⟨[1 / 4], 1, 1⟩] := by
  intro p hp
  simp only [List.mem_cons, List.not_mem_nil, or_false] at hp
  rcases hp with rfl | rfl <;> exact ⟨rfl, by norm_num [windowSize, exOldTsc, quadraticK]⟩

end Pmesh
