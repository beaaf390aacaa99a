import Verif.Lemmas.Paint
import Mathlib.Data.Rat.Floor
import Mathlib.Data.Int.Interval

/-!
# Painting and readout (C14 – C20, C22)

Memory is a map from addresses to numbers; the array of a painter are the addresses `elemAddr P.axes c` of its valid
indices `c`.  See `Verif/Spec/Window.lean` for the vocabulary.
-/

namespace Pmesh

set_option linter.unusedSectionVars false

section
variable {K : Type*} [Field K] [LinearOrder K] [IsStrictOrderedRing K] [FloorRing K]

/-- Only finitely many images of a cell carry weight, so `axisWeight` is a genuine sum. -/
theorem C14_weight_finite {k : Kern K} (hk : Confined k) {s : K} (hs : 0 < s) (order : ℕ) (scale g : K) :
    {n : ℤ | windowAt k s order scale (g - n) ≠ 0}.Finite := by
  apply (Set.finite_Icc (⌊g - s / 2⌋) (⌊g + s / 2⌋)).subset
  intro n hn
  simp only [Set.mem_setOf_eq] at hn
  have h1 : ¬ (g - n < -(s / 2)) := fun h => hn (windowAt_zero_of hk hs order scale (Or.inl h))
  have h2 : ¬ (s / 2 ≤ g - n) := fun h => hn (windowAt_zero_of hk hs order scale (Or.inr h))
  constructor
  · have : (⌊g - s / 2⌋ : K) ≤ g - s / 2 := Int.floor_le _
    have : ((⌊g - s / 2⌋ : ℤ) : K) ≤ (n : K) := by linarith
    exact_mod_cast this
  · apply Int.le_floor.mpr; linarith

/-- C14: painting adds to every element of the array the mass-weighted, periodised window, and changes nothing else.
Excluded (`Faithful`, `Confined`) are the cases in which the code really differs: see `C14_violated_hsml`,
`C14_violated_wavelet`, and `C20_violated_*` for derivative axes of tuned painters. -/
theorem C14_paint_partial (P : Painter K) (hP : P.Valid) (hk : Confined P.kern) (hd : DistinctElems P.axes)
    (ps : List (Particle K)) (hps : ∀ p ∈ ps, p.pos.length = P.axes.length ∧ Faithful P p) (mem : ℤ → K) :
    ∃ mem', paint P mem ps = some mem' ∧
      (∀ c, ValidIndex (shapeOf P.axes) c → mem' (elemAddr P.axes c) = mem (elemAddr P.axes c) +
        (ps.map fun p => p.mass * cellWeight P.kern (windowSize P p.hsml) P.axes p.pos c).sum) ∧
      (∀ a, (∀ c, ValidIndex (shapeOf P.axes) c → a ≠ elemAddr P.axes c) → mem' a = mem a) := by
  refine ⟨_, paint_eq P hP ps (fun p hp => (hps p hp).1) mem, ?_, ?_⟩
  · intro c hc
    congr 2
    apply List.map_congr_left
    intro p hp
    rw [unitDeposit_elem P hd p c hc, cwProd_cellWeight hP hk (hps p hp).2]
  · intro a ha
    have : (ps.map fun p => p.mass * unitDeposit P p a).sum = 0 := by
      apply List.sum_eq_zero
      intro y hy
      obtain ⟨p, _, rfl⟩ := List.mem_map.mp hy
      rw [unitDeposit_other P p a ha, mul_zero]
    simp only [this, add_zero]

/-- C14, readout: the value at a particle is the field weighted with the same window. -/
theorem C14_readout_partial (P : Painter K) (hP : P.Valid) (hk : Confined P.kern)
    (ps : List (Particle K)) (hps : ∀ p ∈ ps, p.pos.length = P.axes.length ∧ Faithful P p) (mem : ℤ → K) :
    readout P mem ps = some (ps.map fun p => ((ndindex (shapeOf P.axes)).map fun c =>
      cellWeight P.kern (windowSize P p.hsml) P.axes p.pos c * mem (elemAddr P.axes c)).sum) := by
  rw [readout_eq P hP ps (fun p hp => (hps p hp).1) mem]
  congr 1
  apply List.map_congr_left
  intro p hp
  congr 1
  apply List.map_congr_left
  intro c _
  rw [cwProd_cellWeight hP hk (hps p hp).2]

/-- C14 for the untuned painters with a kernel that is not confined to its native support (the wavelet tables, or any
function): with windows of integer size the kernel is cut off to `[-native/2, native/2)`. -/
theorem C14_paint_cut (P : Painter K) (hP : P.Valid) (ht : P.tuned = none) (hd : DistinctElems P.axes)
    (ps : List (Particle K))
    (hps : ∀ p ∈ ps, p.pos.length = P.axes.length ∧ ∃ S : ℕ, windowSize P p.hsml = S) (mem : ℤ → K) :
    ∃ mem', paint P mem ps = some mem' ∧
      (∀ c, ValidIndex (shapeOf P.axes) c → mem' (elemAddr P.axes c) = mem (elemAddr P.axes c) +
        (ps.map fun p => p.mass * cellWeight (cutKern P.kern) (windowSize P p.hsml) P.axes p.pos c).sum) ∧
      (∀ a, (∀ c, ValidIndex (shapeOf P.axes) c → a ≠ elemAddr P.axes c) → mem' a = mem a) := by
  refine ⟨_, paint_eq P hP ps (fun p hp => (hps p hp).1) mem, ?_, ?_⟩
  · intro c hc
    congr 2
    apply List.map_congr_left
    intro p hp
    obtain ⟨S, hS⟩ := (hps p hp).2
    rw [unitDeposit_elem P hd p c hc]
    have : List.zipWith (axisStencil P p.hsml) P.axes p.pos =
        List.zipWith (genStencil (cutKern P.kern) (windowInfo (cutKern P.kern).native (P.support * p.hsml)))
          P.axes p.pos := by
      apply zipWith_congr_mem
      intro ax x _
      have : fastMethod P (partWin P p.hsml) = none := by unfold fastMethod; rw [ht]
      unfold axisStencil
      rw [this]
      exact genStencil_cut P.kern hP.native_pos _ S hS ax x
    rw [this, cwProd_gen (cutKern P.kern) (cutKern_confined P.kern hP.native_pos)]
    rfl
  · intro a ha
    have : (ps.map fun p => p.mass * unitDeposit P p a).sum = 0 := by
      apply List.sum_eq_zero
      intro y hy
      obtain ⟨p, _, rfl⟩ := List.mem_map.mp hy
      rw [unitDeposit_other P p a ha, mul_zero]
    simp only [this, add_zero]

/-! The hypotheses hold: every analytic and every tabulated symmetric kernel of the code is confined. -/

theorem C14_confined_nearest : Confined (nearestK : Kern K) := nearest_confined
theorem C14_confined_linear : Confined (linearK : Kern K) := linear_confined
theorem C14_confined_quadratic : Confined (quadraticK : Kern K) := quadratic_confined
theorem C14_confined_cubic : Confined (cubicK : Kern K) := cubic_confined

/-- Native support and table spacing of the ten tabulated symmetric windows: pmesh/_window_acg.h (acg2 .. acg6),
pmesh/_window_lanczos.h (lanczos2 .. lanczos6), all with 8192 entries. -/
def symTables : List (ℕ × ℚ) :=
  [(2, 1220852 / 10^10), (3, 1831278 / 10^10), (4, 2441704 / 10^10), (5, 3052130 / 10^10), (6, 3662556 / 10^10),
   (4, 2441406 / 10^10), (6, 3662109 / 10^10), (8, 4882812 / 10^10), (10, 6103516 / 10^10), (12, 7324219 / 10^10)]

theorem C14_confined_tables (e : ℕ × ℚ) (he : e ∈ symTables) (tab : ℕ → K) :
    Confined (⟨e.1, symTableKernel tab 8192 (e.2 : K), symTableDiff tab 8192 (e.2 : K)⟩ : Kern K) := by
  have h0 : 0 < e.1 ∧ 0 < e.2 ∧ ((8192 : ℚ) - 1) * e.2 ≤ e.1 / 2 := by
    revert e; decide +kernel
  refine symTable_confined tab 8192 e.1 (e.2 : K) ?_ h0.1 ?_
  · exact_mod_cast h0.2.1
  · have := (Rat.cast_le (K := K)).mpr h0.2.2
    push_cast at this ⊢
    linarith

/-! ### C15 -/

/-- C15: on a fully periodic mesh the total grows by exactly the total mass, for the nnb, cic, tsc, pcs windows,
tuned or not, in any dimension and for any mesh size. -/
theorem C15_mass_conserved (P : Painter K) (hP : P.Valid) (kind : Tuned) (hk : P.kern = Tuned.kern kind)
    (hper : ∀ ax ∈ P.axes, ax.order = 0 ∧ 0 < ax.size ∧ ax.period = ax.size) (hd : DistinctElems P.axes)
    (ps : List (Particle K))
    (hps : ∀ p ∈ ps, p.pos.length = P.axes.length ∧ windowSize P p.hsml = P.kern.native) (mem : ℤ → K) :
    ∃ mem', paint P mem ps = some mem' ∧ total P.axes mem' = total P.axes mem + (ps.map (·.mass)).sum := by
  refine ⟨_, paint_eq P hP ps (fun p hp => (hps p hp).1) mem, ?_⟩
  have hunit : ∀ p ∈ ps, ((ndindex (shapeOf P.axes)).map fun c => unitDeposit P p (elemAddr P.axes c)).sum = 1 := by
    intro p hp
    have hf : Faithful P p := by
      intro t _
      right; right; right
      refine ⟨(hps p hp).2, ?_⟩
      intro q hq
      exact Or.inl (hper q.1 (List.of_mem_zip hq).1).1
    have h1 : ((ndindex (shapeOf P.axes)).map fun c => unitDeposit P p (elemAddr P.axes c)).sum =
        ((ndindex (shapeOf P.axes)).map fun c => cwProd (List.zipWith (tunedStencil kind) P.axes p.pos) c).sum := by
      congr 1
      apply List.map_congr_left
      intro c hc
      rw [unitDeposit_elem P hd p c (mem_ndindex.mp hc)]
      congr 1
      apply zipWith_congr_mem
      intro ax x hx
      rw [axisStencil_gen hP hf hx]
      unfold partWin
      have hs := (hps p hp).2
      unfold windowSize at hs
      rw [hk] at hs ⊢
      exact (tunedStencil_eq kind ax x _ hs (Or.inl (hper ax (List.of_mem_zip hx).1).1)).symm
    rw [h1, sum_ndindex_cwProd _ _ (by simp [(hps p hp).1])]
    apply List.prod_eq_one
    intro y hy
    obtain ⟨i, hi, rfl⟩ := List.getElem_of_mem hy
    simp only [List.getElem_zipWith]
    simp only [List.length_zipWith] at hi
    have hi' : i < P.axes.length := by omega
    obtain ⟨ho, hsz, hpe⟩ := hper _ (List.getElem_mem hi')
    have hin : ∀ q ∈ tunedStencil kind P.axes[i] (p.pos[i]'(by omega)), 0 ≤ q.1 ∧ q.1 < ((P.axes[i].size : ℕ) : ℤ) := by
      intro q hq
      unfold tunedStencil at hq
      obtain ⟨t, _, ht⟩ := List.mem_map.mp (List.of_mem_zip hq).1
      rw [← ht, tunedWrap_eq, ← hpe]
      exact genWrap_range _ (by omega) t
    have := sum_cw_all P.axes[i].size (tunedStencil kind P.axes[i] (p.pos[i]'(by omega))) hin (fun _ => 1)
    simp only [mul_one] at this
    rw [this]
    have := tunedStencil_map kind P.axes[i] (p.pos[i]'(by omega)) (fun _ => 1)
    simp only [mul_one] at this
    rw [this, zipWith_snd_sum _ _ (by rw [(tunedSetup_length kind _ _).1, (tunedSetup_length kind _ _).2]),
      tunedVals_sum kind _ ho]
  unfold total
  simp only
  rw [sum_map_add]
  congr 1
  clear hps
  induction ps with
  | nil => simp
  | cons p ps ih =>
    simp only [List.map_cons, List.sum_cons]
    rw [sum_map_add, ih (fun q hq => hunit q (by simp [hq])), sum_mul_left', hunit p (by simp), mul_one]

/-! ### C16 -/

/-- C16: every address that painting or reading out touches is that of an element of the array, for every position;
the loop over the stencil ends. -/
theorem C16_in_array (P : Painter K) (hP : P.Valid) (pos : List K) (hl : pos.length = P.axes.length) (weight h : K) :
    ∃ ws rs, paintWrites P pos weight h = some ws ∧ readoutReads P pos h = some rs ∧
      (∀ w ∈ ws, ∃ c, ValidIndex (shapeOf P.axes) c ∧ w.1 = elemAddr P.axes c) ∧
      (∀ r ∈ rs, ∃ c, ValidIndex (shapeOf P.axes) c ∧ r.1 = elemAddr P.axes c) := by
  refine ⟨_, _, paintWrites_eq P pos weight h hP.native_pos hP.axes_ne hl,
    readoutReads_eq P pos h hP.native_pos hP.axes_ne hl, ?_, ?_⟩
  · intro w hw
    obtain ⟨q, hq, rfl⟩ := List.mem_map.mp hw
    exact mem_stencilOps_addr P.axes _ (by simp [hl]) q hq
  · intro r hr
    exact mem_stencilOps_addr P.axes _ (by simp [hl]) r hr

/-- C16: the stencil buffer `k[ndim * support]` is only indexed inside its bounds. -/
theorem C16_stencil_bounds (S n : ℕ) (hS : 0 < S) (hn : 0 < n) :
    ∃ rels, relLoop S (S ^ n + 1) (List.replicate n 0) = some rels ∧ rels.length = S ^ n ∧ rels.Nodup ∧
      ∀ rel ∈ rels, rel.length = n ∧ ∀ r ∈ rel, r < S := by
  refine ⟨_, relLoop_eq S n hS hn, by rw [ndindex_length, List.prod_replicate], ndindex_nodup _, ?_⟩
  intro rel hrel
  have hv := mem_ndindex.mp hrel
  refine ⟨by have := List.Forall₂.length_eq hv; simpa using this.symm, ?_⟩
  intro r hr
  obtain ⟨i, hi, rfl⟩ := List.getElem_of_mem hr
  have h2 := (List.forall₂_iff_get.mp hv).2 i (by simpa [← List.Forall₂.length_eq hv] using hi) hi
  simpa using h2

/-! ### C17 -/

/-- C17: painting a concatenation is painting one after the other, in any order; the deposit is added to what was
there; it scales with the masses. -/
theorem C17_append (P : Painter K) (ps qs : List (Particle K)) (mem : ℤ → K) :
    paint P mem (ps ++ qs) = (paint P mem ps).bind fun m => paint P m qs := by
  unfold paint
  rw [List.foldlM_append]; rfl

theorem C17_perm (P : Painter K) (hP : P.Valid) (ps qs : List (Particle K)) (hpq : ps.Perm qs)
    (hl : ∀ p ∈ ps, p.pos.length = P.axes.length) (mem : ℤ → K) : paint P mem ps = paint P mem qs := by
  rw [paint_eq P hP ps hl, paint_eq P hP qs (fun p hp => hl p (hpq.mem_iff.mpr hp))]
  simp only [Option.some.injEq]
  funext a
  rw [(hpq.map _).sum_eq]

theorem C17_hold (P : Painter K) (hP : P.Valid) (ps : List (Particle K))
    (hl : ∀ p ∈ ps, p.pos.length = P.axes.length) (mem : ℤ → K) :
    ∃ m0 m1, paint P (fun _ => 0) ps = some m0 ∧ paint P mem ps = some m1 ∧ ∀ a, m1 a = mem a + m0 a := by
  refine ⟨_, _, paint_eq P hP ps hl _, paint_eq P hP ps hl mem, ?_⟩
  intro a; simp

theorem C17_linear (P : Painter K) (hP : P.Valid) (ps : List (Particle K)) (r : K)
    (hl : ∀ p ∈ ps, p.pos.length = P.axes.length) :
    ∃ m0 m1, paint P (fun _ => 0) ps = some m0 ∧
      paint P (fun _ => 0) (ps.map fun p => { p with mass := r * p.mass }) = some m1 ∧ ∀ a, m1 a = r * m0 a := by
  refine ⟨_, _, paint_eq P hP ps hl _, paint_eq P hP _ ?_ _, ?_⟩
  · intro p hp
    obtain ⟨q, hq, rfl⟩ := List.mem_map.mp hp
    exact hl q hq
  · intro a
    simp only [zero_add, List.map_map]
    rw [← sum_mul_left']
    congr 1
    apply List.map_congr_left
    intro p _
    simp only [Function.comp, unitDeposit]
    ring

/-- C17: the masses of two sets at the same positions add up. -/
theorem C17_add_masses (P : Painter K) (hP : P.Valid) (ps : List (Particle K)) (m' : Particle K → K)
    (hl : ∀ p ∈ ps, p.pos.length = P.axes.length) :
    ∃ m0 m1 m2, paint P (fun _ => 0) ps = some m0 ∧
      paint P (fun _ => 0) (ps.map fun p => { p with mass := m' p }) = some m1 ∧
      paint P (fun _ => 0) (ps.map fun p => { p with mass := p.mass + m' p }) = some m2 ∧ ∀ a, m2 a = m0 a + m1 a := by
  refine ⟨_, _, _, paint_eq P hP ps hl _, paint_eq P hP _ ?_ _, paint_eq P hP _ ?_ _, ?_⟩
  · intro p hp
    obtain ⟨q, hq, rfl⟩ := List.mem_map.mp hp
    exact hl q hq
  · intro p hp
    obtain ⟨q, hq, rfl⟩ := List.mem_map.mp hp
    exact hl q hq
  · intro a
    simp only [zero_add, List.map_map]
    rw [← sum_map_add]
    congr 1
    apply List.map_congr_left
    intro p _
    simp only [Function.comp, unitDeposit]
    ring

/-! ### C18 -/

/-- C18: moving particles by whole periods changes neither the painted mesh nor the values read. -/
theorem C18_box (P : Painter K) (hP : P.Valid) (ps ps' : List (Particle K)) (mem : ℤ → K)
    (h : List.Forall₂ (fun p p' => p'.mass = p.mass ∧ p'.hsml = p.hsml ∧
      ∃ ms : List ℤ, MovedBy P.axes (List.zipWith (fun (ax : PAxis K) m => m * (ax.period : ℤ)) P.axes ms) p.pos p'.pos)
      ps ps') :
    paint P mem ps' = paint P mem ps ∧ readout P mem ps' = readout P mem ps := by
  have hst : List.Forall₂ (fun p p' : Particle K => p'.mass = p.mass ∧ p.pos.length = P.axes.length ∧
      p'.pos.length = P.axes.length ∧ List.zipWith (axisStencil P p'.hsml) P.axes p'.pos =
        List.zipWith (axisStencil P p.hsml) P.axes p.pos) ps ps' := by
    refine List.Forall₂.imp ?_ h
    rintro p p' ⟨h1, h2, ms, h3⟩
    refine ⟨h1, h3.length.1, h3.length.2, ?_⟩
    rw [h2]
    apply zipWith_stencil_box P p.hsml P.axes _ _ _ h3
    intro q hq
    obtain ⟨i, hi, rfl⟩ := List.getElem_of_mem hq
    simp only [List.getElem_zip, List.getElem_zipWith]
    exact ⟨_, rfl⟩
  have hl : ∀ p ∈ ps, p.pos.length = P.axes.length := by
    clear h
    induction hst with
    | nil => simp
    | cons a _ ih =>
      intro p hp
      rcases List.mem_cons.mp hp with rfl | hp
      · exact a.2.1
      · exact ih p hp
  have hl' : ∀ p ∈ ps', p.pos.length = P.axes.length := by
    clear h hl
    induction hst with
    | nil => simp
    | cons a _ ih =>
      intro p hp
      rcases List.mem_cons.mp hp with rfl | hp
      · exact a.2.2.1
      · exact ih p hp
  constructor
  · rw [paint_eq P hP ps hl, paint_eq P hP ps' hl']
    simp only [Option.some.injEq]
    funext a
    congr 2
    clear h hl hl'
    induction hst with
    | nil => rfl
    | cons e _ ih =>
      simp only [List.map_cons, unitDeposit] at ih ⊢
      rw [ih, e.1, e.2.2.2]
  · rw [readout_eq P hP ps hl, readout_eq P hP ps' hl']
    congr 1
    clear h hl hl'
    induction hst with
    | nil => rfl
    | cons e _ ih =>
      simp only [List.map_cons] at ih ⊢
      rw [ih, e.2.2.2]

/-- C18: moving all particles by whole cells moves the painted mesh by the same cells. -/
theorem C18_cells (P : Painter K) (hP : P.Valid) (hd : DistinctElems P.axes) (ns : List ℤ) (ps ps' : List (Particle K))
    (mem : ℤ → K)
    (h : List.Forall₂ (fun p p' => p'.mass = p.mass ∧ p'.hsml = p.hsml ∧ MovedBy P.axes ns p.pos p'.pos) ps ps') :
    ∃ m m', paint P mem ps = some m ∧ paint P mem ps' = some m' ∧
      ∀ c c', ValidIndex (shapeOf P.axes) c → ValidIndex (shapeOf P.axes) c' → CellMoved P.axes ns c c' →
        m' (elemAddr P.axes c') - mem (elemAddr P.axes c') = m (elemAddr P.axes c) - mem (elemAddr P.axes c) := by
  have hl : ∀ p ∈ ps, p.pos.length = P.axes.length := by
    induction h with
    | nil => simp
    | cons a _ ih =>
      intro p hp
      rcases List.mem_cons.mp hp with rfl | hp
      · exact a.2.2.length.1
      · exact ih p hp
  have hl' : ∀ p ∈ ps', p.pos.length = P.axes.length := by
    clear hl
    induction h with
    | nil => simp
    | cons a _ ih =>
      intro p hp
      rcases List.mem_cons.mp hp with rfl | hp
      · exact a.2.2.length.2
      · exact ih p hp
  refine ⟨_, _, paint_eq P hP ps hl mem, paint_eq P hP ps' hl' mem, ?_⟩
  intro c c' hc hc' hcc
  simp only [add_sub_cancel_left]
  congr 1
  clear hl hl'
  induction h with
  | nil => rfl
  | cons e _ ih =>
    simp only [List.map_cons]
    rw [ih, e.1, unitDeposit_elem P hd _ c hc, unitDeposit_elem P hd _ c' hc', e.2.1,
      cwProd_shift P _ P.axes ns _ _ c c' e.2.2 hc hcc]

/-! ### C19 -/

/-- C19: readout is the adjoint of paint, for every window, period, local box, derivative axes included. -/
theorem C19_adjoint (P : Painter K) (hP : P.Valid) (hd : DistinctElems P.axes) (ps : List (Particle K))
    (hl : ∀ p ∈ ps, p.pos.length = P.axes.length) (f : ℤ → K) :
    ∃ vals mem', readout P f ps = some vals ∧ paint P (fun _ => 0) ps = some mem' ∧
      (List.zipWith (fun (p : Particle K) v => p.mass * v) ps vals).sum =
        ((ndindex (shapeOf P.axes)).map fun c => f (elemAddr P.axes c) * mem' (elemAddr P.axes c)).sum := by
  refine ⟨_, _, readout_eq P hP ps hl f, paint_eq P hP ps hl _, ?_⟩
  rw [List.zipWith_map_right]
  have hR : ((ndindex (shapeOf P.axes)).map fun c => f (elemAddr P.axes c) *
      (0 + (ps.map fun p => p.mass * unitDeposit P p (elemAddr P.axes c)).sum)).sum =
      ((ndindex (shapeOf P.axes)).map fun c => (ps.map fun p => p.mass *
        (cwProd (List.zipWith (axisStencil P p.hsml) P.axes p.pos) c * f (elemAddr P.axes c))).sum).sum := by
    congr 1
    apply List.map_congr_left
    intro c hc
    rw [zero_add, ← sum_mul_left']
    congr 1
    apply List.map_congr_left
    intro p _
    rw [unitDeposit_elem P hd p c (mem_ndindex.mp hc)]; ring
  rw [hR]
  clear hR hl
  induction ps with
  | nil => simp
  | cons p ps ih =>
    simp only [List.zipWith_cons_cons, List.sum_cons, List.map_cons]
    rw [sum_map_add, ih, sum_mul_left']

/-! ### C20 -/

/-- C20: a tuned painter and the generic painter of the same window give the same mesh and the same values. -/
theorem C20_tuned_eq_generic_partial (P : Painter K) (hP : P.Valid) (ps : List (Particle K))
    (hps : ∀ p ∈ ps, p.pos.length = P.axes.length ∧ Faithful P p) (mem : ℤ → K) :
    paint P mem ps = paint { P with tuned := none } mem ps ∧
    readout P mem ps = readout { P with tuned := none } mem ps := by
  have hP' : ({ P with tuned := none } : Painter K).Valid := ⟨hP.native_pos, hP.axes_ne, by simp⟩
  have hst : ∀ p ∈ ps, List.zipWith (axisStencil P p.hsml) P.axes p.pos =
      List.zipWith (axisStencil { P with tuned := none } p.hsml) P.axes p.pos := by
    intro p hp
    apply zipWith_congr_mem
    intro ax x hx
    rw [axisStencil_gen hP (hps p hp).2 hx]
    unfold axisStencil
    have : fastMethod { P with tuned := none } (partWin { P with tuned := none } p.hsml) = none := by
      unfold fastMethod; simp
    rw [this]
    rfl
  constructor
  · rw [paint_eq P hP ps (fun p hp => (hps p hp).1), paint_eq _ hP' ps (fun p hp => (hps p hp).1)]
    simp only [Option.some.injEq]
    funext a
    congr 2
    apply List.map_congr_left
    intro p hp
    unfold unitDeposit
    rw [hst p hp]
  · rw [readout_eq P hP ps (fun p hp => (hps p hp).1), readout_eq _ hP' ps (fun p hp => (hps p hp).1)]
    congr 1
    apply List.map_congr_left
    intro p hp
    rw [hst p hp]

/-! ### C22 -/

/-- C22: reading out a field that is linear in the coordinates returns its value at the position, for cic, tsc and pcs
(tuned or not); along axes without slope, and for nnb, the field is constant and the axis may wrap. -/
theorem C22_linear_exact (P : Painter K) (hP : P.Valid) (kind : Tuned) (hk : P.kern = Tuned.kern kind)
    (a : K) (bs : List K) (hbs : bs.length = P.axes.length) (f : ℤ → K)
    (hf : ∀ c, ValidIndex (shapeOf P.axes) c → f (elemAddr P.axes c) = linAt a bs (c.map (Nat.cast : ℕ → K)))
    (ps : List (Particle K))
    (hps : ∀ p ∈ ps, p.pos.length = P.axes.length ∧ windowSize P p.hsml = P.kern.native ∧
      ∀ i (h : i < P.axes.length) (h1 : i < bs.length) (h2 : i < p.pos.length), P.axes[i].order = 0 ∧
        ((FullPeriod P.axes[i] ∧ bs[i] = 0) ∨
          (Interior P.kern.native P.axes[i] p.pos[i] ∧ (kind ≠ .nnb ∨ bs[i] = 0)))) :
    readout P f ps = some (ps.map fun p =>
      linAt a bs (List.zipWith (fun (ax : PAxis K) x => x * ax.scale + ax.translate) P.axes p.pos)) := by
  rw [readout_eq P hP ps (fun p hp => (hps p hp).1)]
  congr 1
  apply List.map_congr_left
  intro p hp
  obtain ⟨hl, hw, hax⟩ := hps p hp
  have hord : ∀ q ∈ List.zip P.axes p.pos, q.1.order = 0 := by
    intro q hq
    obtain ⟨i, hi, rfl⟩ := List.getElem_of_mem hq
    simp only [List.length_zip] at hi
    simp only [List.getElem_zip]
    exact (hax i (by omega) (by omega) (by omega)).1
  have hfa : Faithful P p := fun t _ => Or.inr (Or.inr (Or.inr ⟨hw, fun q hq => Or.inl (hord q hq)⟩))
  have e1 : List.zipWith (axisStencil P p.hsml) P.axes p.pos = List.zipWith (tunedStencil kind) P.axes p.pos := by
    apply zipWith_congr_mem
    intro ax x hx
    rw [axisStencil_gen hP hfa hx]
    unfold partWin
    unfold windowSize at hw
    rw [hk] at hw ⊢
    exact (tunedStencil_eq kind ax x _ hw (Or.inl (hord _ hx))).symm
  rw [e1]
  have e2 : ((ndindex (shapeOf P.axes)).map fun c => cwProd (List.zipWith (tunedStencil kind) P.axes p.pos) c *
      f (elemAddr P.axes c)) = ((ndindex (shapeOf P.axes)).map fun c =>
        cwProd (List.zipWith (tunedStencil kind) P.axes p.pos) c * linAt a bs (c.map (Nat.cast : ℕ → K))) := by
    apply List.map_congr_left
    intro c hc
    rw [hf c (mem_ndindex.mp hc)]
  rw [e2]
  apply sum_linear
  · simp [hl]
  · exact hbs
  · simp [hl]
  · intro i h h1 h2 h3
    have := hax i h h2 (by omega)
    rw [hk] at this
    simp only [List.getElem_zipWith]
    exact linear_axis kind P.axes[i] (p.pos[i]'(by omega)) bs[i] this.1 this.2

/-! ### arrays with distinct elements exist: C-contiguous ones -/

theorem C14_contiguous_distinct (item : ℤ) (hi : 0 < item) (axes : List (PAxis K)) (h : Contiguous item axes) :
    DistinctElems axes := by
  have key : ∀ (axes : List (PAxis K)), Contiguous item axes → ∀ c, ValidIndex (shapeOf axes) c →
      elemAddr axes c = item * (cOrder (shapeOf axes) c : ℕ) := by
    intro axes
    induction axes with
    | nil => intro _ c _; simp [elemAddr, shapeOf, cOrder]
    | cons ax axs ih =>
      intro hc c hv
      match c, hv with
      | i :: is, hv =>
        have hv' : ValidIndex (shapeOf axs) is := by cases hv with | cons a b => exact b
        have := ih hc.2 is hv'
        simp only [elemAddr, shapeOf, List.map_cons, cOrder] at this ⊢
        rw [this, hc.1]
        push_cast [shapeOf]
        ring
  intro c c' hc hc' he
  rw [key axes h c hc, key axes h c' hc'] at he
  have : (cOrder (shapeOf axes) c : ℤ) = cOrder (shapeOf axes) c' := by
    exact mul_left_cancel₀ hi.ne' he
  exact cOrder_inj hc hc' (by exact_mod_cast this)

end
/-! ### where the code violates C14 and C20 -/

/-- A periodic axis of four cells. -/
def exAx : PAxis ℚ := ⟨0, 1, 0, 4, 4, 1⟩

/-- The tuned cic painter on it. -/
def exCic : Painter ℚ := ⟨linearK, some .cic, 2, [exAx]⟩

theorem exCic_valid : exCic.Valid := ⟨by decide, by decide, by intro t ht; cases ht; rfl⟩

theorem exCic_distinct : DistinctElems exCic.axes :=
  C14_contiguous_distinct 1 one_pos _ ⟨by decide, trivial⟩

/-- C20 violated: with `hsml = 3/4` the tuned cic painter still paints the full cic window (its test looks at the window
size rounded up to an integer), the untuned one a window of size 3/2. -/
theorem C20_violated_hsml :
    (paint exCic (fun _ => 0) [⟨[1 / 4], 1, 3 / 4⟩]).map (fun m => m 0) = some (3 / 4) ∧
    (paint { exCic with tuned := none } (fun _ => 0) [⟨[1 / 4], 1, 3 / 4⟩]).map (fun m => m 0) = some (8 / 9) := by
  decide +kernel

/-- C14 violated for tuned windows: the deposit of the same particle in cell 0 is not the mass times the window. -/
theorem C14_violated_hsml :
    ∃ (P : Painter ℚ) (p : Particle ℚ) (c : List ℕ) (mem' : ℤ → ℚ), P.Valid ∧ Confined P.kern ∧ DistinctElems P.axes ∧
      p.pos.length = P.axes.length ∧ 0 < p.hsml ∧ ValidIndex (shapeOf P.axes) c ∧ paint P (fun _ => 0) [p] = some mem' ∧
      mem' (elemAddr P.axes c) ≠ p.mass * cellWeight P.kern (windowSize P p.hsml) P.axes p.pos c := by
  obtain ⟨h1, h2⟩ := C20_violated_hsml
  have hv := exCic_valid
  obtain ⟨m, hm, hc, _⟩ := C14_paint_partial { exCic with tuned := none } ⟨hv.1, hv.2, by simp⟩ linear_confined
    exCic_distinct [⟨[1 / 4], 1, 3 / 4⟩] (by
      intro p hp
      refine ⟨by simp at hp; subst hp; rfl, fun t ht => by simp at ht⟩) (fun _ => 0)
  have hc0 := hc [0] (by decide)
  rw [hm] at h2
  cases hp : paint exCic (fun _ => 0) [⟨[1 / 4], 1, 3 / 4⟩] with
  | none => rw [hp] at h1; simp at h1
  | some mem' =>
    refine ⟨exCic, ⟨[1 / 4], 1, 3 / 4⟩, [0], mem', hv, linear_confined, exCic_distinct, rfl, by norm_num, by decide, hp, ?_⟩
    rw [hp] at h1
    have e1 : mem' 0 = 3 / 4 := by simpa using h1
    have e2 : m 0 = 8 / 9 := by simpa using h2
    have e3 : elemAddr exCic.axes [0] = 0 := by decide
    have e4 : elemAddr ({ exCic with tuned := none } : Painter ℚ).axes [0] = 0 := by decide
    rw [e4, e2] at hc0
    rw [e3, e1]
    simp only [List.map_cons, List.map_nil, List.sum_cons, List.sum_nil, add_zero, zero_add] at hc0
    intro hcon
    have : (3 / 4 : ℚ) = 8 / 9 := by rw [hcon, hc0]; rfl
    norm_num at this

/-- C20 violated: the tuned pcs painter forgets the scale of a derivative axis. -/
theorem C20_violated_pcs_gradient :
    let ax : PAxis ℚ := ⟨1, 2, 0, 8, 8, 1⟩
    let P : Painter ℚ := ⟨cubicK, some .pcs, 4, [ax]⟩
    (readout P (fun a => a * a) [⟨[7 / 4], 1, 1⟩]) = some [7] ∧
    (readout { P with tuned := none } (fun a => a * a) [⟨[7 / 4], 1, 1⟩]) = some [14] := by
  decide +kernel

/-- C20 violated: exactly on a grid point the gradient read with the tuned cic painter is the right-hand difference,
with the untuned one it is zero. -/
theorem C20_violated_cic_gradient :
    let ax : PAxis ℚ := ⟨1, 1, 0, 8, 8, 1⟩
    let P : Painter ℚ := ⟨linearK, some .cic, 2, [ax]⟩
    (readout P (fun a => a) [⟨[3], 1, 1⟩]) = some [1] ∧
    (readout { P with tuned := none } (fun a => a) [⟨[3], 1, 1⟩]) = some [0] := by
  decide +kernel

/-- C14 violated for the wavelet windows: the table reaches beyond the native support, but cells there are not
visited.  For sym6 (native support 7, 1796 entries) a particle at distance exactly 7/2 right of cell 0 has a nonzero
window value there (table entry 1792, 0.00088451 in pmesh/_window_wavelets.h), and nothing is painted. -/
theorem C14_violated_wavelet (tab : ℕ → ℚ) (htab : tab 1792 ≠ 0) :
    let k : Kern ℚ := ⟨7, waveTableKernel tab 1796 (1 / 256) (7 / 2), waveTableDiff tab 1796 (1 / 256) (7 / 2)⟩
    let P : Painter ℚ := ⟨k, none, 7, [⟨0, 1, 0, 0, 8, 1⟩]⟩
    (∃ mem', paint P (fun _ => 0) [⟨[7 / 2], 1, 1⟩] = some mem' ∧ mem' (elemAddr P.axes [0]) = 0) ∧
    cellWeight P.kern (windowSize P 1) P.axes [7 / 2] [0] = tab 1792 := by
  intro k P
  have hP : P.Valid := ⟨by show 0 < 7; decide, by simp [P], by simp [P]⟩
  have hd : DistinctElems P.axes := C14_contiguous_distinct 1 one_pos _ ⟨by simp [shapeOf], trivial⟩
  have hs : windowSize P 1 = 7 := by simp [windowSize, P]
  have hkern : waveTableKernel tab 1796 (1 / 256 : ℚ) (7 / 2) (7 / 2) = tab 1792 := by
    unfold waveTableKernel truncInt
    have e : ((7 / 2 + 7 / 2 : ℚ) / (1 / 256)) = (1792 : ℤ) := by norm_num
    simp only [e]
    rw [if_neg (by norm_num)]
    rw [if_pos (by norm_num : (0 : ℚ) ≤ ((1792 : ℤ) : ℚ)), Int.floor_intCast, if_neg (by norm_num)]
    simp
  constructor
  · obtain ⟨m, hm, hc, _⟩ := C14_paint_cut P hP rfl hd [⟨[7 / 2], 1, 1⟩]
      (by intro p hp; simp at hp; subst hp; exact ⟨rfl, 7, by rw [hs]; norm_num⟩) (fun _ => 0)
    refine ⟨m, hm, ?_⟩
    rw [hc [0] (by simp [P, shapeOf, ValidIndex])]
    simp only [List.map_cons, List.map_nil, List.sum_cons, List.sum_nil, add_zero, zero_add, one_mul]
    rw [hs]
    simp only [P, cellWeight, mul_one]
    unfold axisWeight
    apply finsum_eq_zero_of_forall_eq_zero
    intro n
    split
    · next h =>
      have : n = 0 := by simpa [IsCell] using h.symm
      subst this
      simp only [windowAt, cutKern, k]
      norm_num
    · rfl
  · rw [hs]
    simp only [P, cellWeight, mul_one]
    unfold axisWeight
    rw [finsum_eq_single _ 0]
    · rw [if_pos (by simp [IsCell])]
      simp only [windowAt, k]
      norm_num
      rw [show (1 / 256 : ℚ) = 1 / 256 from rfl] at hkern
      simpa using hkern
    · intro n hn
      rw [if_neg]
      simpa [IsCell] using hn.symm

/-! ### concrete cases meeting the hypotheses -/

/-- A two-dimensional, untuned, partly periodic local slab with a window of odd size. -/
def exSlab : Painter ℚ := ⟨quadraticK, none, 5, [⟨0, 2, -3 / 2, 8, 3, 4⟩, ⟨0, 1, 0, 0, 4, 1⟩]⟩

theorem exSlab_valid : exSlab.Valid := ⟨by decide, by decide, by intro t ht; cases ht⟩

theorem exSlab_distinct : DistinctElems exSlab.axes :=
  C14_contiguous_distinct 1 one_pos _ ⟨by decide, by decide, trivial⟩

def exParts : List (Particle ℚ) := [⟨[7 / 3, 5 / 4], 3, 1⟩, ⟨[-11 / 3, 9 / 4], -1 / 2, 1 / 3⟩]

example : ∀ p ∈ exParts, p.pos.length = exSlab.axes.length ∧ Faithful exSlab p := by
  intro p hp
  refine ⟨by revert p; decide, ?_⟩
  intro t ht; cases ht

example : Confined exSlab.kern := quadratic_confined

/-- The deposit is not trivial. -/
example : (paint exSlab (fun _ => 0) exParts).map (fun m => (m (elemAddr exSlab.axes [1, 2]), m 100)) =
    some (5913 / 500000, 0) := by decide +kernel

/-- A tuned painter, native size: faithful. -/
example : Faithful exCic ⟨[9 / 4], 1, 1⟩ := by
  intro t ht
  right; right; right
  refine ⟨by decide +kernel, ?_⟩
  intro q hq
  have : q = (exAx, 9 / 4) := by simpa [exCic] using hq
  subst this
  exact Or.inl rfl

/-- A tuned painter with a window of twice the native size: faithful (it falls back to the generic code). -/
example : Faithful exCic ⟨[9 / 4], 1, 2⟩ := by
  intro t ht
  right; right; left
  decide +kernel

/-- C15: a periodic mesh smaller than the pcs window. -/
def exPcs3 : Painter ℚ := ⟨cubicK, some .pcs, 4, [⟨0, 1, 1 / 3, 3, 3, 2⟩, ⟨0, 2, 0, 2, 2, 1⟩]⟩

example : exPcs3.Valid ∧ (∀ ax ∈ exPcs3.axes, ax.order = 0 ∧ 0 < ax.size ∧ ax.period = ax.size) ∧
    DistinctElems exPcs3.axes ∧ windowSize exPcs3 1 = exPcs3.kern.native :=
  ⟨⟨by decide, by decide, by intro t ht; cases ht; rfl⟩, by decide,
    C14_contiguous_distinct 1 one_pos _ ⟨by decide, by decide, trivial⟩, by decide +kernel⟩

/-- C18: a particle moved by two periods along the first axis of the slab, and one moved by one cell. -/
example : MovedBy exSlab.axes (List.zipWith (fun (ax : PAxis ℚ) m => m * (ax.period : ℤ)) exSlab.axes [2, 0])
    [7 / 3, 5 / 4] [7 / 3 + 8, 5 / 4] := by
  simp [exSlab, MovedBy]; norm_num

example : MovedBy exCic.axes [1] [1 / 4] [5 / 4] ∧ CellMoved exCic.axes [1] [3] [0] := by
  constructor
  · simp [exCic, exAx, MovedBy]; norm_num
  · simp [exCic, exAx, CellMoved]

/-- C22: an interior position for tsc. -/
example : Interior (Tuned.kern .tsc : Kern ℚ).native ⟨0, 2, 1, 0, 8, 1⟩ (3 / 2 : ℚ) := by
  simp only [Interior, Tuned.kern, quadraticK]; norm_num

#print axioms C14_weight_finite
#print axioms C14_paint_partial
#print axioms C14_readout_partial
#print axioms C14_paint_cut
#print axioms C14_confined_tables
#print axioms C14_contiguous_distinct
#print axioms C14_violated_hsml
#print axioms C14_violated_wavelet
#print axioms C15_mass_conserved
#print axioms C16_in_array
#print axioms C16_stencil_bounds
#print axioms C17_append
#print axioms C17_perm
#print axioms C17_hold
#print axioms C17_linear
#print axioms C17_add_masses
#print axioms C18_box
#print axioms C18_cells
#print axioms C19_adjoint
#print axioms C20_tuned_eq_generic_partial
#print axioms C20_violated_hsml
#print axioms C20_violated_pcs_gradient
#print axioms C20_violated_cic_gradient
#print axioms C22_linear_exact

end Pmesh
