import Verif.Props.Translate

/-!
# C76: the particle-mesh solver gives the same on any number of ranks

Two runs with the same mesh, box, window and particles.  Number of ranks, process mesh, slabs, smoothing of `decompose`, strides,
and the ranks and order that the particles are in may differ.
-/

namespace Pmesh

open Complex

/-- A program on some number of ranks: mesh, smoothing for `decompose`, positions and masses on each rank. -/
structure SolverRun where
  m : PMesh ℝ
  sm : List ℝ
  pos : ℕ → List (List ℝ)
  mass : ℕ → Quant ℝ

/-- The restrictions of C23 and C24. -/
structure SolverRun.OK (a : SolverRun) (w : Resampler ℝ) : Prop where
  mesh : a.m.OK
  plain : a.m.PlainRanks
  smoothing : a.m.SmoothingOK a.sm
  halo : a.m.HaloFits a.sm
  covers : ∀ e ∈ a.sm, w.Covers e 1
  pos : ∀ r < a.m.nrank, ∀ x ∈ a.pos r, x.length = a.m.nmesh.length
  mass : QuantOK a.m.nrank (fun r => (a.pos r).length) a.mass

/-- `layout = pm.decompose(pos, smoothing); pm.paint(pos, mass, layout=layout)` on rank `r`. -/
noncomputable def SolverRun.paint (a : SolverRun) (w : Resampler ℝ) (r : ℕ) :=
  (pmDecompose a.m a.sm r (a.pos r)).andThen fun lay =>
    pmPaint a.m w none false r (some lay) (a.pos r) (a.mass r) .none fun _ => 0

/-- `layout = pm.decompose(pos, smoothing); field.readout(pos, layout=layout)` on rank `r`. -/
noncomputable def SolverRun.readout (a : SolverRun) (w : Resampler ℝ) (field : ℕ → ℤ → ℝ) (r : ℕ) :=
  (pmDecompose a.m a.sm r (a.pos r)).andThen fun lay => pmReadout a.m w none r (some lay) (a.pos r) .none (field r)

theorem weightAt_eq {m m' : PMesh ℝ} (hn : m.nmesh = m'.nmesh) (hb : m.box = m'.box) (w : Resampler ℝ) (x : List ℝ) (g : List ℕ) :
    m.weightAt w x g = m'.weightAt w x g := by
  obtain ⟨nmesh, box, _, _, _, _, _⟩ := m
  obtain ⟨nmesh', box', _, _, _, _, _⟩ := m'
  simp only at hn hb
  subst hn hb
  rfl

/-- **C76**: two runs with the same mesh, box and particles paint the same field; and if each transforms it, multiplies the modes by
the same function and transforms back, then in both runs each particle reads the same value: a function `value` of its position
that does not depend on the run.
Partial: the restrictions of `C23_paint_partial` on the decomposition. -/
theorem C76_rank_independent_partial (w : Resampler ℝ) (hw : w.Valid) (a b : SolverRun) (ha : a.OK w) (hb : b.OK w)
    (hn : a.m.nmesh = b.m.nmesh) (hbox : a.m.box = b.m.box)
    (hsame : (allParticles a.m.nrank a.pos a.mass fun _ => .none).Perm (allParticles b.m.nrank b.pos b.mass fun _ => .none))
    (cshape : List ℕ) (T : List ℕ → ℂ) :
    ∃ (rho : List ℕ → ℝ) (da db : ℕ → ℤ → ℝ) (value : List ℝ → ℝ),
      AllReturn a.m.nrank (a.paint w) (fun r => .ok (da r)) ∧ a.m.HoldsField da rho ∧
      AllReturn b.m.nrank (b.paint w) (fun r => .ok (db r)) ∧ b.m.HoldsField db rho ∧
      (∀ field, a.m.HoldsField field (c2r a.m.nmesh cshape fun k => T k * r2c a.m.nmesh rho k) →
        AllReturn a.m.nrank (a.readout w field) (fun r => .ok ((a.pos r).map value))) ∧
      ∀ field, b.m.HoldsField field (c2r b.m.nmesh cshape fun k => T k * r2c b.m.nmesh rho k) →
        AllReturn b.m.nrank (b.readout w field) (fun r => .ok ((b.pos r).map value)) := by
  obtain ⟨da, h1, h2⟩ := paint_weightAt a.m ha.mesh ha.plain w hw a.sm ha.smoothing ha.halo ha.covers a.pos ha.pos a.mass ha.mass
  obtain ⟨db, h3, h4⟩ := paint_weightAt b.m hb.mesh hb.plain w hw b.sm hb.smoothing hb.halo hb.covers b.pos hb.pos b.mass hb.mass
  obtain ⟨rho, hrd⟩ : ∃ rho : List ℕ → ℝ, rho = fun g =>
    ((allParticles a.m.nrank a.pos a.mass fun _ => .none).map fun p => p.mass * a.m.weightAt w p.pos g).sum := ⟨_, rfl⟩
  have hrd' : (fun g => ((allParticles b.m.nrank b.pos b.mass fun _ => .none).map fun p => p.mass * b.m.weightAt w p.pos g).sum) = rho := by
    rw [hrd]
    funext g
    simp only [weightAt_eq hn hbox w]
    exact ((hsame.map _).sum_eq).symm
  rw [← hrd] at h2
  rw [hrd'] at h4
  refine ⟨rho, da, db, fun x => ((ndindex a.m.nmesh).map fun g => a.m.weightAt w x g *
    c2r a.m.nmesh cshape (fun k => T k * r2c a.m.nmesh rho k) g).sum, h1, h2, h3, h4, fun field hf => ?_, fun field hf => ?_⟩
  · exact readout_all ha.mesh ha.plain hw ha.smoothing ha.halo ha.pos ha.covers field _ hf (cStrides a.m.nmesh)
  · have hR := readout_all hb.mesh hb.plain hw hb.smoothing hb.halo hb.pos hb.covers field _ hf (cStrides b.m.nmesh)
    refine AllReturn.congr (fun _ _ => rfl) (fun r hr => ?_) hR
    congr 1
    apply List.map_congr_left
    intro x _
    simp only [weightAt_eq hn hbox w]
    rw [hn]
    rfl

/-! ## Example: two ranks, and one rank with the particles in another order -/

noncomputable def exTwo : SolverRun := ⟨exMeshR, [1], fun r => if r = 0 then [[1 / 2], [7 / 3]] else [[9 / 2]], fun _ => .scalar 3⟩

noncomputable def exOne : SolverRun := ⟨exMeshR.serial [1], [2], fun _ => [[9 / 2], [1 / 2], [7 / 3]], fun _ => .scalar 3⟩

theorem exTwo_ok : exTwo.OK exWinR :=
  ⟨exMeshR_ok, exMeshR_plain, exMeshR_smoothing, exMeshR_halo, exWinR_covers,
    by intro r _ x hx; simp only [exTwo] at hx; split_ifs at hx <;> simp at hx <;> aesop, Or.inr (Or.inl ⟨3, fun _ _ => rfl⟩)⟩

theorem exOne_ok : exOne.OK exWinR where
  mesh := serial_ok exMeshR_ok (serial_distinct exMeshR)
  plain := serial_plain exMeshR exMeshR_ok _
  smoothing := ⟨rfl, by simp [exOne]⟩
  halo := serial_halo exMeshR _ _
  covers := by
    intro e he
    rw [List.mem_singleton.1 he]
    refine Or.inr (Or.inr ?_)
    have : windowSize (⟨exWinR.kern, exWinR.tuned, exWinR.support, []⟩ : Painter ℝ) 1 = ((2 : ℤ) : ℝ) := by
      simp [windowSize, exWinR]
    rw [this, Int.ceil_intCast]
    norm_num
  pos := by intro r _ x hx; simp [exOne] at hx; rcases hx with rfl | rfl | rfl <;> rfl
  mass := Or.inr (Or.inl ⟨3, fun _ _ => rfl⟩)

example := C76_rank_independent_partial exWinR exWinR_valid exTwo exOne exTwo_ok exOne_ok rfl rfl (by
  have h1 : exTwo.m.nrank = 2 := rfl
  have h2 : exOne.m.nrank = 1 := rfl
  rw [h1, h2]
  simp only [allParticles, exTwo, exOne, particlesOf, List.range_succ, List.range_zero, List.nil_append, List.flatMap_append,
    List.flatMap_cons, List.flatMap_nil, List.append_nil]
  simp only [if_true, if_neg (by decide : ¬ (1 : ℕ) = 0), List.length_cons, List.length_nil, List.range_succ, List.range_zero, List.nil_append,
    List.map_cons, List.map_nil, List.cons_append]
  exact (List.perm_append_comm (l₁ := [_, _]) (l₂ := [_]))) [5] exGravity

#print axioms C76_rank_independent_partial

end Pmesh
