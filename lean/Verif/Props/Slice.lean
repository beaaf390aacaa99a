import Verif.Lemmas.Slice
import Verif.Props.Symmetry

/-!
# C82: painting commutes with projection

A mesh, and the mesh with some of its axes (in any order).  The particles of the second are those of the first, without the other
coordinates.
-/

namespace Pmesh

open Complex

/-- **C82**, painting. Painting on the mesh and summing over the omitted axes, which is what `preview(axes)` returns on every rank,
gives what painting the projected particles on the smaller mesh gives; and the modes of the smaller mesh are those of the larger one
with no variation along the omitted axes, times the number of cells that are summed.
Partial: windows `nnb`, `cic`, `tsc` and `pcs` of native size; the restrictions of `C23_paint_partial` on the decomposition; `preview`
with all axes in another order does not work (C35). -/
theorem C82_projection_partial (w : Resampler ℝ) (hw : w.Valid) (kind : Tuned) (hk : w.kern = Tuned.kern kind)
    (hsup : w.support = w.kern.native) (a b : SolverRun) (ha : a.OK w) (hb : b.OK w)
    (axes : List ℕ) (hnd : axes.Nodup) (hlt : ∀ d ∈ axes, d < a.m.nmesh.length)
    (hn : b.m.nmesh = transposed axes a.m.nmesh) (hbox : b.m.box = transposed axes a.m.box)
    (hsame : (allParticles b.m.nrank b.pos b.mass fun _ => .none).Perm
      ((allParticles a.m.nrank a.pos a.mass fun _ => .none).map fun p => ⟨transposed axes p.pos, p.mass, p.hsml⟩)) :
    ∃ (rho rho' : List ℕ → ℝ) (da db : ℕ → ℤ → ℝ),
      AllReturn a.m.nrank (a.paint w) (fun r => .ok (da r)) ∧ a.m.HoldsField da rho ∧
      AllReturn b.m.nrank (b.paint w) (fun r => .ok (db r)) ∧ b.m.HoldsField db rho' ∧
      (∀ g, ValidIndex b.m.nmesh g → rho' g = projection a.m.nmesh axes rho g) ∧
      ((axes.length = a.m.nmesh.length → axes = List.range a.m.nmesh.length) →
        AllReturn a.m.nrank (fun r => preview a.m.tiling r axes fun c => da r (a.m.addr r c)) (fun _ => .ok ((ndindex b.m.nmesh).map rho'))) ∧
      ∀ k, ValidIndex b.m.nmesh k → r2c b.m.nmesh rho' k =
        (((a.m.nmesh.prod : ℕ) : ℝ) / (b.m.nmesh.prod : ℕ) : ℝ) * r2c a.m.nmesh rho (extended a.m.nmesh.length axes k) := by
  obtain ⟨da, h1, h2⟩ := paint_weightAt a.m ha.mesh ha.plain w hw a.sm ha.smoothing ha.halo ha.covers a.pos ha.pos a.mass ha.mass
  obtain ⟨db, h3, h4⟩ := paint_weightAt b.m hb.mesh hb.plain w hw b.sm hb.smoothing hb.halo hb.covers b.pos hb.pos b.mass hb.mass
  obtain ⟨rho, hrd⟩ : ∃ rho : List ℕ → ℝ, rho = fun g =>
    ((allParticles a.m.nrank a.pos a.mass fun _ => .none).map fun p => p.mass * a.m.weightAt w p.pos g).sum := ⟨_, rfl⟩
  obtain ⟨rho', hrd'⟩ : ∃ rho : List ℕ → ℝ, rho = fun g =>
    ((allParticles b.m.nrank b.pos b.mass fun _ => .none).map fun p => p.mass * b.m.weightAt w p.pos g).sum := ⟨_, rfl⟩
  rw [← hrd] at h2
  rw [← hrd'] at h4
  have hproj : ∀ g, ValidIndex b.m.nmesh g → rho' g = projection a.m.nmesh axes rho g := by
    intro g hg
    rw [hrd, hrd']
    simp only
    rw [(hsame.map _).sum_eq, List.map_map]
    unfold projection
    have e : ∀ c ∈ ndindex a.m.nmesh, (if (axes.map fun d => c.getD d 0) = g then
        ((allParticles a.m.nrank a.pos a.mass fun _ => .none).map fun p => p.mass * a.m.weightAt w p.pos c).sum else 0) =
        ((allParticles a.m.nrank a.pos a.mass fun _ => .none).map fun p =>
          if (axes.map fun d => c.getD d 0) = g then p.mass * a.m.weightAt w p.pos c else 0).sum := by
      intro c _
      split_ifs
      · rfl
      · simp
    beta_reduce
    rw [List.map_congr_left e, sum_swapC]
    apply sum_congr'
    intro p hp
    obtain ⟨_, r, hr, hpr⟩ := mem_allParticles_hsml hp
    simp only [Function.comp]
    rw [← weightAt_projection hw hk hsup ha.mesh hb.mesh hnd hlt hn hbox (ha.pos r hr _ hpr) hg]
    unfold projection
    rw [← List.sum_map_mul_left]
    congr 1
    apply List.map_congr_left
    intro c _
    split_ifs <;> simp
  refine ⟨rho, rho', da, db, h1, h2, h3, h4, hproj, fun hord => ?_, fun k hk => ?_⟩
  · have h := C35_projection_partial a.m.tiling (tiling_ok ha.mesh) axes hnd hlt hord (fun r c => da r (a.m.addr r c)) rho
      (fun r hr c hc => h2 r hr c hc)
    refine AllReturn.congr (fun _ _ => rfl) (fun _ _ => ?_) h
    unfold projected
    congr 1
    have e : (axes.map fun d => a.m.tiling.cshape.getD d 0) = b.m.nmesh := hn.symm
    rw [e]
    apply List.map_congr_left
    intro g hg
    exact hproj g (mem_ndindex.1 hg)
  · rw [hn] at hk hproj ⊢
    exact r2c_projection hnd hlt (nmesh_pos' ha.mesh) rho rho' hproj hk

/-- **C82**, readout. Reading a field that does not vary along the omitted axes gives what reading it on the smaller mesh gives.
Partial: as above. -/
theorem C82_readout_partial (w : Resampler ℝ) (hw : w.Valid) (kind : Tuned) (hk : w.kern = Tuned.kern kind)
    (hsup : w.support = w.kern.native) (a b : SolverRun) (ha : a.OK w) (hb : b.OK w)
    (axes : List ℕ) (hnd : axes.Nodup) (hlt : ∀ d ∈ axes, d < a.m.nmesh.length)
    (hn : b.m.nmesh = transposed axes a.m.nmesh) (hbox : b.m.box = transposed axes a.m.box)
    (fa fb : ℕ → ℤ → ℝ) (G : List ℕ → ℝ) (hfa : a.m.HoldsField fa fun c => G (transposed axes c)) (hfb : b.m.HoldsField fb G) :
    ∃ value : List ℝ → ℝ,
      AllReturn a.m.nrank (a.readout w fa) (fun r => .ok ((a.pos r).map fun x => value (transposed axes x))) ∧
      AllReturn b.m.nrank (b.readout w fb) (fun r => .ok ((b.pos r).map value)) := by
  refine ⟨fun x => ((ndindex b.m.nmesh).map fun g => b.m.weightAt w x g * G g).sum, ?_, ?_⟩
  · have h := readout_all ha.mesh ha.plain hw ha.smoothing ha.halo ha.pos ha.covers fa (fun c => G (transposed axes c)) hfa (cStrides a.m.nmesh)
    refine AllReturn.congr (fun _ _ => rfl) (fun r hr => ?_) h
    congr 1
    apply List.map_congr_left
    intro x hx
    have hx := ha.pos r hr x hx
    have e : ∀ g ∈ ndindex b.m.nmesh, b.m.weightAt w (transposed axes x) g * G g =
        ((ndindex a.m.nmesh).map fun c => if transposed axes c = g then a.m.weightAt w x c * G g else 0).sum := by
      intro g hg
      rw [← weightAt_projection hw hk hsup ha.mesh hb.mesh hnd hlt hn hbox hx (mem_ndindex.1 hg)]
      unfold projection
      rw [← List.sum_map_mul_right]
      congr 1
      apply List.map_congr_left
      intro c _
      unfold transposed
      split_ifs <;> simp
    beta_reduce
    rw [List.map_congr_left e, sum_swapC]
    apply sum_congr'
    intro c hc
    have hc := mem_ndindex.1 hc
    have hcv : ValidIndex b.m.nmesh (transposed axes c) := by
      rw [hn, validIndex_iff]
      refine ⟨by simp [transposed], fun j hj => ?_⟩
      have hj : j < axes.length := by simpa [transposed] using hj
      rw [transposed_getD _ _ hj, transposed_getD _ _ hj]
      refine (validIndex_iff.1 hc).2 _ (hlt _ ?_)
      rw [List.getD_eq_getElem _ _ hj]
      exact List.getElem_mem _
    rw [sum_single _ hcv fun g => a.m.weightAt w x c * G g]
    rfl
  · exact readout_all hb.mesh hb.plain hw hb.smoothing hb.halo hb.pos hb.covers fb G hfb (cStrides b.m.nmesh)

/-- **C82**, total: `csum` of the painted field is the total mass, on every rank.
Partial: as above. -/
theorem C82_total_partial (w : Resampler ℝ) (hw : w.Valid) (kind : Tuned) (hk : w.kern = Tuned.kern kind)
    (hsup : w.support = w.kern.native) (a : SolverRun) (ha : a.OK w)
    (order : ℕ → List ℕ) (hord : ∀ r < a.m.nrank, (order r).Perm (List.range a.m.nmesh.length)) :
    ∃ da : ℕ → ℤ → ℝ, AllReturn a.m.nrank (a.paint w) (fun r => .ok (da r)) ∧
      AllReturn a.m.nrank (fun r => csum a.m.tiling (order r) (fun c => da r (a.m.addr r c)) r)
        (fun _ => ((allParticles a.m.nrank a.pos a.mass fun _ => .none).map (·.mass)).sum) := by
  obtain ⟨da, h1, h2⟩ := paint_weightAt a.m ha.mesh ha.plain w hw a.sm ha.smoothing ha.halo ha.covers a.pos ha.pos a.mass ha.mass
  refine ⟨da, h1, ?_⟩
  have h := C54_csum a.m.tiling (tiling_ok ha.mesh) order hord (fun r c => da r (a.m.addr r c))
    (fun g => ((allParticles a.m.nrank a.pos a.mass fun _ => .none).map fun p => p.mass * a.m.weightAt w p.pos g).sum)
    (fun r hr c hc => h2 r hr c hc)
  refine AllReturn.congr (fun _ _ => rfl) (fun _ _ => ?_) h
  have e : a.m.tiling.cshape = a.m.nmesh := rfl
  rw [e, sum_swapC]
  apply sum_congr'
  intro p hp
  obtain ⟨_, r, hr, hpr⟩ := mem_allParticles_hsml hp
  rw [List.sum_map_mul_left, weightAt_sum ha.mesh hw hk hsup (ha.pos r hr _ hpr), mul_one]

/-- **C82 violated** for a window of another size: the weights of a `cic` window of three cells do not add up to one. A particle of
mass 1 at the corner of a mesh of 8 by 8 cells puts 20/27 into row 0, the projected particle 2/3 into cell 0. -/
theorem C82_violated_size :
    (paint (((⟨[8, 8], [8, 8], [[0, 8], [0, 8]], 1, fun _ => [0, 0], fun _ => [8, 1], fun _ => 0⟩ : PMesh ℚ)).painter ⟨linearK, some .cic, 3⟩ none 0)
      (fun _ => 0) [⟨[0, 0], 1, 1⟩]).map (fun mem => ((List.range 8).map fun j => mem (j : ℕ)).sum) = some (20 / 27) ∧
    (paint (((⟨[8], [8], [[0, 8]], 1, fun _ => [0], fun _ => [1], fun _ => 0⟩ : PMesh ℚ)).painter ⟨linearK, some .cic, 3⟩ none 0)
      (fun _ => 0) [⟨[0], 1, 1⟩]).map (fun mem => mem 0) = some (2 / 3) := by
  decide +kernel

/-! ## Examples -/

/-- The second axis of `exRect`. -/
noncomputable def exLineR : PMesh ℝ := ⟨[6], [2], [[0, 6]], 1, fun _ => [0], fun _ => [1], fun _ => 77⟩

theorem exLineR_ok : exLineR.OK where
  dim := by simp [exLineR]
  box_len := rfl
  box_pos := by simp [exLineR]
  edges := .cons (slabEdges_of_decide (by decide)) .nil
  ranks := rfl
  coord_valid := fun _ _ => by show ValidIndex [1] [0]; decide
  coord_inj := fun r hr r' hr' _ => by have : exLineR.nrank = 1 := rfl; omega
  distinct := fun r _ => serial_distinct exLineR

theorem exLineR_run (pos : List (List ℝ)) (hpos : ∀ x ∈ pos, x.length = 1) :
    (⟨exLineR, [1], fun _ => pos, fun _ => .scalar 3⟩ : SolverRun).OK exWinR where
  mesh := exLineR_ok
  plain := Or.inl (by simp [exLineR])
  smoothing := ⟨rfl, by simp⟩
  halo := by
    intro j hj d hd
    right
    have hj : j < 1 := hj
    obtain rfl : j = 0 := by omega
    have hd : d < 1 := hd
    obtain rfl : d = 0 := by omega
    rfl
  covers := exWinR_covers
  pos := by
    intro r _ x hx
    rw [hpos x hx]
    rfl
  mass := Or.inr (Or.inl ⟨3, fun _ _ => rfl⟩)

example := C82_projection_partial exWinR exWinR_valid .cic rfl rfl ⟨exRect, [1, 1], fun _ => exPos, fun _ => .scalar 3⟩
  ⟨exLineR, [1], fun _ => exPos.map (transposed [1]), fun _ => .scalar 3⟩
  (exRect_run exRect_ok (Or.inl rfl) _ (by simp [exPos])) (exLineR_run _ (by simp [exPos, transposed]))
  [1] (by decide) (by simp [exRect]) rfl rfl (by rw [← allParticles_moved]; rfl)

example := C82_readout_partial exWinR exWinR_valid .cic rfl rfl ⟨exRect, [1, 1], fun _ => exPos, fun _ => .scalar 3⟩
  ⟨exLineR, [1], fun _ => exPos.map (transposed [1]), fun _ => .scalar 3⟩
  (exRect_run exRect_ok (Or.inl rfl) _ (by simp [exPos])) (exLineR_run _ (by simp [exPos, transposed]))
  [1] (by decide) (by simp [exRect]) rfl rfl (fun _ a => ((a % 6 : ℤ) : ℝ)) (fun _ a => (a : ℝ)) (fun g => g.getD 0 0)
  (by
    intro r hr c hc
    obtain rfl : r = 0 := by have : r < 1 := hr; omega
    obtain ⟨i, j, rfl⟩ := List.length_eq_two.1 hc.len
    have hij : i < 4 ∧ j < 6 := by cases hc with | cons h1 h => cases h with | cons h2 h => exact ⟨h1, h2⟩
    simp only [PMesh.addr, PMesh.global, PMesh.start, exRect, transposed]
    simp
    have : (j : ℤ) % 6 = j := by omega
    rw [this]
    simp)
  (by
    intro r hr c hc
    obtain ⟨i, rfl⟩ := List.length_eq_one_iff.1 hc.len
    simp [PMesh.addr, PMesh.global, PMesh.start, exLineR])

example := C82_total_partial exWinR exWinR_valid .cic rfl rfl exTwo exTwo_ok (fun _ => [0]) (fun _ _ => by
  show [0].Perm (List.range 1); decide)

#print axioms C82_projection_partial
#print axioms C82_total_partial
#print axioms C82_readout_partial
#print axioms C82_violated_size

end Pmesh
