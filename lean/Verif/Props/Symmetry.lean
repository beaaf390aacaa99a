import Verif.Lemmas.SymmetryKinds
import Verif.Props.NoiseLow

/-!
# C81: the particle-mesh solver has the symmetries of the box

Exchange of axes, mirror images, and the unit of length.  The two runs that are compared may be on different numbers of ranks, and
may have the particles in any order.
-/

namespace Pmesh

open Complex

/-- **C81**, exchange of axes: if mesh, box and positions have their axes in another order, then so have the painted field and its
modes, and each particle reads the same value, for a transfer function with its axes in that order.
Partial: the restrictions of `C23_paint_partial` on the decomposition. -/
theorem C81_axes_partial (w : Resampler ℝ) (hw : w.Valid) (a b : SolverRun) (ha : a.OK w) (hb : b.OK w)
    (axes : List ℕ) (hperm : axes.Perm (List.range a.m.nmesh.length)) (hn : b.m.nmesh = transposed axes a.m.nmesh)
    (hbox : b.m.box = transposed axes a.m.box)
    (hsame : (allParticles b.m.nrank b.pos b.mass fun _ => .none).Perm
      ((allParticles a.m.nrank a.pos a.mass fun _ => .none).map fun p => ⟨transposed axes p.pos, p.mass, p.hsml⟩))
    (cshape cshape' : List ℕ) (hs : StoredShape a.m.nmesh cshape) (hs' : StoredShape b.m.nmesh cshape')
    (T T' : List ℕ → ℂ) (hT : RealTransfer a.m.nmesh T) (hTT : ∀ k, ValidIndex a.m.nmesh k → T' (transposed axes k) = T k) :
    a.SolvesAlike b w (transposed axes) (transposed axes) cshape cshape' T T' :=
  (symmetry_transposed ha.mesh hb.mesh hperm hn hbox).solver hw ha hb hsame hs hs' hT hTT

/-- **C81**, mirror images: if the positions of all particles are mirrored in the middle of the box, along any of the axes, then so
are the painted field and its modes, and each particle reads the same value, for a transfer function that is mirrored. The transfer
function of a force along a mirrored axis changes its sign, `T' = -T`, so that component changes its sign.
The window has to be the same on both sides of the particle.
Partial: the restrictions of `C23_paint_partial` on the decomposition. -/
theorem C81_mirror_partial (w : Resampler ℝ) (hw : w.Valid) (hk : Confined w.kern) (heven : ∀ x, w.kern.kernel (-x) = w.kern.kernel x)
    (a b : SolverRun) (ha : a.OK w) (hb : b.OK w)
    (flip : List Bool) (hflip : flip.length = a.m.nmesh.length) (hn : b.m.nmesh = a.m.nmesh) (hbox : b.m.box = a.m.box)
    (hsame : (allParticles b.m.nrank b.pos b.mass fun _ => .none).Perm
      ((allParticles a.m.nrank a.pos a.mass fun _ => .none).map fun p => ⟨mirrored flip a.m.box p.pos, p.mass, p.hsml⟩))
    (cshape cshape' : List ℕ) (hs : StoredShape a.m.nmesh cshape) (hs' : StoredShape b.m.nmesh cshape')
    (T T' : List ℕ → ℂ) (hT : RealTransfer a.m.nmesh T)
    (hTT : ∀ k, ValidIndex a.m.nmesh k → T' (mirroredCell flip a.m.nmesh k) = T k) :
    a.SolvesAlike b w (mirrored flip a.m.box) (mirroredCell flip a.m.nmesh) cshape cshape' T T' :=
  (symmetry_mirrored hw hk heven ha.mesh hb.mesh hflip hn hbox).solver hw ha hb hsame hs hs' hT hTT

/-- **C81**, units: if box and positions are given in another unit of length, then the painted field, its modes and the values read
are the same.
Partial: the restrictions of `C23_paint_partial` on the decomposition. -/
theorem C81_units_partial (w : Resampler ℝ) (hw : w.Valid) (a b : SolverRun) (ha : a.OK w) (hb : b.OK w)
    (unit : ℝ) (hu : 0 < unit) (hn : b.m.nmesh = a.m.nmesh) (hbox : b.m.box = a.m.box.map (unit * ·))
    (hsame : (allParticles b.m.nrank b.pos b.mass fun _ => .none).Perm
      ((allParticles a.m.nrank a.pos a.mass fun _ => .none).map fun p => ⟨p.pos.map (unit * ·), p.mass, p.hsml⟩))
    (cshape cshape' : List ℕ) (hs : StoredShape a.m.nmesh cshape) (hs' : StoredShape b.m.nmesh cshape')
    (T : List ℕ → ℂ) (hT : RealTransfer a.m.nmesh T) :
    a.SolvesAlike b w (fun x => x.map (unit * ·)) (fun g => g) cshape cshape' T T :=
  (symmetry_units ha.mesh hb.mesh hu.ne' hn hbox).solver hw ha hb hsame hs hs' hT fun _ _ => rfl

/-- The windows `cic`, `tsc` and `pcs` (and `linear`, `quadratic`, `cubic`, of any size) are the same on both sides of the particle. -/
theorem C81_even_windows (t : Tuned) (ht : t ≠ .nnb) :
    Confined (Tuned.kern t : Kern ℝ) ∧ ∀ x, (Tuned.kern t : Kern ℝ).kernel (-x) = (Tuned.kern t : Kern ℝ).kernel x := by
  refine ⟨tuned_confined t, fun x => ?_⟩
  cases t with
  | nnb => exact absurd rfl ht
  | cic => simp [Tuned.kern, linearK, linearKernel]
  | tsc => simp [Tuned.kern, quadraticK, quadraticKernel]
  | pcs => simp [Tuned.kern, cubicK, cubicKernel]

/-- **C81 violated** for mirror images with the window `nnb` (`nearest`): half way between two cells a particle goes to the upper one.
A particle at 1/2 is painted to cell 1; its mirror image at 15/2 to cell 0 instead of cell 7. -/
theorem C81_violated_nearest :
    AllReturn 2 (fun r => paintAndLook exMesh [1] ⟨nearestK, some .nnb, 1⟩ (if r = 0 then [[1 / 2]] else []) .none .none 1 r)
      (fun r => .ok (if r = 0 then 1 else 0)) ∧
    mirrored [true] exMesh.box [1 / 2] = [15 / 2] ∧ mirroredCell [true] exMesh.nmesh [1] = [7] ∧ exMesh.global 1 [3] = [7] ∧
    exMesh.global 0 [0] = [0] ∧
    AllReturn 2 (fun r => paintAndLook exMesh [1] ⟨nearestK, some .nnb, 1⟩ (if r = 0 then [[15 / 2]] else []) .none .none 3 r)
      (fun _ => .ok 0) ∧
    AllReturn 2 (fun r => paintAndLook exMesh [1] ⟨nearestK, some .nnb, 1⟩ (if r = 0 then [[15 / 2]] else []) .none .none 0 r)
      (fun r => .ok (if r = 0 then 1 else 0)) :=
  ⟨AllReturn.of_runAll 20 (by decide +kernel), by decide +kernel, by decide +kernel, by decide +kernel, by decide +kernel,
    AllReturn.of_runAll 20 (by decide +kernel), AllReturn.of_runAll 20 (by decide +kernel)⟩

/-! ## Examples -/

/-- Four by six cells in a box of 1 by 2, on one rank. -/
noncomputable def exRect : PMesh ℝ := ⟨[4, 6], [1, 2], [[0, 4], [0, 6]], 1, fun _ => [0, 0], fun _ => [6, 1], fun _ => 77⟩

/-- The same with the axes exchanged. -/
noncomputable def exRectT : PMesh ℝ := ⟨[6, 4], [2, 1], [[0, 6], [0, 4]], 1, fun _ => [0, 0], fun _ => [4, 1], fun _ => 77⟩

/-- The same in a unit three times smaller. -/
noncomputable def exRectU : PMesh ℝ := ⟨[4, 6], [3 * 1, 3 * 2], [[0, 4], [0, 6]], 1, fun _ => [0, 0], fun _ => [6, 1], fun _ => 77⟩

theorem exRect_ok : exRect.OK where
  dim := by simp [exRect]
  box_len := rfl
  box_pos := by simp [exRect]
  edges := .cons (slabEdges_of_decide (by decide)) (.cons (slabEdges_of_decide (by decide)) .nil)
  ranks := rfl
  coord_valid := fun _ _ => by show ValidIndex [1, 1] [0, 0]; decide
  coord_inj := fun r hr r' hr' _ => by have : exRect.nrank = 1 := rfl; omega
  distinct := fun r _ => serial_distinct exRect

theorem exRectT_ok : exRectT.OK where
  dim := by simp [exRectT]
  box_len := rfl
  box_pos := by simp [exRectT]
  edges := .cons (slabEdges_of_decide (by decide)) (.cons (slabEdges_of_decide (by decide)) .nil)
  ranks := rfl
  coord_valid := fun _ _ => by show ValidIndex [1, 1] [0, 0]; decide
  coord_inj := fun r hr r' hr' _ => by have : exRectT.nrank = 1 := rfl; omega
  distinct := fun r _ => serial_distinct exRectT

theorem exRectU_ok : exRectU.OK where
  dim := by simp [exRectU]
  box_len := rfl
  box_pos := by simp [exRectU]
  edges := .cons (slabEdges_of_decide (by decide)) (.cons (slabEdges_of_decide (by decide)) .nil)
  ranks := rfl
  coord_valid := fun _ _ => by show ValidIndex [1, 1] [0, 0]; decide
  coord_inj := fun r hr r' hr' _ => by have : exRectU.nrank = 1 := rfl; omega
  distinct := fun r _ => serial_distinct exRectU

theorem exRect_run {m : PMesh ℝ} (hm : m.OK) (h1 : m = exRect ∨ m = exRectT ∨ m = exRectU) (pos : List (List ℝ)) (hpos : ∀ x ∈ pos, x.length = 2) :
    (⟨m, [1, 1], fun _ => pos, fun _ => .scalar 3⟩ : SolverRun).OK exWinR where
  mesh := hm
  plain := Or.inl (by rcases h1 with rfl | rfl | rfl <;> simp [exRect, exRectT, exRectU])
  smoothing := ⟨by rcases h1 with rfl | rfl | rfl <;> rfl, by simp⟩
  halo := by
    intro j hj d hd
    right
    rcases h1 with rfl | rfl | rfl <;> (
      have hj : j < 2 := hj
      have : j = 0 ∨ j = 1 := by omega
      rcases this with rfl | rfl <;> (
        have hd : d < 1 := hd
        have : d = 0 := by omega
        subst this
        rfl))
  covers := by
    intro e he
    refine exWinR_covers e ?_
    simp at he
    simp [he]
  pos := by
    intro r _ x hx
    rw [hpos x hx]
    rcases h1 with rfl | rfl | rfl <;> rfl
  mass := Or.inr (Or.inl ⟨3, fun _ _ => rfl⟩)

/-- The inverse of the mean density: all modes but the first. -/
noncomputable def exContrast (k : List ℕ) : ℂ := if k = [0, 0] then 0 else 1

theorem exContrast_real {nmesh : List ℕ} (h : nmesh.length = 2) : RealTransfer nmesh exContrast := by
  intro k hk
  obtain ⟨a, b, rfl⟩ := List.length_eq_two.1 h
  have := opposite_zero_iff hk
  simp only [List.map_cons, List.map_nil] at this
  unfold exContrast
  by_cases h0 : k = [0, 0]
  · rw [if_pos h0, if_pos (this.2 h0)]; simp
  · rw [if_neg h0, if_neg (fun e => h0 (this.1 e))]; simp

noncomputable def exPos : List (List ℝ) := [[1 / 3, 1 / 2], [4 / 5, 7 / 4]]

example := C81_axes_partial exWinR exWinR_valid ⟨exRect, [1, 1], fun _ => exPos, fun _ => .scalar 3⟩
  ⟨exRectT, [1, 1], fun _ => exPos.map (transposed [1, 0]), fun _ => .scalar 3⟩
  (exRect_run exRect_ok (Or.inl rfl) _ (by simp [exPos])) (exRect_run exRectT_ok (Or.inr (Or.inl rfl)) _ (by simp [exPos, transposed]))
  [1, 0] (by show [1, 0].Perm (List.range 2); decide) rfl rfl (by rw [← allParticles_moved]; rfl) [4, 4] [6, 3] (Or.inr rfl) (Or.inr rfl)
  exContrast exContrast (exContrast_real rfl) (by
    intro k hk
    obtain ⟨a, b, rfl⟩ := List.length_eq_two.1 hk.len
    simp [exContrast, transposed, and_comm])

example := C81_mirror_partial exWinR exWinR_valid (C81_even_windows .cic (by decide)).1 (C81_even_windows .cic (by decide)).2
  ⟨exRect, [1, 1], fun _ => exPos, fun _ => .scalar 3⟩
  ⟨exRect, [1, 1], fun _ => exPos.map (mirrored [false, true] exRect.box), fun _ => .scalar 3⟩
  (exRect_run exRect_ok (Or.inl rfl) _ (by simp [exPos])) (exRect_run exRect_ok (Or.inl rfl) _ (by simp [exPos, mirrored, exRect]))
  [false, true] rfl rfl rfl (by rw [← allParticles_moved]) [4, 4] [4, 4] (Or.inr rfl) (Or.inr rfl)
  exContrast exContrast (exContrast_real rfl) (by
    intro k hk
    obtain ⟨a, b, rfl⟩ := List.length_eq_two.1 hk.len
    obtain ⟨h1, h2, -⟩ : a < 4 ∧ b < 6 ∧ True := by cases hk with | cons h1 h => cases h with | cons h2 h => exact ⟨h1, h2, trivial⟩
    simp only [exContrast, mirroredCell, exRect, if_true]
    have : (6 - b) % 6 = 0 ↔ b = 0 := by omega
    simp [this])

example := C81_units_partial exWinR exWinR_valid ⟨exRect, [1, 1], fun _ => exPos, fun _ => .scalar 3⟩
  ⟨exRectU, [1, 1], fun _ => exPos.map fun x => x.map ((3 : ℝ) * ·), fun _ => .scalar 3⟩
  (exRect_run exRect_ok (Or.inl rfl) _ (by simp [exPos])) (exRect_run exRectU_ok (Or.inr (Or.inr rfl)) _ (by simp [exPos]))
  3 (by norm_num) rfl rfl (by rw [← allParticles_moved]; rfl) [4, 4] [4, 4] (Or.inr rfl) (Or.inr rfl) exContrast (exContrast_real rfl)

#print axioms C81_axes_partial
#print axioms C81_mirror_partial
#print axioms C81_units_partial
#print axioms C81_even_windows
#print axioms C81_violated_nearest

end Pmesh
