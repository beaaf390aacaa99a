import Verif.Spec.SimSymmetry
import Verif.Props.Simulation
import Verif.Props.Energy
import Verif.Props.Symmetry
import Verif.Lemmas.Translate

/-!
# C90: a simulation of any length has the symmetries of the box
-/

namespace Pmesh

open Complex

section
variable {B B' : Type}

/-- Induction over the steps. -/
theorem stays_alike {a b : Machine} {w : Resampler ℝ} (hw : w.Valid) (ha : a.OK w) (hb : b.OK w) {sys : Sys B} {sys' : Sys B'} {f : B → B'}
    (hk : sys.Keeps)
    (hx : ∀ q, (sys.x q).length = a.m.nmesh.length → (sys'.x (f q)).length = b.m.nmesh.length)
    (hstep : ∀ n (L : List B) (L' : List B'), (∀ q ∈ L, (sys.x q).length = a.m.nmesh.length) → L'.Perm (L.map f) → ∀ q ∈ L,
      bodyStep b.m b.t.cshape w sys' n L' (f q) = f (bodyStep a.m a.t.cshape w sys n L q)) :
    a.StaysAlike b w sys sys' f := by
  intro s t hs hp n
  suffices h : (∃ s', a.Steps w sys n s s') ∧ (∃ t', b.Steps w sys' n t t') ∧
      (∀ s', a.Steps w sys n s s' → ∀ q ∈ a.all s', (sys.x q).length = a.m.nmesh.length) ∧
      ∀ s' t', a.Steps w sys n s s' → b.Steps w sys' n t t' → (b.all t').Perm ((a.all s').map f) from ⟨h.1, h.2.1, h.2.2.2⟩
  have hmem : ∀ {C : Type} (c : Machine) (u : ℕ → List C) (r : ℕ), r < c.m.nrank → ∀ q ∈ u r, q ∈ c.all u :=
    fun c u r hr q hq => List.mem_flatMap.2 ⟨r, List.mem_range.2 hr, hq⟩
  induction n with
  | zero =>
    refine ⟨⟨s, rfl⟩, ⟨t, rfl⟩, ?_, ?_⟩
    · rintro s' rfl; exact hs
    · rintro s' t' rfl rfl; exact hp
  | succ n ih =>
    obtain ⟨⟨u, hu⟩, ⟨v, hv⟩, hlen, hperm⟩ := ih
    have hlenb : ∀ u v, a.Steps w sys n s u → b.Steps w sys' n t v → ∀ q ∈ b.all v, (sys'.x q).length = b.m.nmesh.length := by
      intro u v hu hv q hq
      obtain ⟨q', hq', rfl⟩ := List.mem_map.1 ((hperm u v hu hv).subset hq)
      exact hx q' (hlen u hu q' hq')
    refine ⟨?_, ?_, ?_, ?_⟩
    · obtain ⟨u', h'⟩ := (step_iff hw ha sys n u fun r hr q hq => hlen u hu q (hmem a u r hr q hq)).1
      exact ⟨u', u, hu, h'⟩
    · obtain ⟨v', h'⟩ := (step_iff hw hb sys' n v fun r hr q hq => hlenb u v hu hv q (hmem b v r hr q hq)).1
      exact ⟨v', v, hv, h'⟩
    · rintro s' ⟨u, hu, hs'⟩ q hq
      have e := (step_iff hw ha sys n u fun r hr q hq => hlen u hu q (hmem a u r hr q hq)).2 s' hs'
      rw [machine_all_map a u s' _ e] at hq
      obtain ⟨q', hq', rfl⟩ := List.mem_map.1 hq
      unfold bodyStep
      rw [hk]
      exact hlen u hu q' hq'
    · rintro s' t' ⟨u, hu, hs'⟩ ⟨v, hv, ht'⟩
      have ea := (step_iff hw ha sys n u fun r hr q hq => hlen u hu q (hmem a u r hr q hq)).2 s' hs'
      have eb := (step_iff hw hb sys' n v fun r hr q hq => hlenb u v hu hv q (hmem b v r hr q hq)).2 t' ht'
      have hp' := hperm u v hu hv
      rw [machine_all_map a u s' _ ea, machine_all_map b v t' _ eb, List.map_map]
      refine (hp'.map _).trans (List.Perm.of_eq ?_)
      rw [List.map_map]
      apply List.map_congr_left
      intro q hq
      exact hstep n (a.all u) (b.all v) (hlen u hu) hp' q hq

theorem zipWith_getD_map {α : Type} (c : List ℝ) (l : List α) (l' : List α) (hc : c.length = l.length) (hl : l'.length = l.length) (d : α) (g g' : α → ℝ)
    (h : ∀ i < l.length, g' (l'.getD i d) = c.getD i 0 * g (l.getD i d)) : l'.map g' = List.zipWith (· * ·) c (l.map g) := by
  apply List.ext_getElem
  · simp [hc, hl]
  · intro i h1 h2
    have hi : i < l.length := by rw [List.length_map, hl] at h1; exact h1
    have := h i hi
    rw [List.getD_eq_getElem _ _ (by omega), List.getD_eq_getElem _ _ (by omega), List.getD_eq_getElem _ _ hi] at this
    simpa using this

/-- One step under a symmetry of the mesh. -/
theorem Symmetry.body {w : Resampler ℝ} {a b : Machine} (ha : a.OK w) (hb : b.OK w) {φ : List ℝ → List ℝ} {ψ : List ℕ → List ℕ}
    (S : Symmetry w a.m b.m φ ψ) {sys : Sys B} {sys' : Sys B'} {f : B → B'} {c : ℕ → List ℝ} (himg : sys.Image sys' f φ ψ a.m.nmesh c)
    (hreal : ∀ n, ∀ T ∈ sys.kernel n, RealTransfer a.m.nmesh T) (n : ℕ) (L : List B) (L' : List B')
    (hL : ∀ q ∈ L, (sys.x q).length = a.m.nmesh.length) (hp : L'.Perm (L.map f)) (q : B) (hq : q ∈ L) :
    bodyStep b.m b.t.cshape w sys' n L' (f q) = f (bodyStep a.m a.t.cshape w sys n L q) := by
  have hs : StoredShape a.m.nmesh a.t.cshape := by rw [← ha.modes_mesh]; exact ha.storage
  have hs' : StoredShape b.m.nmesh b.t.cshape := by rw [← hb.modes_mesh]; exact hb.storage
  have hdens : ∀ g, ValidIndex a.m.nmesh g → densAt b.m w sys' L' (ψ g) = densAt a.m w sys L g := by
    intro g hg
    unfold densAt
    rw [(hp.map _).sum_eq, List.map_map]
    congr 1
    apply List.map_congr_left
    intro p hpL
    simp only [Function.comp]
    rw [himg.mass, himg.x p (hL p hpL), S.weight _ (hL p hpL) g hg]
  unfold bodyStep
  rw [← himg.next n q _ (hL q hq) (by simp)]
  congr 1
  refine zipWith_getD_map (c n) (sys.kernel n) (sys'.kernel n) (himg.factors n) (himg.kernels n) 0 _ _ fun d hd => ?_
  have hT : RealTransfer a.m.nmesh ((sys.kernel n).getD d 0) := by
    rw [List.getD_eq_getElem _ _ hd]; exact hreal n _ (List.getElem_mem hd)
  have hcT : RealTransfer a.m.nmesh fun k => (((c n).getD d 0 : ℝ) : ℂ) * (sys.kernel n).getD d 0 k := by
    intro k hk
    beta_reduce
    rw [hT k hk, map_mul, Complex.conj_ofReal]
  unfold bodyRead
  rw [himg.x q (hL q hq), S.sum, ← sum_cmul]
  apply sum_congr'
  intro g hg
  have hg := mem_ndindex.1 hg
  rw [S.weight _ (hL q hq) g hg, S.field hs hs' ha.mesh.dim hb.mesh.dim hcT (himg.kernel n d hd) hdens hg]
  have := c2r_axpy a.m.nmesh a.t.cshape ((c n).getD d 0) (fun k => (sys.kernel n).getD d 0 k * r2c a.m.nmesh (densAt a.m w sys L) k) (fun _ => 0) g
  have hz : c2r a.m.nmesh a.t.cshape (fun _ => 0) g = 0 := c2r_zero hs ha.mesh.dim (fun _ _ => rfl) _
  rw [hz] at this
  have e : c2r a.m.nmesh a.t.cshape (fun k => (((c n).getD d 0 : ℝ) : ℂ) * (sys.kernel n).getD d 0 k * r2c a.m.nmesh (densAt a.m w sys L) k) g =
      (c n).getD d 0 * c2r a.m.nmesh a.t.cshape (fun k => (sys.kernel n).getD d 0 k * r2c a.m.nmesh (densAt a.m w sys L) k) g := by
    simpa [mul_assoc] using this
  rw [e]
  ring

/-- **C90**, exchange of axes.  A simulation on a mesh with its axes in another order, of the bodies with their axes in that order, on any numbers of ranks,
gives after any number of steps the bodies with their axes in that order.
Partial: the restrictions of `C23_paint_partial` on the decomposition. -/
theorem C90_axes_partial (w : Resampler ℝ) (hw : w.Valid) (a b : Machine) (ha : a.OK w) (hb : b.OK w) (axes : List ℕ)
    (hperm : axes.Perm (List.range a.m.nmesh.length)) (hn : b.m.nmesh = transposed axes a.m.nmesh) (hbox : b.m.box = transposed axes a.m.box)
    (sys : Sys B) (sys' : Sys B') (hk : sys.Keeps) (f : B → B') (c : ℕ → List ℝ)
    (himg : sys.Image sys' f (transposed axes) (transposed axes) a.m.nmesh c) (hreal : ∀ n, ∀ T ∈ sys.kernel n, RealTransfer a.m.nmesh T) :
    a.StaysAlike b w sys sys' f := by
  refine stays_alike hw ha hb hk (fun q hq => ?_) fun n L L' hL hp q hq =>
    (symmetry_transposed ha.mesh hb.mesh hperm hn hbox).body ha hb himg hreal n L L' hL hp q hq
  rw [himg.x q hq, hn]
  simp [transposed]

/-- **C90**, mirror images: the mirror image of a simulation is the simulation of the mirror image, for windows that are even.
Partial: the restrictions of `C23_paint_partial` on the decomposition. -/
theorem C90_mirror_partial (w : Resampler ℝ) (hw : w.Valid) (hc : Confined w.kern) (heven : ∀ x, w.kern.kernel (-x) = w.kern.kernel x)
    (a b : Machine) (ha : a.OK w) (hb : b.OK w) (flip : List Bool) (hflip : flip.length = a.m.nmesh.length) (hn : b.m.nmesh = a.m.nmesh)
    (hbox : b.m.box = a.m.box) (sys : Sys B) (sys' : Sys B') (hk : sys.Keeps) (f : B → B') (c : ℕ → List ℝ)
    (himg : sys.Image sys' f (mirrored flip a.m.box) (mirroredCell flip a.m.nmesh) a.m.nmesh c)
    (hreal : ∀ n, ∀ T ∈ sys.kernel n, RealTransfer a.m.nmesh T) :
    a.StaysAlike b w sys sys' f := by
  refine stays_alike hw ha hb hk (fun q hq => ?_) fun n L L' hL hp q hq =>
    (symmetry_mirrored hw hc heven ha.mesh hb.mesh hflip hn hbox).body ha hb himg hreal n L L' hL hp q hq
  rw [himg.x q hq, hn, mirrored_length _ _ _ (by rw [hflip, hq]) (by rw [ha.mesh.box_len, hq]), hq]

/-- **C90**, units: a simulation in another unit of length is the same simulation, on any number of ranks, and also with another storage of the modes.
Partial: the restrictions of `C23_paint_partial` on the decomposition. -/
theorem C90_units_partial (w : Resampler ℝ) (hw : w.Valid) (a b : Machine) (ha : a.OK w) (hb : b.OK w) (unit : ℝ) (hu : 0 < unit)
    (hn : b.m.nmesh = a.m.nmesh) (hbox : b.m.box = a.m.box.map (unit * ·)) (sys : Sys B) (sys' : Sys B') (hk : sys.Keeps) (f : B → B')
    (c : ℕ → List ℝ) (himg : sys.Image sys' f (fun x => x.map (unit * ·)) (fun k => k) a.m.nmesh c)
    (hreal : ∀ n, ∀ T ∈ sys.kernel n, RealTransfer a.m.nmesh T) :
    a.StaysAlike b w sys sys' f := by
  refine stays_alike hw ha hb hk (fun q hq => ?_) fun n L L' hL hp q hq =>
    (symmetry_units ha.mesh hb.mesh hu.ne' hn hbox).body ha hb himg hreal n L L' hL hp q hq
  rw [himg.x q hq, hn]
  simpa using hq

/-- **C90**, storage: C85 without the condition that both runs store the modes in the same way: compressed and full storage give the same particles,
for real transfer functions.
Partial: the restrictions of `C23_paint_partial` on the decomposition. -/
theorem C90_storage_partial (w : Resampler ℝ) (hw : w.Valid) (a b : Machine) (ha : a.OK w) (hb : b.OK w)
    (hn : b.m.nmesh = a.m.nmesh) (hbox : b.m.box = a.m.box) (sys : Sys B) (hk : sys.Keeps)
    (hreal : ∀ n, ∀ T ∈ sys.kernel n, RealTransfer a.m.nmesh T) :
    a.StaysAlike b w sys sys fun q => q := by
  refine C90_units_partial w hw a b ha hb 1 one_pos hn (by simp [hbox]) sys sys hk _ (fun n => (sys.kernel n).map fun _ => 1)
    { x := fun q _ => by simp, mass := fun _ => rfl, factors := fun n => by simp, kernels := fun n => rfl, kernel := ?_, next := ?_ } hreal
  · intro n d hd k _
    rw [List.getD_eq_getElem (sys.kernel n) _ hd, List.getD_eq_getElem _ _ (by simpa using hd)]
    simp
  · intro n q vs _ hvs
    congr 1
    apply List.ext_getElem
    · simp [hvs]
    · intro i h1 h2
      simp

/-- **C90**, displacements: if all bodies are displaced by the same whole numbers of cells, so are they after any number of steps.
Partial: the restrictions of `C23_paint_partial` on the decomposition. -/
theorem C90_shift_partial (w : Resampler ℝ) (hw : w.Valid) (a b : Machine) (ha : a.OK w) (hb : b.OK w)
    (hn : b.m.nmesh = a.m.nmesh) (hbox : b.m.box = a.m.box) (hst : b.t.cshape = a.t.cshape) (z : List ℤ) (hz : z.length = a.m.nmesh.length)
    (sys : Sys B) (sys' : Sys B') (hk : sys.Keeps) (f : B → B') (c : ℕ → List ℝ)
    (himg : sys.Image sys' f (shiftedPos a.m.nmesh a.m.box z) (fun k => k) a.m.nmesh c) :
    a.StaysAlike b w sys sys' f := by
  have hs : StoredShape a.m.nmesh a.t.cshape := by rw [← ha.modes_mesh]; exact ha.storage
  refine stays_alike hw ha hb hk (fun q hq => ?_) fun n L L' hL hp q hq => ?_
  · rw [himg.x q hq, hn, shiftedPos_length ha.mesh.box_len hz hq]
  have hdens : ∀ g, ValidIndex a.m.nmesh g → densAt b.m w sys' L' (movedCell a.m.nmesh z g) = densAt a.m w sys L g := by
    intro g hg
    unfold densAt
    rw [(hp.map _).sum_eq, List.map_map]
    congr 1
    apply List.map_congr_left
    intro p hpL
    simp only [Function.comp]
    rw [himg.mass, himg.x p (hL p hpL), weightAt_eq hn hbox, weightAt_moved ha.mesh w hz (hL p hpL) hg]
  have hmode := r2c_moved hz hdens
  unfold bodyStep
  rw [← himg.next n q _ (hL q hq) (by simp)]
  congr 1
  refine zipWith_getD_map (c n) (sys.kernel n) (sys'.kernel n) (himg.factors n) (himg.kernels n) 0 _ _ fun d hd => ?_
  unfold bodyRead
  rw [himg.x q (hL q hq), hn, hst, ← sum_movedCell a.m.nmesh z hz, ← sum_cmul]
  apply sum_congr'
  intro g hg
  have hg := mem_ndindex.1 hg
  rw [weightAt_eq hn hbox, weightAt_moved ha.mesh w hz (hL q hq) hg,
    c2r_moved hs ha.mesh.dim hz (F := fun k => (((c n).getD d 0 : ℝ) : ℂ) * ((sys.kernel n).getD d 0 k * r2c a.m.nmesh (densAt a.m w sys L) k))
      (fun k hk => by rw [hmode k, himg.kernel n d hd k (stored_valid hs ha.mesh.dim (nmesh_pos' ha.mesh) hk)]; ring) hg]
  have := c2r_axpy a.m.nmesh a.t.cshape ((c n).getD d 0) (fun k => (sys.kernel n).getD d 0 k * r2c a.m.nmesh (densAt a.m w sys L) k) (fun _ => 0) g
  have hz : c2r a.m.nmesh a.t.cshape (fun _ => 0) g = 0 := c2r_zero hs ha.mesh.dim (fun _ _ => rfl) _
  rw [hz] at this
  have e : c2r a.m.nmesh a.t.cshape (fun k => (((c n).getD d 0 : ℝ) : ℂ) * ((sys.kernel n).getD d 0 k * r2c a.m.nmesh (densAt a.m w sys L) k)) g =
      (c n).getD d 0 * c2r a.m.nmesh a.t.cshape (fun k => (sys.kernel n).getD d 0 k * r2c a.m.nmesh (densAt a.m w sys L) k) g := by
    simpa using this
  rw [e]
  ring

end

/-! ## Concrete simulations -/

/-- One transfer function, `i sin(2 π k_0 / 4)`, along the first axis; kick and drift with steps of 1/10. -/
noncomputable def exSine (c : ℝ) : Sys ExBody where
  x := ExBody.x
  mass _ := 2
  kernel _ := [fun k => ((c : ℝ) : ℂ) * (Complex.I * (Real.sin (2 * Real.pi * (k.getD 0 0 : ℕ) / 4) : ℝ))]
  next _ b f := match b.x with
    | x :: xs => ⟨b.id, (x + (b.p.getD 0 0 + f.getD 0 0 / 10) / 10) :: xs, [b.p.getD 0 0 + f.getD 0 0 / 10]⟩
    | [] => b

theorem exSine_keeps (c : ℝ) : (exSine c).Keeps := by
  intro n b vs
  obtain ⟨i, x, p⟩ := b
  cases x <;> simp [exSine]

theorem sine_opposite (i : ℕ) (hi : i < 4) : Real.sin (2 * Real.pi * (((4 - i) % 4 : ℕ) : ℝ) / 4) = -Real.sin (2 * Real.pi * (i : ℕ) / 4) := by
  rw [← Real.sin_two_pi_sub]
  interval_cases i
  · simp
  all_goals
    congr 1
    push_cast
    norm_num
    try ring

theorem exSine_real (c : ℝ) : ∀ n, ∀ T ∈ (exSine c).kernel n, RealTransfer [4, 4, 4] T := by
  intro n T hT k hk
  simp only [exSine, List.mem_singleton] at hT
  subst hT
  obtain ⟨i, j, l, rfl⟩ := List.length_eq_three.1 hk.len
  have hi : i < 4 := by cases hk; assumption
  have e : (opposite [4, 4, 4] [i, j, l]).getD 0 0 = (4 - i) % 4 := rfl
  simp only [e, sine_opposite i hi, List.getD_cons_zero, map_mul, Complex.conj_ofReal, Complex.conj_I]
  push_cast
  ring

theorem list3 {α : Type} {l : List α} (h : l.length = ([4, 4, 4] : List ℕ).length) : ∃ x y z, l = [x, y, z] := List.length_eq_three.1 h

/-- The second and third axes exchanged, on two ranks and on one. -/
example := C90_axes_partial exWinR exWinR_valid exMachine2 exMachine1 exMachine2_ok exMachine1_ok [0, 2, 1] (by show [0, 2, 1].Perm (List.range 3); decide)
  rfl rfl (exSine 1) (exSine 1) (exSine_keeps 1) (fun b => ⟨b.id, transposed [0, 2, 1] b.x, b.p⟩) (fun _ => [1])
  { x := fun _ _ => rfl, mass := fun _ => rfl, factors := fun _ => rfl, kernels := fun _ => rfl
    kernel := fun n d hd k hk => by
      have hd : d < 1 := hd
      obtain rfl : d = 0 := by omega
      simp [exSine, transposed]
    next := fun n b vs hx hv => by
      obtain ⟨i, x, p⟩ := b
      obtain ⟨x0, x1, x2, rfl⟩ := list3 (show x.length = _ from hx)
      obtain ⟨v, rfl⟩ := List.length_eq_one_iff.1 hv
      simp [exSine, transposed] } (exSine_real 1)

/-- The first axis seen in a mirror: momenta and forces change their sign. -/
example := C90_mirror_partial exWinR exWinR_valid (C81_even_windows .cic (by decide)).1 (C81_even_windows .cic (by decide)).2 exMachine2 exMachine1
  exMachine2_ok exMachine1_ok [true, false, false] rfl rfl rfl (exSine 1) (exSine 1) (exSine_keeps 1)
  (fun b => ⟨b.id, mirrored [true, false, false] [4, 4, 4] b.x, [-b.p.getD 0 0]⟩) (fun _ => [-1])
  { x := fun _ _ => rfl, mass := fun _ => rfl, factors := fun _ => rfl, kernels := fun _ => rfl
    kernel := fun n d hd k hk => by
      have hd : d < 1 := hd
      obtain rfl : d = 0 := by omega
      obtain ⟨i, j, l, rfl⟩ := List.length_eq_three.1 hk.len
      have hi : i < 4 := by cases hk; assumption
      have e : (mirroredCell [true, false, false] exMachine2.m.nmesh [i, j, l]).getD 0 0 = (4 - i) % 4 := rfl
      simp only [exSine, List.getD_cons_zero, e, sine_opposite i hi]
      push_cast
      ring
    next := fun n b vs hx hv => by
      obtain ⟨i, x, p⟩ := b
      obtain ⟨x0, x1, x2, rfl⟩ := list3 (show x.length = _ from hx)
      obtain ⟨v, rfl⟩ := List.length_eq_one_iff.1 hv
      simp [exSine, mirrored]
      constructor <;> ring } (exSine_real 1)

/-- Compressed storage on two ranks, full storage on one. -/
noncomputable def exMachineFull : Machine := { exMachine1 with t := ⟨[4, 4, 4], [4, 4, 4], 1, fun _ => [0, 0, 0], fun _ => [4, 4, 4]⟩ }

theorem exMachineFull_ok : exMachineFull.OK exWinR :=
  { exMachine1_ok with
    modes := tiling_ok_of_decide (t := ⟨[4, 4, 4], [4, 4, 4], 1, fun _ => [0, 0, 0], fun _ => [4, 4, 4]⟩) (by decide +kernel)
    modes_mesh := rfl
    modes_rank := rfl
    storage := Or.inl rfl }

example := C90_storage_partial exWinR exWinR_valid exMachine2 exMachineFull exMachine2_ok exMachineFull_ok rfl rfl (exSine 1) (exSine_keeps 1) (exSine_real 1)

/-- A box three times as large, on one rank. -/
noncomputable def exMesh3U : PMesh ℝ := { exMesh3 with box := [12, 12, 12] }

theorem exMesh3U_ok : exMesh3U.OK := { exMesh3_ok with box_len := rfl, box_pos := by simp [exMesh3U] }

noncomputable def exMachineU : Machine := { exMachine1 with m := exMesh3U.serial (cStrides [4, 4, 4]) }

theorem exMachineU_ok : exMachineU.OK exWinR where
  mesh := serial_ok exMesh3U_ok (serial_distinct exMesh3U)
  plain := serial_plain exMesh3U exMesh3U_ok _
  smoothing := ⟨rfl, by simp [exMachineU, exMachine1]⟩
  halo := serial_halo exMesh3U _ _
  covers := exWinR_covers3
  modes := exMachine1_ok.modes
  modes_mesh := rfl
  modes_rank := rfl
  storage := Or.inr rfl

/-- Lengths and momenta in units a third as long. -/
example := C90_units_partial exWinR exWinR_valid exMachine2 exMachineU exMachine2_ok exMachineU_ok 3 (by norm_num) rfl
  (by simp [exMachineU, exMachine1, exMachine2, exMesh3U, exMesh3, PMesh.serial]; norm_num) (exSine 1) (exSine 3) (exSine_keeps 1)
  (fun b => ⟨b.id, b.x.map (3 * ·), [3 * b.p.getD 0 0]⟩) (fun _ => [3])
  { x := fun _ _ => rfl, mass := fun _ => rfl, factors := fun _ => rfl, kernels := fun _ => rfl
    kernel := fun n d hd k hk => by
      have hd : d < 1 := hd
      obtain rfl : d = 0 := by omega
      simp [exSine]
    next := fun n b vs hx hv => by
      obtain ⟨i, x, p⟩ := b
      obtain ⟨x0, x1, x2, rfl⟩ := list3 (show x.length = _ from hx)
      obtain ⟨v, rfl⟩ := List.length_eq_one_iff.1 hv
      simp [exSine]
      constructor <;> ring } (exSine_real 1)

/-- Displaced by one cell along the first axis and by minus two along the third; the box has cells of size 1. -/
example := C90_shift_partial exWinR exWinR_valid exMachine2 exMachine1 exMachine2_ok exMachine1_ok rfl rfl rfl [1, 0, -2] rfl
  (exSine 1) (exSine 1) (exSine_keeps 1) (fun b => ⟨b.id, shiftedPos [4, 4, 4] [4, 4, 4] [1, 0, -2] b.x, b.p⟩) (fun _ => [1])
  { x := fun _ _ => rfl, mass := fun _ => rfl, factors := fun _ => rfl, kernels := fun _ => rfl
    kernel := fun n d hd k hk => by
      have hd : d < 1 := hd
      obtain rfl : d = 0 := by omega
      simp [exSine]
    next := fun n b vs hx hv => by
      obtain ⟨i, x, p⟩ := b
      obtain ⟨x0, x1, x2, rfl⟩ := list3 (show x.length = _ from hx)
      obtain ⟨v, rfl⟩ := List.length_eq_one_iff.1 hv
      simp [exSine, shiftedPos]
      ring }

#print axioms C90_axes_partial
#print axioms C90_mirror_partial
#print axioms C90_units_partial
#print axioms C90_storage_partial
#print axioms C90_shift_partial

end Pmesh
