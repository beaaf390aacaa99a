import Verif.Props.Simulation
import Verif.Props.Force

/-! # C86: what a simulation conserves -/

namespace Pmesh

section
variable {B : Type}

theorem bodyRead_sum {m : PMesh ℝ} (hm : m.OK) {cshape : List ℕ} (hs : StoredShape m.nmesh cshape) (w : Resampler ℝ) (sys : Sys B) (L : List B)
    (T : List ℕ → ℂ) (hT : ∀ k, ValidIndex cshape k → (T k).re = 0) :
    (L.map fun b => sys.mass b * bodyRead m cshape w (fun k => T k * r2c m.nmesh (densAt m w sys L) k) (sys.x b)).sum = 0 := by
  have h := transfer_swap hs hm.dim (nmesh_pos' hm) (-1) T (fun k hk => by apply Complex.ext <;> simp [hT k hk])
    (densAt m w sys L) (densAt m w sys L)
  have e : (L.map fun b => sys.mass b * bodyRead m cshape w (fun k => T k * r2c m.nmesh (densAt m w sys L) k) (sys.x b)).sum =
      ((ndindex m.nmesh).map fun x => c2r m.nmesh cshape (fun k => T k * r2c m.nmesh (densAt m w sys L) k) x * densAt m w sys L x).sum := by
    unfold bodyRead
    simp only [← sum_cmul]
    rw [sum_swapC]
    apply sum_congr'
    intro g _
    conv_rhs => rw [densAt, ← sum_cmul]
    apply sum_congr'
    intro b _
    ring
  linarith

/-- **C86**, momentum.  In a simulation on any number of ranks whose steps add to each component `d` of the momentum of a body a multiple of the
value read for a transfer function with imaginary values (such as `-i k_d / k²`), the total mass and the total momentum of the bodies of all ranks
are conserved exactly, whatever the number of steps, the window, the mesh and the decomposition.
Partial: the restrictions of `C23_paint_partial` on the decomposition. -/
theorem C86_momentum_partial (w : Resampler ℝ) (hw : w.Valid) (sys : Sys B) (hkeep : ∀ n b f, (sys.x (sys.next n b f)).length = (sys.x b).length)
    (p : B → ℕ → ℝ) (kick : ℕ → ℝ) (hmass : ∀ n b f, sys.mass (sys.next n b f) = sys.mass b)
    (a : Machine) (ha : a.OK w) (hp : ∀ n b f, (sys.x b).length = a.m.nmesh.length → ∀ d < a.m.nmesh.length,
      p (sys.next n b f) d = p b d + kick n * f.getD d 0)
    (hT : ∀ n, ∀ T ∈ sys.kernel n, ∀ k, ValidIndex a.t.cshape k → (T k).re = 0)
    (s : ℕ → List B) (hx : ∀ q ∈ a.all s, (sys.x q).length = a.m.nmesh.length) (n : ℕ) :
    (∃ s', a.Steps w sys n s s') ∧ ∀ s', a.Steps w sys n s s' →
      ((a.all s').map sys.mass).sum = ((a.all s).map sys.mass).sum ∧
      ∀ d < a.m.nmesh.length, ((a.all s').map fun b => sys.mass b * p b d).sum = ((a.all s).map fun b => sys.mass b * p b d).sum := by
  have hsim := fun n => C85_simulation_partial w hw sys hkeep a a ha ha rfl rfl rfl s s hx (List.Perm.refl _) n
  refine ⟨(hsim n).choose_spec.1, ?_⟩
  have hst : StoredShape a.m.nmesh a.t.cshape := by rw [← ha.modes_mesh]; exact ha.storage
  suffices h : ∀ s', a.Steps w sys n s s' → (∀ q ∈ a.all s', (sys.x q).length = a.m.nmesh.length) ∧
      ((a.all s').map sys.mass).sum = ((a.all s).map sys.mass).sum ∧
      ∀ d < a.m.nmesh.length, ((a.all s').map fun b => sys.mass b * p b d).sum = ((a.all s).map fun b => sys.mass b * p b d).sum from
    fun s' hs' => (h s' hs').2
  induction n with
  | zero => rintro s' rfl; exact ⟨hx, rfl, fun _ _ => rfl⟩
  | succ n ih =>
    rintro s' ⟨u, hu, hstep⟩
    obtain ⟨i1, i2, i3⟩ := ih u hu
    have hmap := (step_iff hw ha sys n u (fun r hr b hb => i1 b (List.mem_flatMap.2 ⟨r, List.mem_range.2 hr, hb⟩))).2 s' hstep
    rw [machine_all_map a u s' _ hmap]
    refine ⟨?_, ?_, fun d hdn => ?_⟩
    · intro q hq
      obtain ⟨b, hb, rfl⟩ := List.mem_map.1 hq
      unfold bodyStep
      rw [hkeep]
      exact i1 b hb
    · rw [← i2, List.map_map]
      congr 1
      apply List.map_congr_left
      intro b _
      exact hmass n b _
    · rw [← i3 d hdn, List.map_map]
      have e : ((a.all u).map ((fun b => sys.mass b * p b d) ∘ bodyStep a.m a.t.cshape w sys n (a.all u))).sum =
          ((a.all u).map fun b => sys.mass b * p b d + kick n * (sys.mass b * (((sys.kernel n).map fun T =>
            bodyRead a.m a.t.cshape w (fun k => T k * r2c a.m.nmesh (densAt a.m w sys (a.all u)) k) (sys.x b)).getD d 0))).sum := by
        congr 1
        apply List.map_congr_left
        intro b hb
        simp only [Function.comp_apply]
        unfold bodyStep
        rw [hmass, hp n b _ (i1 b hb) d hdn]
        ring
      rw [e, List.sum_map_add, sum_cmul]
      by_cases hd : d < (sys.kernel n).length
      · have := bodyRead_sum ha.mesh hst w sys (a.all u) _ (hT n _ (List.getElem_mem hd))
        simp only [List.getD_eq_getElem?_getD, List.getElem?_map, List.getElem?_eq_getElem hd, Option.map_some, Option.getD_some]
        rw [this]
        ring
      · simp only [List.getD_eq_getElem?_getD, List.getElem?_map, List.getElem?_eq_none (not_lt.1 hd), Option.map_none, Option.getD_none]
        simp

/-- **C86**, equilibrium.  Bodies of equal mass on the uniform grid (with any shift), such that no force leaves them where they are, stay at rest
for any number of steps, on any number of ranks, with any window and transfer functions that vanish for the zero mode. -/
theorem C86_equilibrium_partial (w : Resampler ℝ) (hw : w.Valid) (sys : Sys B) (a : Machine) (ha : a.OK w)
    (hT : ∀ n, ∀ T ∈ sys.kernel n, T (a.m.nmesh.map fun _ => 0) = 0) (shift : List ℝ) (hshift : shift.length = a.m.nmesh.length) (mu : ℝ)
    (s : ℕ → List B) (hx : ∀ r < a.m.nrank, (s r).map sys.x = a.m.uniformGrid shift r) (hmass : ∀ b ∈ a.all s, sys.mass b = mu)
    (hrest : ∀ n, ∀ b ∈ a.all s, sys.next n b ((sys.kernel n).map fun _ => 0) = b) (n : ℕ) :
    (∃ s', a.Steps w sys n s s') ∧ ∀ s', a.Steps w sys n s s' → ∀ r < a.m.nrank, s' r = s r := by
  have hst : StoredShape a.m.nmesh a.t.cshape := by rw [← ha.modes_mesh]; exact ha.storage
  have hm := ha.mesh
  have hxl : ∀ u : ℕ → List B, (∀ r < a.m.nrank, u r = s r) → ∀ r < a.m.nrank, ∀ b ∈ u r, (sys.x b).length = a.m.nmesh.length := by
    intro u hu r hr b hb
    rw [hu r hr] at hb
    have : sys.x b ∈ a.m.uniformGrid shift r := by rw [← hx r hr]; exact List.mem_map_of_mem hb
    unfold PMesh.uniformGrid at this
    obtain ⟨g, hg, e⟩ := List.mem_map.1 this
    rw [meshCoordinates_eq] at hg
    obtain ⟨c, hc, rfl⟩ := List.mem_map.1 hg
    have hv := (hm.global_valid hr (mem_ndindex.1 hc)).len
    rw [← e]
    simp [hv, hshift, hm.box_len]
  obtain ⟨off, hoff⟩ : ∃ off, off = List.zipWith (· * ·) shift (List.zipWith (fun b (n : ℕ) => b / (n : ℝ)) a.m.box a.m.nmesh) := ⟨_, rfl⟩
  have hol : off.length = a.m.nmesh.length := by simp [hoff, hshift, hm.box_len]
  have hdens : ∀ g, ValidIndex a.m.nmesh g → densAt a.m w sys (a.all s) g = mu * ((ndindex a.m.nmesh).map fun g => a.m.weightAt w off g).sum := by
    intro g hg
    have e : densAt a.m w sys (a.all s) g = (((List.range a.m.nrank).flatMap fun r => a.m.uniformGrid shift r).map fun x =>
        mu * a.m.weightAt w x g).sum := by
      unfold densAt
      have : ((List.range a.m.nrank).flatMap fun r => a.m.uniformGrid shift r) = (a.all s).map sys.x := by
        unfold Machine.all
        rw [List.map_flatMap]
        apply List.flatMap_congr
        intro r hr
        exact (hx r (List.mem_range.1 hr)).symm
      rw [this, List.map_map]
      congr 1
      apply List.map_congr_left
      intro b hb
      rw [hmass b hb]
      rfl
    rw [e, sum_cmul]
    congr 1
    rw [List.map_flatMap, sum_flatMapM, sum_uniform hm, ← weightAt_lattice hm w hol hg]
    apply sum_congr'
    intro h hh
    rw [uniform_moved a.m.nmesh a.m.box shift h hm.box_len hshift (mem_ndindex.1 hh).len, hoff]
  have hstep : ∀ n, ∀ b ∈ a.all s, bodyStep a.m a.t.cshape w sys n (a.all s) b = b := by
    intro n b hb
    unfold bodyStep
    conv_rhs => rw [← hrest n b hb]
    congr 1
    apply List.map_congr_left
    intro T hTm
    unfold bodyRead
    have hz : ∀ g, c2r a.m.nmesh a.t.cshape (fun k => T k * r2c a.m.nmesh (densAt a.m w sys (a.all s)) k) g = 0 := by
      refine c2r_zero hst hm.dim fun k hk => ?_
      by_cases h0 : k = a.m.nmesh.map fun _ => 0
      · rw [h0, hT n T hTm, zero_mul]
      · rw [r2c_const hdens (stored_valid hst hm.dim (nmesh_pos' hm) hk) h0, mul_zero]
    simp only [hz, mul_zero]
    simp
  induction n with
  | zero => exact ⟨⟨s, rfl⟩, fun s' h r _ => by rw [h]⟩
  | succ n ih =>
    obtain ⟨⟨u, hu⟩, ih2⟩ := ih
    refine ⟨?_, ?_⟩
    · obtain ⟨u', hu'⟩ := (step_iff hw ha sys n u (hxl u (ih2 u hu))).1
      exact ⟨u', u, hu, hu'⟩
    · rintro s' ⟨u, hu, hst'⟩ r hr
      have hall : a.all u = a.all s := by
        unfold Machine.all
        apply List.flatMap_congr
        intro r hr
        exact ih2 u hu r (List.mem_range.1 hr)
      rw [(step_iff hw ha sys n u (hxl u (ih2 u hu))).2 s' hst' r hr, hall, ih2 u hu r hr]
      refine (List.map_congr_left fun b hb => ?_).trans (List.map_id _)
      exact hstep n b (List.mem_flatMap.2 ⟨r, List.mem_range.2 hr, hb⟩)

end

/-- Non-vacuity: leap-frog on two ranks. -/
example (p q u : ExBody) (hp : p.x.length = 3) (hq : q.x.length = 3) (hu : u.x.length = 3)
    (n : ℕ) := C86_momentum_partial exWinR exWinR_valid exSys (by simp [exSys])
  (fun b d => b.p.getD d 0) (fun _ => 1 / 10) (by simp [exSys]) exMachine2 exMachine2_ok (by
    intro n b f hb d hd
    have hd' : d < b.x.length := by rw [show b.x.length = 3 from hb]; exact hd
    simp [exSys, hd']
    ring) (by simp [exSys]) (fun r => if r = 0 then [p, q] else [u]) (by
      intro b hb
      have : b ∈ [p, q, u] := hb
      simp only [List.mem_cons, List.not_mem_nil, or_false] at this
      rcases this with rfl | rfl | rfl <;> assumption) n

/-- Non-vacuity: the uniform grid on two ranks, with momentum zero. -/
example (n : ℕ) := C86_equilibrium_partial exWinR exWinR_valid exSys exMachine2 exMachine2_ok (by
    simp [exSys, exMachine2, exMesh3, waveVector]
    intro d hd
    interval_cases d <;> rfl)
  [1 / 2, 1 / 2, 1 / 2] rfl 2 (fun r => (exMachine2.m.uniformGrid [1 / 2, 1 / 2, 1 / 2] r).map fun x => ⟨0, x, [0, 0, 0]⟩)
  (fun r _ => (List.map_map ..).trans (List.map_id _)) (fun _ _ => rfl) (by
    intro n b hb
    obtain ⟨r, hr, hb⟩ := List.mem_flatMap.1 hb
    obtain ⟨x, hx, rfl⟩ := List.mem_map.1 hb
    have hl : x.length = 3 := by
      unfold PMesh.uniformGrid at hx
      obtain ⟨g, hg, e⟩ := List.mem_map.1 hx
      rw [meshCoordinates_eq] at hg
      obtain ⟨c, hc, rfl⟩ := List.mem_map.1 hg
      have hv := (exMachine2_ok.mesh.global_valid (List.mem_range.1 hr) (mem_ndindex.1 hc)).len
      rw [← e]
      have hv : (exMachine2.m.global r c).length = 3 := hv
      have hb : exMachine2.m.box.length = 3 := rfl
      have hn : exMachine2.m.nmesh.length = 3 := rfl
      simp [hv, hb, hn]
    match x, hl with
    | [x0, x1, x2], _ => simp [exSys, List.range_succ]) n

#print axioms C86_momentum_partial
#print axioms C86_equilibrium_partial

end Pmesh
