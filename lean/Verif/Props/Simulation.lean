import Verif.Spec.Simulation
import Verif.Lemmas.Spectral
import Verif.Props.RankFree
import Verif.Props.UniformGrid

/-! # C85: a simulation gives the same on any number of ranks, for any number of steps -/

namespace Pmesh

section
variable {B : Type}

theorem c2r_stored_congr {nmesh cshape : List ℕ} (hs : StoredShape nmesh cshape) (hne : nmesh ≠ []) (hpos : ∀ n ∈ nmesh, 0 < n)
    {F G : List ℕ → ℂ} (h : ∀ k, ValidIndex cshape k → F k = G k) (x : List ℕ) : c2r nmesh cshape F x = c2r nmesh cshape G x := by
  unfold c2r dftBackward
  congr 2
  apply List.map_congr_left
  intro k hk
  have hk' := mem_ndindex.1 hk
  rw [decompress_stored hs hne hk', decompress_stored hs hne hk']
  split_ifs with hv
  · rw [h k hv]
  · rw [h _ (opposite_stored hs hne hk' hv)]

theorem tiling_eq {t : Tiling} (ht : t.OK) {V : Type} {f : ℕ → List ℕ → V} {G G' : List ℕ → V} (h : t.Holds f G) (h' : t.Holds f G')
    {k : List ℕ} (hk : ValidIndex t.cshape k) : G k = G' k := by
  obtain ⟨r, hr, c, hc, e⟩ := ht.owner k hk
  rw [← e, ← h r hr c hc, ← h' r hr c hc]

theorem exists_field {m : PMesh ℝ} (hm : m.OK) (A : List ℕ → ℝ) : ∃ u, m.HoldsField u A := by
  classical
  refine ⟨fun r z => if h : ∃ c, ValidIndex (m.localShape r) c ∧ m.addr r c = z then A (m.global r h.choose) else 0, fun r hr c hc => ?_⟩
  have h : ∃ c', ValidIndex (m.localShape r) c' ∧ m.addr r c' = m.addr r c := ⟨c, hc, rfl⟩
  refine (dif_pos h).trans ?_
  rw [hm.distinct r hr _ c h.choose_spec.1 hc h.choose_spec.2]

theorem field_eq {m : PMesh ℝ} (hm : m.OK) {u : ℕ → ℤ → ℝ} {A A' : List ℕ → ℝ} (h : m.HoldsField u A) (h' : m.HoldsField u A')
    {g : List ℕ} (hg : ValidIndex m.nmesh g) : A g = A' g := by
  have : g ∈ (List.range m.nrank).flatMap fun r => (ndindex (m.localShape r)).map (m.global r) :=
    (ranks_perm hm).mem_iff.2 (mem_ndindex.2 hg)
  obtain ⟨r, hr, hm'⟩ := List.mem_flatMap.1 this
  obtain ⟨c, hc, e⟩ := List.mem_map.1 hm'
  have hr := List.mem_range.1 hr
  have hc := mem_ndindex.1 hc
  rw [← e, ← h r hr c hc, ← h' r hr c hc]

/-- The transforms of the library exist. -/
theorem exists_r2c {a : Machine} {w : Resampler ℝ} (ha : a.OK w) {dens : ℕ → ℤ → ℝ} {rho : List ℕ → ℝ} (h : a.m.HoldsField dens rho) :
    ∃ F, a.IsR2c dens F := by
  refine ⟨fun r c => r2c a.m.nmesh rho (a.t.global r c), fun rho' h' r hr c hc => ?_⟩
  exact r2c_congr (fun g hg => field_eq ha.mesh h h' hg) _

theorem exists_c2r {a : Machine} {w : Resampler ℝ} (ha : a.OK w) {F : ℕ → List ℕ → ℂ} {G : List ℕ → ℂ} (h : a.t.Holds F G) :
    ∃ field, a.IsC2r F field := by
  obtain ⟨field, hf⟩ := exists_field ha.mesh (c2r a.m.nmesh a.t.cshape G)
  have hs : StoredShape a.m.nmesh a.t.cshape := by rw [← ha.modes_mesh]; exact ha.storage
  have hp : ∀ n ∈ a.m.nmesh, 0 < n := by rw [← ha.modes_mesh]; exact ha.modes.mesh_pos
  refine ⟨field, fun G' h' r hr c hc => ?_⟩
  rw [hf r hr c hc]
  exact c2r_stored_congr hs ha.mesh.dim hp (fun k hk => tiling_eq ha.modes h h' hk) _

theorem times_holds {a : Machine} {F : ℕ → List ℕ → ℂ} {G : List ℕ → ℂ} (h : a.t.Holds F G) (T : List ℕ → ℂ) :
    a.t.Holds (a.times T F) fun k => T k * G k := by
  intro r hr c hc
  unfold Machine.times
  rw [h r hr c hc]

/-- The value that a body at `y` reads from the field with modes `G`. -/
noncomputable def bodyRead (m : PMesh ℝ) (cshape : List ℕ) (w : Resampler ℝ) (G : List ℕ → ℂ) (y : List ℝ) : ℝ :=
  ((ndindex m.nmesh).map fun g => m.weightAt w y g * c2r m.nmesh cshape G g).sum

/-- The density of bodies. -/
noncomputable def densAt (m : PMesh ℝ) (w : Resampler ℝ) (sys : Sys B) (L : List B) (g : List ℕ) : ℝ :=
  (L.map fun b => sys.mass b * m.weightAt w (sys.x b) g).sum

/-- What one step does with a body, when `L` are all bodies. -/
noncomputable def bodyStep (m : PMesh ℝ) (cshape : List ℕ) (w : Resampler ℝ) (sys : Sys B) (n : ℕ) (L : List B) (b : B) : B :=
  sys.next n b ((sys.kernel n).map fun T => bodyRead m cshape w (fun k => T k * r2c m.nmesh (densAt m w sys L) k) (sys.x b))

theorem bodyStep_eq {m m' : PMesh ℝ} (hn : m.nmesh = m'.nmesh) (hb : m.box = m'.box) (cshape : List ℕ) (w : Resampler ℝ) (sys : Sys B) (n : ℕ)
    {L L' : List B} (hL : L.Perm L') : bodyStep m cshape w sys n L = bodyStep m' cshape w sys n L' := by
  have e : densAt m w sys L = densAt m' w sys L' := by
    funext g
    unfold densAt
    simp only [weightAt_eq hn hb w]
    exact (hL.map _).sum_eq
  funext b
  unfold bodyStep bodyRead
  simp only [weightAt_eq hn hb w, e, hn]

theorem mapIdx_read {α : Type} (l : List α) (f : α → List ℝ → B) (Ts : List (List ℕ → ℂ)) (val : ℕ → List ℝ) (v : (List ℕ → ℂ) → α → ℝ)
    (h : ∀ d < Ts.length, val d = l.map (v (Ts.getD d 0))) :
    (l.mapIdx fun i b => f b ((List.range Ts.length).map fun d => (val d).getD i 0)) = l.map fun b => f b (Ts.map fun T => v T b) := by
  apply List.ext_getElem (by simp)
  intro i h1 h2
  simp only [List.length_mapIdx] at h1
  rw [List.getElem_mapIdx, List.getElem_map]
  congr 1
  apply List.ext_getElem (by simp)
  intro d h3 h4
  simp only [List.length_map, List.length_range] at h3
  rw [List.getElem_map, List.getElem_map, List.getElem_range, h d h3, List.getD_eq_getElem _ _ (by simpa using h1), List.getElem_map]
  congr 1
  exact List.getD_eq_getElem _ _ h3

theorem allParticles_bodies (n : ℕ) (sys : Sys B) (s : ℕ → List B) (F : List ℝ → ℝ → ℝ) :
    ((allParticles n (fun r => (s r).map sys.x) (fun r => .array ((s r).map sys.mass)) fun _ => .none).map fun p => F p.pos p.mass) =
      ((List.range n).flatMap s).map fun b => F (sys.x b) (sys.mass b) := by
  unfold allParticles particlesOf
  rw [List.map_flatMap, List.map_flatMap]
  congr 1
  funext r
  rw [List.map_map]
  apply List.ext_getElem (by simp)
  intro i h1 h2
  simp only [List.length_map, List.length_range] at h1
  simp [Quant.at, h1]

/-- One step, on all ranks: it can be done, and changes each body as `bodyStep` says. -/
theorem step_iff {a : Machine} {w : Resampler ℝ} (hw : w.Valid) (ha : a.OK w) (sys : Sys B) (n : ℕ) (s : ℕ → List B)
    (hx : ∀ r < a.m.nrank, ∀ b ∈ s r, (sys.x b).length = a.m.nmesh.length) :
    (∃ s', a.Step w sys n s s') ∧
    ∀ s', a.Step w sys n s s' → ∀ r < a.m.nrank, s' r = (s r).map (bodyStep a.m a.t.cshape w sys n (a.all s)) := by
  have hpos : ∀ r < a.m.nrank, ∀ x ∈ (s r).map sys.x, x.length = a.m.nmesh.length := by
    intro r hr x hx'
    obtain ⟨b, hb, rfl⟩ := List.mem_map.1 hx'
    exact hx r hr b hb
  obtain ⟨dens, h1, h2⟩ := paint_weightAt a.m ha.mesh ha.plain w hw a.sm ha.smoothing ha.halo ha.covers (fun r => (s r).map sys.x) hpos
    (fun r => .array ((s r).map sys.mass)) (Or.inr (Or.inr fun r _ => ⟨_, rfl, by simp⟩))
  have hrho : (fun g => ((allParticles a.m.nrank (fun r => (s r).map sys.x) (fun r => .array ((s r).map sys.mass)) fun _ => .none).map
      fun p => p.mass * a.m.weightAt w p.pos g).sum) = densAt a.m w sys (a.all s) := by
    funext g
    rw [allParticles_bodies a.m.nrank sys s fun x u => u * a.m.weightAt w x g]
    rfl
  rw [hrho] at h2
  have hread : ∀ (T : List ℕ → ℂ) (F : ℕ → List ℕ → ℂ) (field : ℕ → ℤ → ℝ), a.t.Holds F (r2c a.m.nmesh (densAt a.m w sys (a.all s))) →
      a.IsC2r (a.times T F) field →
      AllReturn a.m.nrank (fun r => (pmDecompose a.m a.sm r ((s r).map sys.x)).andThen fun lay =>
        pmReadout a.m w none r (some lay) ((s r).map sys.x) .none (field r)) fun r => .ok ((s r).map fun b =>
          bodyRead a.m a.t.cshape w (fun k => T k * r2c a.m.nmesh (densAt a.m w sys (a.all s)) k) (sys.x b)) := by
    intro T F field hF hc
    have hf := hc _ (times_holds hF T)
    have hR := readout_all ha.mesh ha.plain hw ha.smoothing ha.halo hpos ha.covers field _ hf (cStrides a.m.nmesh)
    refine AllReturn.congr (fun _ _ => rfl) (fun r hr => ?_) hR
    congr 1
    rw [List.map_map]
    rfl
  constructor
  · obtain ⟨F, hF⟩ := exists_r2c ha h2
    have hFh := hF _ h2
    have hfield : ∀ d : ℕ, ∃ field, a.IsC2r (a.times ((sys.kernel n).getD d 0) F) field := fun d => exists_c2r ha (times_holds hFh _)
    choose field hfield using hfield
    exact ⟨_, dens, F, field, _, h1, hF, fun d _ => ⟨hfield d, hread _ F (field d) hFh (hfield d)⟩, fun r _ => rfl⟩
  · rintro s' ⟨dens', F, field, val, h1', hF, hd, hs'⟩ r hr
    have e := AllReturn.unique_ok h1 h1'
    have h2' : a.m.HoldsField dens' (densAt a.m w sys (a.all s)) := fun r hr c hc => by rw [← e r hr, h2 r hr c hc]
    have hFh := hF _ h2'
    rw [hs' r hr]
    refine mapIdx_read (s r) (sys.next n) (sys.kernel n) (fun d => val d r) (fun T b => bodyRead a.m a.t.cshape w
      (fun k => T k * r2c a.m.nmesh (densAt a.m w sys (a.all s)) k) (sys.x b)) fun d hdl => ?_
    exact AllReturn.unique_ok (hd d hdl).2 (hread _ F (field d) hFh (hd d hdl).1) r hr

theorem machine_all_map (c : Machine) (u u' : ℕ → List B) (f : B → B) (h : ∀ r < c.m.nrank, u' r = (u r).map f) :
    c.all u' = (c.all u).map f := by
  unfold Machine.all
  rw [List.map_flatMap]
  apply List.flatMap_congr
  intro r hr
  exact h r (List.mem_range.1 hr)

/-- **C85**.  Two runs of a particle-mesh simulation with the same mesh, box and bodies, on any numbers of ranks with any partitions of cells and
modes, the bodies on whatever ranks and in whatever order: every step completes on all ranks, and after any number of steps each body, on the rank
and at the place where it was, is what `trajectory` says, a function of its initial state that is the same for both runs.
Partial: the restrictions of `C23_paint_partial` on the decomposition. -/
theorem C85_simulation_partial (w : Resampler ℝ) (hw : w.Valid) (sys : Sys B) (hkeep : ∀ n b f, (sys.x (sys.next n b f)).length = (sys.x b).length)
    (a b : Machine) (ha : a.OK w) (hb : b.OK w) (hn : a.m.nmesh = b.m.nmesh) (hbox : a.m.box = b.m.box) (hst : a.t.cshape = b.t.cshape)
    (s t : ℕ → List B) (hx : ∀ q ∈ a.all s, (sys.x q).length = a.m.nmesh.length) (hsame : (a.all s).Perm (b.all t)) (n : ℕ) :
    ∃ trajectory : B → B,
      (∃ s', a.Steps w sys n s s') ∧ (∃ t', b.Steps w sys n t t') ∧
      (∀ s', a.Steps w sys n s s' → ∀ r < a.m.nrank, s' r = (s r).map trajectory) ∧
      ∀ t', b.Steps w sys n t t' → ∀ r < b.m.nrank, t' r = (t r).map trajectory := by
  have hxb : ∀ q ∈ b.all t, (sys.x q).length = b.m.nmesh.length := fun q hq => by rw [← hn]; exact hx q (hsame.mem_iff.2 hq)
  have hmem : ∀ (c : Machine) (u : ℕ → List B) (r : ℕ), r < c.m.nrank → ∀ q ∈ u r, q ∈ c.all u :=
    fun c u r hr q hq => List.mem_flatMap.2 ⟨r, List.mem_range.2 hr, hq⟩
  -- one run
  have run : ∀ (c : Machine), c.OK w → ∀ (u : ℕ → List B), (∀ q ∈ c.all u, (sys.x q).length = c.m.nmesh.length) → ∀ (f : B → B),
      (∀ q, (sys.x (f q)).length = (sys.x q).length) → ∀ k, (∃ u', c.Steps w sys k u u') →
      (∀ u', c.Steps w sys k u u' → ∀ r < c.m.nrank, u' r = (u r).map f) →
      (∃ u', c.Steps w sys (k + 1) u u') ∧ ∀ u', c.Steps w sys (k + 1) u u' → ∀ r < c.m.nrank,
        u' r = (u r).map fun q => bodyStep c.m c.t.cshape w sys k ((c.all u).map f) (f q) := by
    intro c hc u hu f hf k hex hall'
    have hlen : ∀ u', c.Steps w sys k u u' → ∀ r < c.m.nrank, ∀ q ∈ u' r, (sys.x q).length = c.m.nmesh.length := by
      intro u' h r hr q hq
      rw [hall' u' h r hr] at hq
      obtain ⟨q', hq', rfl⟩ := List.mem_map.1 hq
      rw [hf]
      exact hu q' (hmem c u r hr q' hq')
    constructor
    · obtain ⟨u1, h1⟩ := hex
      obtain ⟨u2, h2⟩ := (step_iff hw hc sys k u1 (hlen u1 h1)).1
      exact ⟨u2, u1, h1, h2⟩
    · rintro u2 ⟨u1, h1, h2⟩ r hr
      rw [(step_iff hw hc sys k u1 (hlen u1 h1)).2 u2 h2 r hr, hall' u1 h1 r hr, List.map_map, machine_all_map c u u1 f (hall' u1 h1)]
      rfl
  suffices h : ∃ f : B → B, (∀ q, (sys.x (f q)).length = (sys.x q).length) ∧
      (∃ s', a.Steps w sys n s s') ∧ (∃ t', b.Steps w sys n t t') ∧
      (∀ s', a.Steps w sys n s s' → ∀ r < a.m.nrank, s' r = (s r).map f) ∧
      ∀ t', b.Steps w sys n t t' → ∀ r < b.m.nrank, t' r = (t r).map f by
    obtain ⟨f, -, h⟩ := h
    exact ⟨f, h⟩
  induction n with
  | zero => exact ⟨id, fun _ => rfl, ⟨s, rfl⟩, ⟨t, rfl⟩, fun s' h r _ => by rw [h, List.map_id], fun t' h r _ => by rw [h, List.map_id]⟩
  | succ n ih =>
    obtain ⟨f, hf, hs1, ht1, hfs, hft⟩ := ih
    obtain ⟨e1, e2⟩ := run a ha s hx f hf n hs1 hfs
    obtain ⟨e3, e4⟩ := run b hb t hxb f hf n ht1 hft
    refine ⟨fun q => bodyStep a.m a.t.cshape w sys n ((a.all s).map f) (f q), fun q => ?_, e1, e3, e2, ?_⟩
    · unfold bodyStep
      rw [hkeep, hf]
    · rw [bodyStep_eq hn hbox a.t.cshape w sys n (hsame.map f), hst]
      exact e4

section
variable {σ : Type} (rng : Rng σ) (rnd : ℚ → ℚ)

theorem toCx_eta (z : ℂ) : (⟨(toCx z).1, (toCx z).2⟩ : ℂ) = z := rfl

/-- The initial conditions on all ranks: they can be made, and give each grid point what a function of its id and position says. -/
theorem start_iff {a : Machine} {w : Resampler ℝ} (hw : w.Valid) (ha : a.OK w) {N0 N1 N2 : ℕ} (hN : 2 ≤ N0 ∧ 2 ≤ N1 ∧ 2 ≤ N2)
    (hn : a.m.nmesh = [N0, N1, N2]) (seed : ℕ) (unitary : Bool) (mean : ℝ) (ar : ℕ → NoiseRank) (har : NoiseReady a.t ar)
    (shift : List ℝ) (hshift : shift.length = 3) (D : List (List ℕ → ℂ)) (mk : ℕ → List ℝ → List ℝ → B) :
    (∃ s, a.Start rng rnd w seed unitary mean ar shift D mk s) ∧
    ∀ s, a.Start rng rnd w seed unitary mean ar shift D mk s → ∀ r < a.m.nrank,
      s r = ((a.m.uniformGrid shift r).zip (a.m.gridIds r)).map fun xi => mk xi.2 xi.1 (D.map fun T =>
        bodyRead a.m a.t.cshape w (fun k => T k * noiseModes rng rnd N0 N1 N2 seed unitary mean k) xi.1) := by
  have hpos : ∀ r < a.m.nrank, ∀ x ∈ a.m.uniformGrid shift r, x.length = a.m.nmesh.length := by
    intro r hr x hx
    unfold PMesh.uniformGrid at hx
    obtain ⟨g, hg, rfl⟩ := List.mem_map.1 hx
    rw [meshCoordinates_eq] at hg
    obtain ⟨c, hc, rfl⟩ := List.mem_map.1 hg
    have := (ha.mesh.global_valid hr (mem_ndindex.1 hc)).len
    simp [this, hshift, ha.mesh.box_len, hn]
  have hnoise : a.t.Holds (fun r c => (⟨(noiseOn rng rnd a.t a.m.box seed unitary mean ar r c).1,
      (noiseOn rng rnd a.t a.m.box seed unitary mean ar r c).2⟩ : ℂ)) (noiseModes rng rnd N0 N1 N2 seed unitary mean) := by
    intro r hr c hc
    have := noiseOn_eq rng rnd hN seed unitary mean a.t (by rw [ha.modes_mesh, hn]) ar har a.m.box (by rw [ha.mesh.box_len, hn]; rfl)
      ha.mesh.box_pos r hr c hc
    simp only [this, toCx_eta]
  have hlen : ∀ r, (a.m.gridIds r).length = (a.m.uniformGrid shift r).length := by
    intro r
    simp [PMesh.gridIds, PMesh.uniformGrid]
  have hread : ∀ (T : List ℕ → ℂ) (field : ℕ → ℤ → ℝ), a.IsC2r (a.times T fun r c =>
      ⟨(noiseOn rng rnd a.t a.m.box seed unitary mean ar r c).1, (noiseOn rng rnd a.t a.m.box seed unitary mean ar r c).2⟩) field →
      AllReturn a.m.nrank (fun r => (pmDecompose a.m a.sm r (a.m.uniformGrid shift r)).andThen fun lay =>
        pmReadout a.m w none r (some lay) (a.m.uniformGrid shift r) .none (field r)) fun r => .ok
          (((a.m.uniformGrid shift r).zip (a.m.gridIds r)).map fun xi =>
            bodyRead a.m a.t.cshape w (fun k => T k * noiseModes rng rnd N0 N1 N2 seed unitary mean k) xi.1) := by
    intro T field hc
    have hf := hc _ (times_holds hnoise T)
    have hR := readout_all ha.mesh ha.plain hw ha.smoothing ha.halo hpos ha.covers field _ hf (cStrides a.m.nmesh)
    refine AllReturn.congr (fun _ _ => rfl) (fun r hr => ?_) hR
    congr 1
    rw [← List.map_fst_zip (l₁ := a.m.uniformGrid shift r) (l₂ := a.m.gridIds r) (by rw [hlen]), List.map_map,
      List.map_fst_zip (by rw [hlen])]
    rfl
  constructor
  · have hfield : ∀ d : ℕ, ∃ field, a.IsC2r (a.times (D.getD d 0) fun r c => ⟨(noiseOn rng rnd a.t a.m.box seed unitary mean ar r c).1,
        (noiseOn rng rnd a.t a.m.box seed unitary mean ar r c).2⟩) field := fun d => exists_c2r ha (times_holds hnoise _)
    choose field hfield using hfield
    exact ⟨_, field, _, fun d _ => ⟨hfield d, hread _ (field d) (hfield d)⟩, fun r _ => rfl⟩
  · rintro s ⟨field, val, hd, hs⟩ r hr
    rw [hs r hr]
    refine mapIdx_read ((a.m.uniformGrid shift r).zip (a.m.gridIds r)) (fun xi => mk xi.2 xi.1) D (fun d => val d r) (fun T xi =>
      bodyRead a.m a.t.cshape w (fun k => T k * noiseModes rng rnd N0 N1 N2 seed unitary mean k) xi.1) fun d hdl => ?_
    exact AllReturn.unique_ok (hd d hdl).2 (hread _ (field d) (hd d hdl).1) r hr

theorem serial_grid_eq {m m' : PMesh ℝ} (hn : m.nmesh = m'.nmesh) (hb : m.box = m'.box) (shift : List ℝ) :
    ((m.serial [1]).uniformGrid shift 0).zip ((m.serial [1]).gridIds 0) = ((m'.serial [1]).uniformGrid shift 0).zip ((m'.serial [1]).gridIds 0) := by
  obtain ⟨nmesh, box, _, _, _, _, _⟩ := m
  obtain ⟨nmesh', box', _, _, _, _, _⟩ := m'
  simp only at hn hb
  subst hn hb
  rfl

/-- **C85**, from the seed to the final state.  Two runs on any numbers of ranks generate white noise with the same seed, multiply it with transfer
functions, transform to real space, read the fields at the particles of the uniform grid, make a body of each id, position and values read,
and do `n` steps.  Both complete on all ranks, and the bodies of all ranks at the end are the same up to their order.
Partial: as `C85_simulation_partial`; and the noise as C38, C42. -/
theorem C85_seed_to_final_partial (w : Resampler ℝ) (hw : w.Valid) (sys : Sys B)
    (hkeep : ∀ n b f, (sys.x (sys.next n b f)).length = (sys.x b).length)
    (a b : Machine) (ha : a.OK w) (hb : b.OK w) {N0 N1 N2 : ℕ} (hN : 2 ≤ N0 ∧ 2 ≤ N1 ∧ 2 ≤ N2) (hna : a.m.nmesh = [N0, N1, N2])
    (hnb : b.m.nmesh = [N0, N1, N2]) (hbox : a.m.box = b.m.box) (hst : a.t.cshape = b.t.cshape) (seed : ℕ) (unitary : Bool) (mean : ℝ)
    (ar br : ℕ → NoiseRank) (har : NoiseReady a.t ar) (hbr : NoiseReady b.t br) (shift : List ℝ) (hshift : shift.length = 3)
    (D : List (List ℕ → ℂ)) (mk : ℕ → List ℝ → List ℝ → B) (hmk : ∀ i x f, x.length = 3 → (sys.x (mk i x f)).length = 3) (n : ℕ) :
    (∃ s s', a.Start rng rnd w seed unitary mean ar shift D mk s ∧ a.Steps w sys n s s') ∧
    (∃ t t', b.Start rng rnd w seed unitary mean br shift D mk t ∧ b.Steps w sys n t t') ∧
    ∀ s s' t t', a.Start rng rnd w seed unitary mean ar shift D mk s → a.Steps w sys n s s' →
      b.Start rng rnd w seed unitary mean br shift D mk t → b.Steps w sys n t t' → (a.all s').Perm (b.all t') := by
  obtain ⟨⟨s0, hs0⟩, hsa⟩ := start_iff rng rnd hw ha hN hna seed unitary mean ar har shift hshift D mk
  obtain ⟨⟨t0, ht0⟩, hsb⟩ := start_iff rng rnd hw hb hN hnb seed unitary mean br hbr shift hshift D mk
  have hn : a.m.nmesh = b.m.nmesh := by rw [hna, hnb]
  have hperm : ∀ s t, a.Start rng rnd w seed unitary mean ar shift D mk s → b.Start rng rnd w seed unitary mean br shift D mk t →
      (a.all s).Perm (b.all t) := by
    intro s t hs ht
    have e : ∀ (c : Machine) (u : ℕ → List B) (f : List ℝ × ℕ → B), (∀ r < c.m.nrank, u r =
        ((c.m.uniformGrid shift r).zip (c.m.gridIds r)).map f) →
        c.all u = ((List.range c.m.nrank).flatMap fun r => (c.m.uniformGrid shift r).zip (c.m.gridIds r)).map f := by
      intro c u f h
      unfold Machine.all
      rw [List.map_flatMap]
      apply List.flatMap_congr
      intro r hr
      exact h r (List.mem_range.1 hr)
    rw [e a s _ (hsa s hs), e b t _ (hsb t ht)]
    have hser : ((a.m.serial [1]).uniformGrid shift 0).zip ((a.m.serial [1]).gridIds 0) =
        ((b.m.serial [1]).uniformGrid shift 0).zip ((b.m.serial [1]).gridIds 0) := by
      exact serial_grid_eq hn hbox shift
    have hfun : (fun xi : List ℝ × ℕ => mk xi.2 xi.1 (D.map fun T =>
        bodyRead a.m a.t.cshape w (fun k => T k * noiseModes rng rnd N0 N1 N2 seed unitary mean k) xi.1)) = fun xi : List ℝ × ℕ =>
        mk xi.2 xi.1 (D.map fun T => bodyRead b.m b.t.cshape w (fun k => T k * noiseModes rng rnd N0 N1 N2 seed unitary mean k) xi.1) := by
      unfold bodyRead
      simp only [weightAt_eq hn hbox w, hn, hst]
    rw [hfun]
    exact (((C34_partition ha.mesh [1] shift).trans (hser ▸ List.Perm.refl _)).trans (C34_partition hb.mesh [1] shift).symm).map _
  have hx : ∀ s, a.Start rng rnd w seed unitary mean ar shift D mk s → ∀ q ∈ a.all s, (sys.x q).length = a.m.nmesh.length := by
    intro s hs q hq
    obtain ⟨r, hr, hq⟩ := List.mem_flatMap.1 hq
    have hr := List.mem_range.1 hr
    rw [hsa s hs r hr] at hq
    obtain ⟨xi, hxi, rfl⟩ := List.mem_map.1 hq
    rw [hna]
    apply hmk
    have hxg := (List.of_mem_zip hxi).1
    unfold PMesh.uniformGrid at hxg
    obtain ⟨g, hg, e⟩ := List.mem_map.1 hxg
    rw [meshCoordinates_eq] at hg
    obtain ⟨c, hc, rfl⟩ := List.mem_map.1 hg
    have := (ha.mesh.global_valid hr (mem_ndindex.1 hc)).len
    rw [← e]
    simp [this, hshift, ha.mesh.box_len, hna]
  have main := fun s t hs ht => C85_simulation_partial w hw sys hkeep a b ha hb hn hbox hst s t (hx s hs) (hperm s t hs ht) n
  obtain ⟨_, ⟨s1, hs1⟩, ⟨t1, ht1⟩, -⟩ := main s0 t0 hs0 ht0
  refine ⟨⟨s0, s1, hs0, hs1⟩, ⟨t0, t1, ht0, ht1⟩, fun s s' t t' hs hs' ht ht' => ?_⟩
  obtain ⟨f, -, -, h1, h2⟩ := main s t hs ht
  rw [machine_all_map a s s' f (h1 s' hs'), machine_all_map b t t' f (h2 t' ht')]
  exact (hperm s t hs ht).map f

end
end

/-! ## Example: leap-frog on a mesh of 4 x 4 x 4 cells, on two ranks and on one -/

/-- Id, position and momentum. -/
structure ExBody where
  id : ℕ
  x : List ℝ
  p : List ℝ

/-- Kick and drift with a step of 1/10; bodies of mass 2; one component of the force per axis. -/
noncomputable def exSys : Sys ExBody where
  x := ExBody.x
  mass _ := 2
  kernel _ := (List.range 3).map fun d k => -Complex.I * (((waveVector Real.pi [4, 4, 4] [4, 4, 4] k).getD d 0 : ℝ) : ℂ)
  next _ b f := ⟨b.id, (List.range b.x.length).map fun d => b.x.getD d 0 + (b.p.getD d 0 + f.getD d 0 / 10) / 10,
    (List.range b.x.length).map fun d => b.p.getD d 0 + f.getD d 0 / 10⟩

noncomputable def exMesh3 : PMesh ℝ := ⟨[4, 4, 4], [4, 4, 4], [[0, 4], [0, 2, 4], [0, 4]], 2, fun r => [0, r, 0], fun _ => [8, 4, 1], fun _ => 77⟩

theorem exMesh3_ok : exMesh3.OK where
  dim := by simp [exMesh3]
  box_len := rfl
  box_pos := by simp [exMesh3]
  edges := .cons (slabEdges_of_decide (by decide)) (.cons (slabEdges_of_decide (by decide)) (.cons (slabEdges_of_decide (by decide)) .nil))
  ranks := by simp [exMesh3, PMesh.shape]
  coord_valid := by
    intro r hr
    have hr : r < 2 := hr
    interval_cases r <;> exact show ValidIndex [1, 2, 1] _ by decide
  coord_inj := by
    intro r _ r' _ h
    simpa [exMesh3] using h
  distinct := by
    intro r hr
    have hr : r < 2 := hr
    have hs : exMesh3.localShape r = [4, 2, 4] := by interval_cases r <;> rfl
    intro c c' hc hc' h
    rw [hs] at hc hc'
    exact (proper_of_decide (shape := [4, 2, 4]) (strides := [8, 4, 1]) rfl (by decide)).inj c c' hc hc' h

theorem exWinR_covers3 : ∀ e ∈ ([1, 1, 1] : List ℝ), exWinR.Covers e 1 := by
  intro e he
  exact exWinR_covers e (by simpa using he)

/-- Two ranks that split the second axis, of cells and of modes. -/
noncomputable def exMachine2 : Machine := ⟨exMesh3, [1, 1, 1], exNoiseTiling⟩

theorem exMachine2_ok : exMachine2.OK exWinR where
  mesh := exMesh3_ok
  plain := Or.inr (by
    intro r hr
    have hr : r < 2 := hr
    interval_cases r <;> exact show cOrder [1, 2, 1] _ = _ by decide)
  smoothing := ⟨rfl, by simp [exMachine2]⟩
  halo := by
    intro j hj d hd
    have hj : j < 3 := hj
    interval_cases j
    · have hd : d < 1 := hd
      interval_cases d
      exact Or.inr rfl
    · have hd : d < 2 := hd
      left
      interval_cases d <;> simp [exMachine2, exMesh3] <;> norm_num
    · have hd : d < 1 := hd
      interval_cases d
      exact Or.inr rfl
  covers := exWinR_covers3
  modes := tiling_ok_of_decide (t := exNoiseTiling) (by decide)
  modes_mesh := rfl
  modes_rank := rfl
  storage := Or.inr rfl

/-- A single process. -/
noncomputable def exMachine1 : Machine := ⟨exMesh3.serial (cStrides [4, 4, 4]), [1, 1, 1], ⟨[4, 4, 4], [4, 4, 3], 1, fun _ => [0, 0, 0], fun _ => [4, 4, 3]⟩⟩

theorem exMachine1_ok : exMachine1.OK exWinR where
  mesh := serial_ok exMesh3_ok (serial_distinct exMesh3)
  plain := serial_plain exMesh3 exMesh3_ok _
  smoothing := ⟨rfl, by simp [exMachine1]⟩
  halo := serial_halo exMesh3 _ _
  covers := exWinR_covers3
  modes := tiling_ok_of_decide (t := ⟨[4, 4, 4], [4, 4, 3], 1, fun _ => [0, 0, 0], fun _ => [4, 4, 3]⟩) (by decide)
  modes_mesh := rfl
  modes_rank := rfl
  storage := Or.inr rfl

theorem exMachine1_ready (mem : ℤ → ℝ × ℝ) : NoiseReady exMachine1.t fun _ => ⟨[12, 3, 1], [0, 1, 2], mem⟩ where
  tiling := exMachine1_ok.modes
  storage := exMachine1_ok.storage
  inside := fun _ _ => .cons (by decide) (.cons (by decide) (.cons (by decide) .nil))
  proper := fun _ _ => proper_of_decide (shape := [4, 4, 3]) (strides := [12, 3, 1]) rfl (by decide)
  order := fun _ _ => List.Perm.refl _
  whole := Or.inl (by decide)

/-- Non-vacuity: three bodies on two ranks, and on one rank in another order. -/
example (p q u : ExBody) (hp : p.x.length = 3) (hq : q.x.length = 3) (hu : u.x.length = 3) (n : ℕ) :=
  C85_simulation_partial exWinR exWinR_valid exSys (by simp [exSys]) exMachine2 exMachine1 exMachine2_ok exMachine1_ok rfl rfl rfl
    (fun r => if r = 0 then [p, q] else [u]) (fun _ => [u, p, q]) (by
      intro b hb
      have : b ∈ [p, q, u] := hb
      simp only [List.mem_cons, List.not_mem_nil, or_false] at this
      rcases this with rfl | rfl | rfl <;> assumption) (List.perm_append_comm (l₁ := [p, q]) (l₂ := [u])) n

/-- From the seed: displacements with the transfer functions of the step. -/
example (mem mem' : ℤ → ℝ × ℝ) (n : ℕ) := C85_seed_to_final_partial (ranlxdRng id) id exWinR exWinR_valid exSys (by simp [exSys])
  exMachine2 exMachine1 exMachine2_ok exMachine1_ok (N0 := 4) (N1 := 4) (N2 := 4) (by omega) rfl rfl rfl rfl 42 false 0
  (exNoiseRank mem) _ (exNoise_ready mem) (exMachine1_ready mem') [1 / 2, 1 / 2, 1 / 2] rfl (exSys.kernel 0)
  (fun i x f => ⟨i, (List.range x.length).map fun d => x.getD d 0 + f.getD d 0, f⟩) (by simp [exSys]) n

#print axioms C85_simulation_partial
#print axioms C85_seed_to_final_partial

end Pmesh
