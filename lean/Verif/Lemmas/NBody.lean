import Verif.Model.NBody
import Verif.Props.Simulation
import Verif.Props.Abopt
import Verif.Lemmas.Regrid

/-! # The statements of the N-body program in closed form -/

namespace Pmesh

/-- `Nmesh.prod() / N`. -/
noncomputable def nbFac (m : PMesh ℝ) (L : List NBody) : ℝ := 1.0 * (m.nmesh.prod : ℝ) / (L.length : ℝ)

/-- The bodies as sources of equal mass. -/
def nbSys (fac : ℝ) : Sys NBody := ⟨NBody.x, fun _ => fac, fun _ => [], fun _ b _ => b⟩

/-- Component `d` of the force at `y` from the bodies `L`. -/
noncomputable def nbForceAt (m : PMesh ℝ) (cshape : List ℕ) (w : Resampler ℝ) (om : ℝ) (L : List NBody) (y : List ℝ) (d : ℕ) : ℝ :=
  1.5 * om * bodyRead m cshape w (fun k => forceTransfer m.nmesh m.box d k * r2c m.nmesh (densAt m w (nbSys (nbFac m L)) L) k) y

/-- What a statement does with a body, when `L` are all bodies. -/
noncomputable def nbOp (m : PMesh ℝ) (cshape : List ℕ) (w : Resampler ℝ) (om : ℝ) (fac : Factors) (L : List NBody) : NbOp → NBody → NBody
  | .force, b => { b with f := (List.range m.nmesh.length).map fun d => nbForceAt m cshape w om L b.x d }
  | .kick ai af ar, b => b.kick (fac.K ai af ar)
  | .drift ai af ar, b => b.drift (fac.D ai af ar)

/-- What the statements do with a body. -/
noncomputable def nbTraj (m : PMesh ℝ) (cshape : List ℕ) (w : Resampler ℝ) (om : ℝ) (fac : Factors) : List NbOp → List NBody → NBody → NBody
  | [], _, b => b
  | op :: l, L, b => nbTraj m cshape w om fac l (L.map (nbOp m cshape w om fac L op)) (nbOp m cshape w om fac L op b)

/-- Displacement, place on the grid and velocity have `n` components. -/
structure NBody.Sane (n : ℕ) (b : NBody) : Prop where
  q : b.q.length = n
  s : b.s.length = n
  v : b.v.length = n

theorem NBody.Sane.x {n : ℕ} {b : NBody} (h : b.Sane n) : b.x.length = n := by simp [NBody.x, h.q, h.s]

theorem densAt_congr (m : PMesh ℝ) (w : Resampler ℝ) (s s' : Sys NBody) (L : List NBody) (hx : s.x = s'.x) (hm : s.mass = s'.mass) :
    densAt m w s L = densAt m w s' L := by
  unfold densAt
  rw [hx, hm]

section
variable {a : Machine} {w : Resampler ℝ} (hw : w.Valid) (ha : a.OK w) (om : ℝ)
include hw ha

theorem nbDensity_all (s : ℕ → List NBody) (hx : ∀ r < a.m.nrank, ∀ b ∈ s r, b.Sane a.m.nmesh.length) :
    ∃ dens : ℕ → ℤ → ℝ, AllReturn a.m.nrank (fun r => nbDensity a.m w a.sm r ((s r).map NBody.x)) (fun r => .ok (dens r)) ∧
      a.m.HoldsField dens (densAt a.m w (nbSys (nbFac a.m (a.all s))) (a.all s)) := by
  have hpos : ∀ r < a.m.nrank, ∀ x ∈ (s r).map NBody.x, x.length = a.m.nmesh.length := by
    intro r hr x hx'
    obtain ⟨b, hb, rfl⟩ := List.mem_map.1 hx'
    exact (hx r hr b hb).x
  obtain ⟨dens, h1, h2⟩ := paint_weightAt a.m ha.mesh ha.plain w hw a.sm ha.smoothing ha.halo ha.covers (fun r => (s r).map NBody.x) hpos
    (fun _ => .scalar 1) (Or.inr (Or.inl ⟨1, fun _ _ => rfl⟩))
  refine ⟨fun r z => dens r z * nbFac a.m (a.all s), ?_, ?_⟩
  · have h3 := AllReturn.andThen (B := ℤ → ℝ) (k := fun r mem => abTotal ((s r).map NBody.x).length fun N => .ret (.ok fun z => mem z *
      (1.0 * (a.m.nmesh.prod : ℝ) / (N : ℝ)))) h1 (abTotal_return ha.mesh.nrank_pos (AllReturn.ret a.m.nrank _))
    refine AllReturn.congr (fun r _ => ?_) (fun r _ => ?_) h3
    · exact (andThen_assoc _ _ _).symm
    · congr 1
      funext z
      congr 1
      unfold nbFac Machine.all
      simp [List.length_flatMap]
  · intro r hr c hc
    beta_reduce
    rw [h2 r hr c hc]
    have e : ((allParticles a.m.nrank (fun r => (s r).map NBody.x) (fun _ => .scalar 1) fun _ => .none).map
        fun p => p.mass * a.m.weightAt w p.pos (a.m.global r c)) = (a.all s).map fun b => a.m.weightAt w b.x (a.m.global r c) := by
      unfold allParticles particlesOf Machine.all
      rw [List.map_flatMap, List.map_flatMap]
      congr 1
      funext r'
      rw [List.map_map]
      apply List.ext_getElem (by simp)
      intro i h1 h2
      simp only [List.length_map, List.length_range] at h1
      simp [Quant.at, h1]
    beta_reduce
    rw [e, ← sum_mulc]
    unfold densAt nbSys
    congr 1
    apply List.map_congr_left
    intro b _
    exact mul_comm _ _

theorem nbForce_iff (s : ℕ → List NBody) (hx : ∀ r < a.m.nrank, ∀ b ∈ s r, b.Sane a.m.nmesh.length) (fac : Factors) :
    (∃ s', a.NbForce w om s s') ∧
    ∀ s', a.NbForce w om s s' → ∀ r < a.m.nrank, s' r = (s r).map (nbOp a.m a.t.cshape w om fac (a.all s) .force) := by
  obtain ⟨dens, h1, h2⟩ := nbDensity_all hw ha s hx
  have hpos : ∀ r < a.m.nrank, ∀ x ∈ (s r).map NBody.x, x.length = a.m.nmesh.length := by
    intro r hr x hx'
    obtain ⟨b, hb, rfl⟩ := List.mem_map.1 hx'
    exact (hx r hr b hb).x
  obtain ⟨rho, hrho⟩ : ∃ rho, rho = densAt a.m w (nbSys (nbFac a.m (a.all s))) (a.all s) := ⟨_, rfl⟩
  rw [← hrho] at h2
  have hread : ∀ (T : List ℕ → ℂ) (F : ℕ → List ℕ → ℂ) (field : ℕ → ℤ → ℝ), a.t.Holds F (r2c a.m.nmesh rho) →
      a.IsC2r (a.times T F) field →
      AllReturn a.m.nrank (fun r => (pmDecompose a.m a.sm r ((s r).map NBody.x)).andThen fun lay =>
        pmReadout a.m w none r (some lay) ((s r).map NBody.x) .none (field r)) fun r => .ok ((s r).map fun b =>
          bodyRead a.m a.t.cshape w (fun k => T k * r2c a.m.nmesh rho k) b.x) := by
    intro T F field hF hc
    have hf := hc _ (times_holds hF T)
    have hR := readout_all ha.mesh ha.plain hw ha.smoothing ha.halo hpos ha.covers field _ hf (cStrides a.m.nmesh)
    refine AllReturn.congr (fun _ _ => rfl) (fun r hr => ?_) hR
    congr 1
    rw [List.map_map]
    rfl
  constructor
  · obtain ⟨F, hF⟩ := exists_r2c ha h2
    have hFh := hF _ h2
    have hfield : ∀ d : ℕ, ∃ field, a.IsC2r (a.times (forceTransfer a.m.nmesh a.m.box d) F) field :=
      fun d => exists_c2r ha (times_holds hFh _)
    choose field hfield using hfield
    exact ⟨_, dens, F, field, _, h1, hF, fun d _ => ⟨hfield d, hread _ F (field d) hFh (hfield d)⟩, fun r _ => rfl⟩
  · rintro s' ⟨dens', F, field, val, h1', hF, hd, hs'⟩ r hr
    have e := AllReturn.unique_ok h1 h1'
    have h2' : a.m.HoldsField dens' rho := fun r hr c hc => by rw [← e r hr, h2 r hr c hc]
    have hFh := hF _ h2'
    rw [hs' r hr]
    apply List.ext_getElem (by simp)
    intro i hi1 hi2
    simp only [List.length_mapIdx] at hi1
    rw [List.getElem_mapIdx, List.getElem_map]
    unfold nbOp nbForceAt
    congr 1
    apply List.map_congr_left
    intro d hdl
    have hdl := List.mem_range.1 hdl
    rw [AllReturn.unique_ok (hd d hdl).2 (hread _ F (field d) hFh (hd d hdl).1) r hr, List.getD_eq_getElem _ _ (by simpa using hi1),
      List.getElem_map, hrho]

theorem nbStep_iff (fac : Factors) (op : NbOp) (s : ℕ → List NBody) (hx : ∀ r < a.m.nrank, ∀ b ∈ s r, b.Sane a.m.nmesh.length) :
    (∃ s', a.NbStep w om fac op s s') ∧
    ∀ s', a.NbStep w om fac op s s' → ∀ r < a.m.nrank, s' r = (s r).map (nbOp a.m a.t.cshape w om fac (a.all s) op) := by
  cases op with
  | force => exact nbForce_iff hw ha om s hx fac
  | kick ai af ar => exact ⟨⟨_, fun r _ => rfl⟩, fun s' h r hr => h r hr⟩
  | drift ai af ar => exact ⟨⟨_, fun r _ => rfl⟩, fun s' h r hr => h r hr⟩

omit hw ha in
/-- A body with all four rows keeps them. -/
theorem nbOp_ready (m : PMesh ℝ) (cshape : List ℕ) (fac : Factors) (L : List NBody) (op : NbOp) (b : NBody) (hb : b.Sane m.nmesh.length)
    (hf : b.f.length = m.nmesh.length) :
    (nbOp m cshape w om fac L op b).Sane m.nmesh.length ∧ (nbOp m cshape w om fac L op b).f.length = m.nmesh.length := by
  cases op with
  | force => exact ⟨⟨hb.q, hb.s, hb.v⟩, by simp [nbOp]⟩
  | kick ai af ar => exact ⟨⟨hb.q, hb.s, by simp [nbOp, NBody.kick, hb.v, hf]⟩, hf⟩
  | drift ai af ar => exact ⟨⟨hb.q, by simp [nbOp, NBody.drift, hb.v, hb.s], hb.v⟩, hf⟩

omit hw ha in
theorem nbOp_force_ready (m : PMesh ℝ) (cshape : List ℕ) (fac : Factors) (L : List NBody) (b : NBody) (hb : b.Sane m.nmesh.length) :
    (nbOp m cshape w om fac L .force b).Sane m.nmesh.length ∧ (nbOp m cshape w om fac L .force b).f.length = m.nmesh.length :=
  ⟨⟨hb.q, hb.s, hb.v⟩, by simp [nbOp]⟩

omit hw ha in
theorem nbAll_map (c : Machine) (u u' : ℕ → List NBody) (f : NBody → NBody) (h : ∀ r < c.m.nrank, u' r = (u r).map f) :
    c.all u' = (c.all u).map f := machine_all_map c u u' f h

theorem nbRun_iff (fac : Factors) (l : List NbOp) : ∀ (s : ℕ → List NBody), (∀ r < a.m.nrank, ∀ b ∈ s r, b.Sane a.m.nmesh.length) →
    (∀ r < a.m.nrank, ∀ b ∈ s r, b.f.length = a.m.nmesh.length) →
    (∃ s', a.NbRun w om fac l s s') ∧
    ∀ s', a.NbRun w om fac l s s' → ∀ r < a.m.nrank, s' r = (s r).map (nbTraj a.m a.t.cshape w om fac l (a.all s)) := by
  induction l with
  | nil =>
    intro s _ _
    exact ⟨⟨s, rfl⟩, fun s' h r _ => by rw [show s' = s from h]; exact (List.map_id _).symm⟩
  | cons op l ih =>
    intro s hx hf
    obtain ⟨⟨u, hu⟩, h2⟩ := nbStep_iff hw ha om fac op s hx
    have next : ∀ u, a.NbStep w om fac op s u → (∀ r < a.m.nrank, ∀ b ∈ u r, b.Sane a.m.nmesh.length) ∧
        (∀ r < a.m.nrank, ∀ b ∈ u r, b.f.length = a.m.nmesh.length) := by
      intro u hu
      have key : ∀ r < a.m.nrank, ∀ b ∈ u r, b.Sane a.m.nmesh.length ∧ b.f.length = a.m.nmesh.length := by
        intro r hr b hb
        rw [h2 u hu r hr] at hb
        obtain ⟨b', hb', rfl⟩ := List.mem_map.1 hb
        exact nbOp_ready om a.m _ fac _ op b' (hx r hr b' hb') (hf r hr b' hb')
      exact ⟨fun r hr b hb => (key r hr b hb).1, fun r hr b hb => (key r hr b hb).2⟩
    refine ⟨?_, ?_⟩
    · obtain ⟨⟨s', hs'⟩, -⟩ := ih u (next u hu).1 (next u hu).2
      exact ⟨s', u, hu, hs'⟩
    · rintro s' ⟨u, hu, hs'⟩ r hr
      rw [(ih u (next u hu).1 (next u hu).2).2 s' hs' r hr, h2 u hu r hr, List.map_map, nbAll_map a s u _ (h2 u hu)]
      rfl

/-- A program that begins with `force` needs no forces to begin with. -/
theorem nbRun_force (fac : Factors) (l : List NbOp) (s : ℕ → List NBody) (hx : ∀ r < a.m.nrank, ∀ b ∈ s r, b.Sane a.m.nmesh.length) :
    (∃ s', a.NbRun w om fac (.force :: l) s s') ∧
    ∀ s', a.NbRun w om fac (.force :: l) s s' → ∀ r < a.m.nrank, s' r = (s r).map (nbTraj a.m a.t.cshape w om fac (.force :: l) (a.all s)) := by
  obtain ⟨⟨u, hu⟩, h2⟩ := nbStep_iff hw ha om fac .force s hx
  have next : ∀ u, a.NbStep w om fac .force s u → (∀ r < a.m.nrank, ∀ b ∈ u r, b.Sane a.m.nmesh.length ∧ b.f.length = a.m.nmesh.length) := by
    intro u hu r hr b hb
    rw [h2 u hu r hr] at hb
    obtain ⟨b', hb', rfl⟩ := List.mem_map.1 hb
    exact nbOp_force_ready om a.m _ fac _ b' (hx r hr b' hb')
  refine ⟨?_, ?_⟩
  · obtain ⟨⟨s', hs'⟩, -⟩ := nbRun_iff hw ha om fac l u (fun r hr b hb => (next u hu r hr b hb).1) (fun r hr b hb => (next u hu r hr b hb).2)
    exact ⟨s', u, hu, hs'⟩
  · rintro s' ⟨u, hu, hs'⟩ r hr
    rw [(nbRun_iff hw ha om fac l u (fun r hr b hb => (next u hu r hr b hb).1) (fun r hr b hb => (next u hu r hr b hb).2)).2 s' hs' r hr,
      h2 u hu r hr, List.map_map, nbAll_map a s u _ (h2 u hu)]
    rfl

end

/-! ## The result depends on the bodies, not on the ranks -/

theorem nbForceAt_eq {m m' : PMesh ℝ} (hn : m.nmesh = m'.nmesh) (hb : m.box = m'.box) (cshape : List ℕ) (w : Resampler ℝ) (om : ℝ)
    {L L' : List NBody} (hL : L.Perm L') : nbForceAt m cshape w om L = nbForceAt m' cshape w om L' := by
  have hfac : nbFac m L = nbFac m' L' := by unfold nbFac; rw [hn, hL.length_eq]
  have e : densAt m w (nbSys (nbFac m L)) L = densAt m' w (nbSys (nbFac m' L')) L' := by
    funext g
    unfold densAt
    simp only [weightAt_eq hn hb w, hfac]
    exact (hL.map _).sum_eq
  funext y d
  unfold nbForceAt bodyRead
  simp only [weightAt_eq hn hb w, e, hn, hb]

theorem nbOp_eq {m m' : PMesh ℝ} (hn : m.nmesh = m'.nmesh) (hb : m.box = m'.box) (cshape : List ℕ) (w : Resampler ℝ) (om : ℝ) (fac : Factors)
    {L L' : List NBody} (hL : L.Perm L') (op : NbOp) : nbOp m cshape w om fac L op = nbOp m' cshape w om fac L' op := by
  funext b
  cases op with
  | force => simp only [nbOp, nbForceAt_eq hn hb cshape w om hL, hn]
  | kick => rfl
  | drift => rfl

theorem nbTraj_eq {m m' : PMesh ℝ} (hn : m.nmesh = m'.nmesh) (hb : m.box = m'.box) (cshape : List ℕ) (w : Resampler ℝ) (om : ℝ) (fac : Factors)
    (l : List NbOp) : ∀ {L L' : List NBody}, L.Perm L' → nbTraj m cshape w om fac l L = nbTraj m' cshape w om fac l L' := by
  induction l with
  | nil => intro L L' _; rfl
  | cons op l ih =>
    intro L L' hL
    funext b
    simp only [nbTraj]
    rw [nbOp_eq hn hb cshape w om fac hL op, ih (hL.map _)]

end Pmesh
