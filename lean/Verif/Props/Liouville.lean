import Verif.Lemmas.Liouville
import Verif.Props.NBodyTime

/-! # C93: the N-body schemes on phase space -/

namespace Pmesh

open MeasureTheory

section
variable {N D : ℕ} (Q : Fin N → Fin D → ℝ)

/-- Particle `i`, with a force. -/
def bodyAt (p : (Fin N → Fin D → ℝ) × (Fin N → Fin D → ℝ) × (Fin N → Fin D → ℝ)) (i : Fin N) : NBody :=
  ⟨List.ofFn (Q i), List.ofFn (p.1 i), List.ofFn (p.2.1 i), List.ofFn (p.2.2 i)⟩

theorem bodyAt_x (p : (Fin N → Fin D → ℝ) × (Fin N → Fin D → ℝ) × (Fin N → Fin D → ℝ)) (i : Fin N) :
    (bodyAt Q p i).x = List.ofFn fun d => p.1 i d + Q i d := by
  simp only [NBody.x, bodyAt, zipWith_ofFn]

/-- The forces on all particles as a function of the displacements; `J` are the particles of all ranks. -/
noncomputable def pmForce (m : PMesh ℝ) (cshape : List ℕ) (w : Resampler ℝ) (om : ℝ) (J : List (Fin N)) (S : Fin N → Fin D → ℝ) (i : Fin N) (d : Fin D) : ℝ :=
  1.5 * om * ((ndindex m.nmesh).map fun g => m.weightAt w (List.ofFn fun d => S i d + Q i d) g *
    c2r m.nmesh cshape (fun k => forceTransfer m.nmesh m.box d k *
      r2c m.nmesh (fun g => (J.map fun j => 1.0 * (m.nmesh.prod : ℝ) / (J.length : ℝ) * m.weightAt w (List.ofFn fun d => S j d + Q j d) g).sum) k) g).sum

theorem nbForceAt_body (m : PMesh ℝ) (cshape : List ℕ) (w : Resampler ℝ) (om : ℝ) (J : List (Fin N))
    (p : (Fin N → Fin D → ℝ) × (Fin N → Fin D → ℝ) × (Fin N → Fin D → ℝ)) (i : Fin N) (d : Fin D) :
    nbForceAt m cshape w om (J.map (bodyAt Q p)) (bodyAt Q p i).x d = pmForce Q m cshape w om J p.1 i d := by
  have hd : densAt m w (nbSys (nbFac m (J.map (bodyAt Q p)))) (J.map (bodyAt Q p)) = fun g =>
      (J.map fun j => 1.0 * (m.nmesh.prod : ℝ) / (J.length : ℝ) * m.weightAt w (List.ofFn fun d => p.1 j d + Q j d) g).sum := by
    funext g
    simp only [densAt, nbSys, nbFac, List.map_map, List.length_map, Function.comp_def, bodyAt_x]
  unfold nbForceAt bodyRead pmForce
  rw [hd, bodyAt_x]

theorem pmForce_measurable (m : PMesh ℝ) (cshape : List ℕ) (w : Resampler ℝ) (hk : Measurable w.kern.kernel) (om : ℝ) (J : List (Fin N)) :
    Measurable (pmForce Q m cshape w om J) := by
  have hx : ∀ (i : Fin N) (g : List ℕ), Measurable fun S : Fin N → Fin D → ℝ => m.weightAt w (List.ofFn fun d => S i d + Q i d) g := by
    intro i g
    refine weightAt_measurable m w hk (x := fun S : Fin N → Fin D → ℝ => fun d => S i d + Q i d) ?_ g
    fun_prop
  refine measurable_pi_lambda _ fun i => measurable_pi_lambda _ fun d => ?_
  unfold pmForce
  refine Measurable.const_mul (measurable_listSum _ _ fun g _ => (hx i g).mul (c2r_measurable _ _ (fun k => ?_) g)) _
  exact (r2c_measurable _ (fun g => measurable_listSum _ _ fun j _ => (hx j g).const_mul _) k).const_mul _

theorem nbOp_body {m : PMesh ℝ} (hD : D = m.nmesh.length) (cshape : List ℕ) (w : Resampler ℝ) (om : ℝ) (fac : Factors) (J : List (Fin N)) (op : NbOp)
    (p : (Fin N → Fin D → ℝ) × (Fin N → Fin D → ℝ) × (Fin N → Fin D → ℝ)) (i : Fin N) :
    nbOp m cshape w om fac (J.map (bodyAt Q p)) op (bodyAt Q p i) = bodyAt Q (phaseStep fac (pmForce Q m cshape w om J) op p) i := by
  cases op with
  | force =>
    have : ∀ h : ℕ → ℝ, (List.range m.nmesh.length).map h = List.ofFn fun d : Fin D => h d := by
      intro h
      subst hD
      apply List.ext_getElem <;> simp
    simp only [nbOp, this, nbForceAt_body]
    rfl
  | kick ai af ar =>
    simp only [nbOp, NBody.kick, bodyAt, zipWith_ofFn, phaseStep]
    congr 2
    funext d
    simp [mul_comm]
  | drift ai af ar =>
    simp only [nbOp, NBody.drift, bodyAt, zipWith_ofFn, phaseStep]
    congr 2
    funext d
    simp [mul_comm]

theorem nbTraj_body {m : PMesh ℝ} (hD : D = m.nmesh.length) (cshape : List ℕ) (w : Resampler ℝ) (om : ℝ) (fac : Factors) (J : List (Fin N)) : ∀ (l : List NbOp)
    (p : (Fin N → Fin D → ℝ) × (Fin N → Fin D → ℝ) × (Fin N → Fin D → ℝ)) (i : Fin N),
    nbTraj m cshape w om fac l (J.map (bodyAt Q p)) (bodyAt Q p i) = bodyAt Q (phaseRun fac (pmForce Q m cshape w om J) l p) i
  | [], p, i => rfl
  | op :: l, p, i => by
    rw [nbTraj, nbOp_body Q hD, List.map_map]
    have : nbOp m cshape w om fac (J.map (bodyAt Q p)) op ∘ bodyAt Q p = bodyAt Q (phaseStep fac (pmForce Q m cshape w om J) op p) := by
      funext j
      exact nbOp_body Q hD cshape w om fac J op p j
    rw [this, nbTraj_body hD cshape w om fac J l]
    rfl

end

/-- A run that begins with the force, on phase space. -/
theorem nbRun_phase {w : Resampler ℝ} (hw : w.Valid) (om : ℝ) (fac : Factors) {a : Machine} (ha : a.OK w) (l : List NbOp) {N : ℕ}
    (Q : Fin N → Fin a.m.nmesh.length → ℝ) (idx : ℕ → List (Fin N)) {J : List (Fin N)} (hJ : J = (List.range a.m.nrank).flatMap idx)
    {Φ : (Fin N → Fin a.m.nmesh.length → ℝ) → Fin N → Fin a.m.nmesh.length → ℝ} (hΦ : Φ = pmForce Q a.m a.t.cshape w om J) (z : Phase N a.m.nmesh.length) :
    (∃ s', a.NbRun w om fac (.force :: l) (fun r => (idx r).map (z.body Q)) s') ∧
      ∀ s', a.NbRun w om fac (.force :: l) (fun r => (idx r).map (z.body Q)) s' → ∀ r < a.m.nrank,
        (s' r).map NBody.state = (idx r).map fun i => (bodyAt Q (phaseRun fac Φ l (z.1, z.2, Φ z.1)) i).state := by
  have hsane : ∀ r < a.m.nrank, ∀ b ∈ (fun r => (idx r).map (z.body Q)) r, b.Sane a.m.nmesh.length := by
    intro r _ b hb
    obtain ⟨i, -, rfl⟩ := List.mem_map.1 hb
    exact ⟨by simp [Phase.body], by simp [Phase.body], by simp [Phase.body]⟩
  obtain ⟨h1, h2⟩ := nbRun_force hw ha om fac l _ hsane
  refine ⟨h1, fun s' hs' r hr => ?_⟩
  rw [h2 s' hs' r hr]
  simp only [List.map_map]
  apply List.map_congr_left
  intro i _
  have hall : a.all (fun r => (idx r).map (z.body Q)) = J.map (z.body Q) := by
    rw [hJ, Machine.all, List.map_flatMap]
  simp only [Function.comp_def, hall]
  -- the first force does not look at the forces
  have h0 : ∀ L : List NBody, ∀ j, nbOp a.m a.t.cshape w om fac L .force (z.body Q j) = nbOp a.m a.t.cshape w om fac L .force (bodyAt Q (z.1, z.2, 0) j) :=
    fun L j => rfl
  have h1 : ∀ j, nbOp a.m a.t.cshape w om fac (J.map (z.body Q)) .force (z.body Q j) = bodyAt Q (z.1, z.2, Φ z.1) j := by
    intro j
    rw [h0]
    have := nbOp_body Q rfl a.t.cshape w om fac J .force (z.1, z.2, 0) j
    rw [← hΦ] at this
    rw [show bodyAt Q (z.1, z.2, Φ z.1) j = bodyAt Q (phaseStep fac Φ .force (z.1, z.2, 0)) j from rfl, ← this]
    have hd : ∀ L L' : List NBody, L.map NBody.x = L'.map NBody.x → ∀ b, nbOp a.m a.t.cshape w om fac L .force b = nbOp a.m a.t.cshape w om fac L' .force b := by
      intro L L' hLL b
      have hlen : L.length = L'.length := by simpa using congrArg List.length hLL
      have : densAt a.m w (nbSys (nbFac a.m L)) L = densAt a.m w (nbSys (nbFac a.m L')) L' := by
        funext g
        have e : ∀ M : List NBody, densAt a.m w (nbSys (nbFac a.m M)) M g = ((M.map NBody.x).map fun x => 1.0 * (a.m.nmesh.prod : ℝ) / (M.length : ℝ) * a.m.weightAt w x g).sum := by
          intro M
          simp only [densAt, nbSys, nbFac, List.map_map, Function.comp_def]
        rw [e, e, hLL, hlen]
      simp only [nbOp, nbForceAt, this]
    exact hd _ _ (by simp [Phase.body, bodyAt, NBody.x]) _
  have h3 : nbTraj a.m a.t.cshape w om fac (.force :: l) (J.map (z.body Q)) (z.body Q i) = bodyAt Q (phaseRun fac Φ l (z.1, z.2, Φ z.1)) i := by
    rw [nbTraj, h1, List.map_map, show nbOp a.m a.t.cshape w om fac (J.map (z.body Q)) .force ∘ z.body Q = bodyAt Q (z.1, z.2, Φ z.1) from funext h1,
      nbTraj_body Q rfl, ← hΦ]
  rw [h3]

/-- **C93**, Liouville (partial: the restrictions of C23 on the decomposition).  On any number of ranks, a run of `symp1`, `symp2` or `symp3` with any
factors, times and window maps the displacements and velocities of all particles by one map `T` of phase space, which does not depend on the run, is
invertible and keeps volumes.  `Q` are the places of the particles on the grid, `idx r` the particles of rank `r`. -/
theorem C93_volume_partial (w : Resampler ℝ) (hw : w.Valid) (hk : Measurable w.kern.kernel) (om : ℝ) (fac : Factors) (a : Machine) (ha : a.OK w)
    (scheme : List ℝ → List NbOp) (hs : scheme ∈ nbSchemes) (times : List ℝ) (N : ℕ) (Q : Fin N → Fin a.m.nmesh.length → ℝ) (idx : ℕ → List (Fin N)) :
    ∃ T : Phase N a.m.nmesh.length ≃ᵐ Phase N a.m.nmesh.length, MeasurePreserving T volume volume ∧
      ∀ z, (∃ s', a.NbRun w om fac (scheme times) (fun r => (idx r).map (z.body Q)) s') ∧
        ∀ s', a.NbRun w om fac (scheme times) (fun r => (idx r).map (z.body Q)) s' → ∀ r < a.m.nrank,
          (s' r).map NBody.state = (idx r).map fun i => ((T z).body Q i).state := by
  obtain ⟨l, hl, hf⟩ := freshKicks_scheme scheme hs times
  obtain ⟨J, hJ⟩ : ∃ J : List (Fin N), J = (List.range a.m.nrank).flatMap idx := ⟨_, rfl⟩
  obtain ⟨Φ, hΦ⟩ : ∃ Φ, Φ = pmForce Q a.m a.t.cshape w om J := ⟨_, rfl⟩
  have hm : Measurable Φ := by rw [hΦ]; exact pmForce_measurable Q a.m a.t.cshape w hk om J
  obtain ⟨T, ⟨e, rfl, he⟩, hT⟩ := phaseRun_good fac Φ KeepsVolume keeps_id keeps_comp (fun c => keeps_kick (hm.const_smul c))
    (fun c => keeps_drift (measurable_id.const_smul c)) l true hf
  refine ⟨e, he, fun z => ?_⟩
  rw [hl]
  obtain ⟨h1, h2⟩ := nbRun_phase hw om fac ha l Q idx hJ hΦ z
  refine ⟨h1, fun s' hs' r hr => ?_⟩
  rw [h2 s' hs' r hr]
  apply List.map_congr_left
  intro i _
  obtain ⟨e1, e2⟩ := hT z.1 z.2 (Φ z.1) fun _ => rfl
  simp only [NBody.state, bodyAt, Phase.body, e1, e2]

/-! ## The symplectic form -/

theorem runWith_phase (fac : Factors) {n : ℕ} (F : (Fin n → ℝ) → Fin n → ℝ) (q : List ℝ) : ∀ (l : List NbOp) (p : (Fin n → ℝ) × (Fin n → ℝ) × (Fin n → ℝ)),
    NBody.runWith fac (forceOf F) l ⟨q, List.ofFn p.1, List.ofFn p.2.1, List.ofFn p.2.2⟩ =
      ⟨q, List.ofFn (phaseRun fac F l p).1, List.ofFn (phaseRun fac F l p).2.1, List.ofFn (phaseRun fac F l p).2.2⟩
  | [], p => rfl
  | .force :: l, p => by
    simp only [NBody.runWith, forceOf, vecOf_ofFn]
    exact runWith_phase fac F q l (p.1, p.2.1, F p.1)
  | .kick ai af ar :: l, p => by
    simp only [NBody.runWith, NBody.kick, zipWith_ofFn]
    have := runWith_phase fac F q l (p.1, p.2.1 + fac.K ai af ar • p.2.2, p.2.2)
    rw [show (fun i => p.2.1 i + p.2.2 i * fac.K ai af ar) = p.2.1 + fac.K ai af ar • p.2.2 from funext fun i => by simp [mul_comm]]
    exact this
  | .drift ai af ar :: l, p => by
    simp only [NBody.runWith, NBody.drift, zipWith_ofFn]
    have := runWith_phase fac F q l (p.1 + fac.D ai af ar • p.2.1, p.2.1, p.2.2)
    rw [show (fun i => p.1 i + p.2.1 i * fac.D ai af ar) = p.1 + fac.D ai af ar • p.2.1 from funext fun i => by simp [mul_comm]]
    exact this

/-- **C93**, symplectic.  If the derivative of the force is symmetric everywhere, as that of every gradient, then each scheme, with any factors and
times, maps phase space by a differentiable map whose derivatives keep the symplectic form. -/
theorem C93_symplectic {n : ℕ} (fac : Factors) (F : (Fin n → ℝ) → Fin n → ℝ) (F' : (Fin n → ℝ) → (Fin n → ℝ) →L[ℝ] (Fin n → ℝ))
    (hF : ∀ x, HasFDerivAt F (F' x) x) (hsym : ∀ x u u', ∑ i, F' x u i * u' i = ∑ i, u i * F' x u' i)
    (scheme : List ℝ → List NbOp) (hs : scheme ∈ nbSchemes) (times : List ℝ) (q : List ℝ) (T : (Fin n → ℝ) × (Fin n → ℝ) → (Fin n → ℝ) × (Fin n → ℝ))
    (hT : ∀ z, (NBody.runWith fac (forceOf F) (scheme times) ⟨q, List.ofFn z.1, List.ofFn z.2, []⟩).state = (q, List.ofFn (T z).1, List.ofFn (T z).2)) (z) :
    ∃ T' : (Fin n → ℝ) × (Fin n → ℝ) →L[ℝ] (Fin n → ℝ) × (Fin n → ℝ), HasFDerivAt T T' z ∧ ∀ u u', sympForm (T' u) (T' u') = sympForm u u' := by
  obtain ⟨l, hl, hf⟩ := freshKicks_scheme scheme hs times
  obtain ⟨G, hG, hrun⟩ := phaseRun_good fac F (fun T => ∀ z, ∃ T' : (Fin n → ℝ) × (Fin n → ℝ) →L[ℝ] (Fin n → ℝ) × (Fin n → ℝ), HasFDerivAt T T' z ∧ ∀ u u', sympForm (T' u) (T' u') = sympForm u u')
    (fun z => ⟨ContinuousLinearMap.id ℝ _, hasFDerivAt_id z, fun _ _ => rfl⟩)
    (fun f g hf hg z => by
      obtain ⟨f', h1, h2⟩ := hf z
      obtain ⟨g', h3, h4⟩ := hg (f z)
      exact ⟨g'.comp f', h3.comp z h1, fun u u' => by rw [ContinuousLinearMap.comp_apply, ContinuousLinearMap.comp_apply, h4, h2]⟩)
    (fun c z => by
      refine ⟨_, hasFDerivAt_fst.prodMk (hasFDerivAt_snd.add (((hF z.1).comp z hasFDerivAt_fst).const_smul c)), fun u u' => ?_⟩
      have hc := hsym z.1 u.1 u'.1
      rw [← sub_eq_zero, ← Finset.sum_sub_distrib] at hc
      rw [← sub_eq_zero]
      unfold sympForm
      rw [← Finset.sum_sub_distrib]
      calc _ = ∑ i, -c * (F' z.1 u.1 i * u'.1 i - u.1 i * F' z.1 u'.1 i) := by
            apply Finset.sum_congr rfl
            intro i _
            simp
            ring
        _ = 0 := by rw [← Finset.mul_sum, hc, mul_zero])
    (fun c z => by
      refine ⟨_, (hasFDerivAt_fst.add (hasFDerivAt_snd.const_smul c)).prodMk hasFDerivAt_snd, fun u u' => ?_⟩
      unfold sympForm
      apply Finset.sum_congr rfl
      intro i _
      simp
      ring) l true hf
  have : T = G := by
    funext z
    have h1 := hT z
    rw [hl] at h1
    have h2 := runWith_phase fac F q l (z.1, z.2, F z.1)
    simp only [NBody.runWith, forceOf, vecOf_ofFn] at h1
    rw [show NBody.runWith fac (forceOf F) l ⟨q, List.ofFn z.1, List.ofFn z.2, List.ofFn (F z.1)⟩ = _ from h2] at h1
    obtain ⟨e1, e2⟩ := hrun z.1 z.2 (F z.1) fun _ => rfl
    simp only [NBody.state, Prod.mk.injEq, e1, e2, List.ofFn_inj] at h1
    exact Prod.ext h1.2.1.symm h1.2.2.symm
  rw [this]
  exact hG z

/-! ## Non-vacuity -/

/-- The map that the hypothesis of `C93_symplectic` names exists. -/
theorem runWith_map {n : ℕ} (fac : Factors) (F : (Fin n → ℝ) → Fin n → ℝ) (scheme : List ℝ → List NbOp) (hs : scheme ∈ nbSchemes) (times q : List ℝ) :
    ∃ T : (Fin n → ℝ) × (Fin n → ℝ) → (Fin n → ℝ) × (Fin n → ℝ), ∀ z,
      (NBody.runWith fac (forceOf F) (scheme times) ⟨q, List.ofFn z.1, List.ofFn z.2, []⟩).state = (q, List.ofFn (T z).1, List.ofFn (T z).2) := by
  obtain ⟨l, hl, -⟩ := freshKicks_scheme scheme hs times
  refine ⟨fun z => ((phaseRun fac F l (z.1, z.2, F z.1)).1, (phaseRun fac F l (z.1, z.2, F z.1)).2.1), fun z => ?_⟩
  rw [hl]
  simp only [NBody.runWith, forceOf, vecOf_ofFn]
  exact congrArg NBody.state (runWith_phase fac F q l (z.1, z.2, F z.1))

/-- All windows of the library are measurable. -/
theorem tuned_measurable (t : Tuned) : Measurable (Tuned.kern t : Kern ℝ).kernel := by
  have hb : Measurable fun x : ℝ => |x| := measurable_norm
  cases t
  · exact Measurable.ite ((measurableSet_lt measurable_id measurable_const).inter (measurableSet_le measurable_const measurable_id)) measurable_const measurable_const
  · exact Measurable.ite (measurableSet_lt hb measurable_const) (hb.const_sub _) measurable_const
  · exact Measurable.ite (measurableSet_le hb measurable_const) (by fun_prop) (Measurable.ite (measurableSet_lt hb measurable_const) (by fun_prop) measurable_const)
  · exact Measurable.ite (measurableSet_lt hb measurable_const) (by fun_prop) (Measurable.ite (measurableSet_lt hb measurable_const) (by fun_prop) measurable_const)

theorem exWinR_measurable : Measurable exWinR.kern.kernel := by
  obtain ⟨t, ht⟩ : ∃ t, exWinR.tuned = some t := ⟨_, rfl⟩
  rw [exWinR_valid.tuned_kern t ht]
  exact tuned_measurable t

/-- Three particles on two ranks. -/
example (pt : Growth) (Q : Fin 3 → Fin 3 → ℝ) := C93_volume_partial exWinR exWinR_valid exWinR_measurable (3 / 10) (fastPM pt) exMachine2 exMachine2_ok symp3
  (by simp [nbSchemes]) [1 / 10, 1 / 2, 1] 3 Q fun r => if r = 0 then [0, 2] else [1]

/-- Two particles on a line that attract each other with a force that is not linear. -/
example : ∃ (F : (Fin 2 → ℝ) → Fin 2 → ℝ) (F' : (Fin 2 → ℝ) → (Fin 2 → ℝ) →L[ℝ] (Fin 2 → ℝ)), (∀ x, HasFDerivAt F (F' x) x) ∧
    (∀ x u u', ∑ i, F' x u i * u' i = ∑ i, u i * F' x u' i) ∧ F ![0, 2] = ![8, -8] := by
  obtain ⟨p, hp⟩ : ∃ p : (Fin 2 → ℝ) →L[ℝ] ℝ, p = ContinuousLinearMap.proj (R := ℝ) (φ := fun _ : Fin 2 => ℝ) 1 -
      ContinuousLinearMap.proj (R := ℝ) (φ := fun _ : Fin 2 => ℝ) 0 := ⟨_, rfl⟩
  have h0 : ∀ x, HasFDerivAt (fun x : Fin 2 → ℝ => (x 1 - x 0) ^ 3) ((3 * (x 1 - x 0) ^ 2) • p) x := by
    intro x
    have h := ((hasFDerivAt_apply (𝕜 := ℝ) (F' := fun _ : Fin 2 => ℝ) 1 x).sub (hasFDerivAt_apply (𝕜 := ℝ) (F' := fun _ : Fin 2 => ℝ) 0 x)).pow 3
    rw [hp]
    simpa using h
  refine ⟨fun x => ![(x 1 - x 0) ^ 3, -(x 1 - x 0) ^ 3], fun x => ContinuousLinearMap.pi ![(3 * (x 1 - x 0) ^ 2) • p, -((3 * (x 1 - x 0) ^ 2) • p)], ?_, ?_, ?_⟩
  · intro x
    rw [hasFDerivAt_pi']
    intro i
    fin_cases i
    · exact h0 x
    · exact (h0 x).neg
  · intro x u u'
    simp [Fin.sum_univ_two, hp]
    ring
  · ext i
    fin_cases i <;> norm_num

#print axioms C93_volume_partial
#print axioms C93_symplectic

end Pmesh
