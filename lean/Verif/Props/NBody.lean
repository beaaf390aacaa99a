import Verif.Spec.NBody
import Verif.Lemmas.NBody
import Verif.Props.Conserved

/-!
# C87: the N-body program of the examples

`examples/nbody.py`: three schemes of kicks and drifts, seven classes of factors.
-/

namespace Pmesh

section
variable {w : Resampler ℝ} (hw : w.Valid)

theorem scheme_force {scheme : List ℝ → List NbOp} (h : scheme ∈ nbSchemes) (times : List ℝ) : ∃ l, scheme times = .force :: l := by
  simp only [nbSchemes, List.mem_cons, List.not_mem_nil, or_false] at h
  rcases h with rfl | rfl | rfl <;> exact ⟨_, rfl⟩

theorem sane_of_all {a : Machine} {s : ℕ → List NBody} {n : ℕ} (h : ∀ b ∈ a.all s, b.Sane n) : ∀ r < a.m.nrank, ∀ b ∈ s r, b.Sane n :=
  fun r hr b hb => h b (List.mem_flatMap.2 ⟨r, List.mem_range.2 hr, hb⟩)

/-- **C87**, ranks.  Two runs of a scheme on any numbers of ranks, with the same mesh, box and particles (on whatever ranks, in whatever order):
both complete on all ranks, and each particle, on the rank and at the place where it was, ends as `trajectory` says, which is the same for both.
Partial: the restrictions of `C23_paint_partial` on the decomposition. -/
theorem C87_ranks_partial (w : Resampler ℝ) (hw : w.Valid) (om : ℝ) (fac : Factors) (scheme : List ℝ → List NbOp) (hscheme : scheme ∈ nbSchemes)
    (times : List ℝ) (a b : Machine) (ha : a.OK w) (hb : b.OK w) (hn : a.m.nmesh = b.m.nmesh) (hbox : a.m.box = b.m.box)
    (hst : a.t.cshape = b.t.cshape) (s t : ℕ → List NBody) (hx : ∀ q ∈ a.all s, q.Sane a.m.nmesh.length) (hsame : (a.all s).Perm (b.all t)) :
    ∃ trajectory : NBody → NBody,
      (∃ s', a.NbRun w om fac (scheme times) s s') ∧ (∃ t', b.NbRun w om fac (scheme times) t t') ∧
      (∀ s', a.NbRun w om fac (scheme times) s s' → ∀ r < a.m.nrank, s' r = (s r).map trajectory) ∧
      ∀ t', b.NbRun w om fac (scheme times) t t' → ∀ r < b.m.nrank, t' r = (t r).map trajectory := by
  obtain ⟨l, hl⟩ := scheme_force hscheme times
  rw [hl]
  have hxb : ∀ q ∈ b.all t, q.Sane b.m.nmesh.length := fun q hq => by rw [← hn]; exact hx q (hsame.mem_iff.2 hq)
  obtain ⟨h1, h2⟩ := nbRun_force hw ha om fac l s (sane_of_all hx)
  obtain ⟨h3, h4⟩ := nbRun_force hw hb om fac l t (sane_of_all hxb)
  refine ⟨_, h1, h3, h2, ?_⟩
  rw [nbTraj_eq hn hbox a.t.cshape w om fac (.force :: l) hsame, hst]
  exact h4

/-! ## Momentum -/

theorem forceTransfer_re (nmesh : List ℕ) (box : List ℝ) (d : ℕ) (k : List ℕ) : (forceTransfer nmesh box d k).re = 0 := by
  unfold forceTransfer
  simp only
  rw [Complex.div_ofReal_re, Complex.mul_re]
  simp only [Complex.I_re, zero_mul, Complex.ofReal_im, mul_zero, sub_zero, zero_div]

theorem nbForceAt_sum {m : PMesh ℝ} (hm : m.OK) {cshape : List ℕ} (hs : StoredShape m.nmesh cshape) (w : Resampler ℝ) (om : ℝ) (L : List NBody)
    (d : ℕ) : (L.map fun b => nbForceAt m cshape w om L b.x d).sum = 0 := by
  rcases eq_or_ne L [] with rfl | hL
  · rfl
  have h := bodyRead_sum hm hs w (nbSys (nbFac m L)) L (forceTransfer m.nmesh m.box d) fun k _ => forceTransfer_re _ _ _ _
  have hfac : nbFac m L ≠ 0 := by
    unfold nbFac
    have h1 : (m.nmesh.prod : ℝ) ≠ 0 := by
      exact_mod_cast (List.prod_pos (nmesh_pos' hm)).ne'
    have h2 : (L.length : ℝ) ≠ 0 := by simpa using hL
    exact div_ne_zero (mul_ne_zero (by norm_num) h1) h2
  unfold nbForceAt
  rw [sum_cmul]
  have : (L.map fun b => nbFac m L * bodyRead m cshape w (fun k => forceTransfer m.nmesh m.box d k *
    r2c m.nmesh (densAt m w (nbSys (nbFac m L)) L) k) b.x).sum = 0 := h
  rw [sum_cmul] at this
  rw [(mul_eq_zero.1 this).resolve_left hfac, mul_zero]

theorem nbOp_momentum {m : PMesh ℝ} (hm : m.OK) {cshape : List ℕ} (hs : StoredShape m.nmesh cshape) (w : Resampler ℝ) (om : ℝ) (fac : Factors)
    (op : NbOp) (L : List NBody) (hL : ∀ b ∈ L, b.Sane m.nmesh.length)
    (hf : op ≠ .force → ∀ b ∈ L, b.f.length = m.nmesh.length) (d : ℕ) (hd : d < m.nmesh.length)
    (hz : op ≠ .force → (L.map fun b => b.f.getD d 0).sum = 0) :
    ((L.map (nbOp m cshape w om fac L op)).map fun b => b.f.getD d 0).sum = 0 ∧
    ((L.map (nbOp m cshape w om fac L op)).map fun b => b.v.getD d 0).sum = (L.map fun b => b.v.getD d 0).sum := by
  rw [List.map_map, List.map_map]
  cases op with
  | force =>
    refine ⟨?_, rfl⟩
    rw [← nbForceAt_sum hm hs w om L d]
    congr 1
    apply List.map_congr_left
    intro b _
    simp [nbOp, hd]
  | kick ai af ar =>
    refine ⟨hz (by simp), ?_⟩
    have e : (L.map ((fun b => b.v.getD d 0) ∘ nbOp m cshape w om fac L (.kick ai af ar))).sum =
        (L.map fun b => b.v.getD d 0 + b.f.getD d 0 * fac.K ai af ar).sum := by
      congr 1
      apply List.map_congr_left
      intro b hb
      have h1 : d < b.v.length := by rw [(hL b hb).v]; exact hd
      have h2 : d < b.f.length := by rw [hf (by simp) b hb]; exact hd
      simp [nbOp, NBody.kick, h1, h2]
    rw [e, List.sum_map_add, sum_mulc, hz (by simp), zero_mul, add_zero]
  | drift ai af ar => exact ⟨hz (by simp), rfl⟩

theorem nbTraj_momentum {m : PMesh ℝ} (hm : m.OK) {cshape : List ℕ} (hs : StoredShape m.nmesh cshape) (w : Resampler ℝ) (om : ℝ) (fac : Factors)
    (l : List NbOp) (d : ℕ) (hd : d < m.nmesh.length) : ∀ (L : List NBody), (∀ b ∈ L, b.Sane m.nmesh.length) →
    (∀ b ∈ L, b.f.length = m.nmesh.length) → (L.map fun b => b.f.getD d 0).sum = 0 →
    ((L.map (nbTraj m cshape w om fac l L)).map fun b => b.v.getD d 0).sum = (L.map fun b => b.v.getD d 0).sum := by
  induction l with
  | nil =>
    intro L _ _ _
    rw [List.map_map]
    rfl
  | cons op l ih =>
    intro L h1 h2 h3
    obtain ⟨e1, e2⟩ := nbOp_momentum hm hs w om fac op L h1 (fun _ => h2) d hd fun _ => h3
    rw [← e2, ← ih (L.map (nbOp m cshape w om fac L op)) (fun b hb => ?_) (fun b hb => ?_) e1, List.map_map, List.map_map, List.map_map]
    · rfl
    · obtain ⟨b', hb', rfl⟩ := List.mem_map.1 hb
      exact (nbOp_ready om m cshape fac L op b' (h1 b' hb') (h2 b' hb')).1
    · obtain ⟨b', hb', rfl⟩ := List.mem_map.1 hb
      exact (nbOp_ready om m cshape fac L op b' (h1 b' hb') (h2 b' hb')).2

/-- **C87**, momentum.  Each of the schemes, with any factors and any times, conserves the sum of `V` over the particles of all ranks exactly.
Partial: the restrictions of `C23_paint_partial` on the decomposition. -/
theorem C87_momentum_partial (w : Resampler ℝ) (hw : w.Valid) (om : ℝ) (fac : Factors) (scheme : List ℝ → List NbOp) (hscheme : scheme ∈ nbSchemes)
    (times : List ℝ) (a : Machine) (ha : a.OK w) (s : ℕ → List NBody) (hx : ∀ q ∈ a.all s, q.Sane a.m.nmesh.length) :
    (∃ s', a.NbRun w om fac (scheme times) s s') ∧ ∀ s', a.NbRun w om fac (scheme times) s s' → ∀ d < a.m.nmesh.length,
      ((a.all s').map fun b => b.v.getD d 0).sum = ((a.all s).map fun b => b.v.getD d 0).sum := by
  obtain ⟨l, hl⟩ := scheme_force hscheme times
  rw [hl]
  obtain ⟨h1, h2⟩ := nbRun_force hw ha om fac l s (sane_of_all hx)
  refine ⟨h1, fun s' hs' d hd => ?_⟩
  have hst : StoredShape a.m.nmesh a.t.cshape := by rw [← ha.modes_mesh]; exact ha.storage
  rw [nbAll_map a s s' _ (h2 s' hs')]
  obtain ⟨e1, e2⟩ := nbOp_momentum ha.mesh hst w om fac .force (a.all s) hx (fun h => absurd rfl h) d hd fun h => absurd rfl h
  rw [← e2, ← nbTraj_momentum ha.mesh hst w om fac l d hd _ (fun b hb => ?_) (fun b hb => ?_) e1, List.map_map, List.map_map, List.map_map]
  · rfl
  · obtain ⟨b', hb', rfl⟩ := List.mem_map.1 hb
    exact (nbOp_force_ready om a.m _ fac _ b' (hx b' hb')).1
  · obtain ⟨b', hb', rfl⟩ := List.mem_map.1 hb
    exact (nbOp_force_ready om a.m _ fac _ b' (hx b' hb')).2

/-! ## Clocks -/

theorem stepPairs_cons (a b : ℝ) (l : List ℝ) : stepPairs (a :: b :: l) = (a, b) :: stepPairs (b :: l) := rfl

/-- **C87**, clocks.  In each scheme, for any times, every kick goes on from the time that the velocities have reached and refers to the time of the
positions at which the force was computed, every drift goes on from the time that the positions have reached and refers to the time of the
velocities, and at the end positions and velocities are both at the last time. -/
theorem C87_clocks (scheme : List ℝ → List NbOp) (hscheme : scheme ∈ nbSchemes) (t0 : ℝ) (times : List ℝ) :
    Clocked (scheme (t0 :: times)) t0 t0 none ((t0 :: times).getLast (List.cons_ne_nil _ _)) ((t0 :: times).getLast (List.cons_ne_nil _ _)) := by
  simp only [nbSchemes, List.mem_cons, List.not_mem_nil, or_false] at hscheme
  rcases hscheme with rfl | rfl | rfl
  · show Clocked _ t0 t0 (some t0) _ _
    induction times generalizing t0 with
    | nil => exact ⟨rfl, rfl⟩
    | cons t1 times ih =>
      rw [stepPairs_cons]
      exact ⟨rfl, rfl, rfl, rfl, ih t1⟩
  · show Clocked _ t0 t0 (some t0) _ _
    induction times generalizing t0 with
    | nil => exact ⟨rfl, rfl⟩
    | cons t1 times ih =>
      rw [stepPairs_cons]
      exact ⟨rfl, rfl, rfl, rfl, rfl, rfl, ih t1⟩
  · show Clocked _ t0 t0 (some t0) _ _
    induction times generalizing t0 with
    | nil => exact ⟨rfl, rfl⟩
    | cons t1 times ih =>
      rw [stepPairs_cons]
      exact ⟨rfl, rfl, rfl, rfl, rfl, rfl, rfl, rfl, rfl, rfl, rfl, rfl, ih t1⟩

theorem clocked_total (fac : Factors) (A B : ℝ → ℝ) (hA : ∀ ai af ar, fac.K ai af ar = A af - A ai) (hB : ∀ ai af ar, fac.D ai af ar = B af - B ai)
    (l : List NbOp) : ∀ {x v : ℝ} {f : Option ℝ} {xe ve : ℝ}, Clocked l x v f xe ve →
    (l.map fac.kickOf).sum = A ve - A v ∧ (l.map fac.driftOf).sum = B xe - B x := by
  induction l with
  | nil =>
    rintro x v f xe ve ⟨rfl, rfl⟩
    simp
  | cons op l ih =>
    intro x v f xe ve h
    cases op with
    | force =>
      have := ih (x := x) (v := v) h
      simpa [Factors.kickOf, Factors.driftOf] using this
    | kick ai af ar =>
      obtain ⟨rfl, -, h⟩ := h
      obtain ⟨h1, h2⟩ := ih h
      simp [Factors.kickOf, Factors.driftOf, h1, h2, hA]
    | drift ai af ar =>
      obtain ⟨rfl, -, h⟩ := h
      obtain ⟨h1, h2⟩ := ih h
      simp [Factors.kickOf, Factors.driftOf, h1, h2, hB]

/-- **C87**, totals.  With factors that are differences of functions of time (as the integrals of class `Quinn`), the kicks of a run add up to the
factor of the whole time, however it is divided into steps, and so do the drifts. -/
theorem C87_totals (fac : Factors) (A B : ℝ → ℝ) (hA : ∀ ai af ar, fac.K ai af ar = A af - A ai) (hB : ∀ ai af ar, fac.D ai af ar = B af - B ai)
    (scheme : List ℝ → List NbOp) (hscheme : scheme ∈ nbSchemes) (t0 : ℝ) (times : List ℝ) :
    ((scheme (t0 :: times)).map fac.kickOf).sum = A ((t0 :: times).getLast (List.cons_ne_nil _ _)) - A t0 ∧
    ((scheme (t0 :: times)).map fac.driftOf).sum = B ((t0 :: times).getLast (List.cons_ne_nil _ _)) - B t0 :=
  clocked_total fac A B hA hB _ (C87_clocks scheme hscheme t0 times)

/-! ## Going back -/

/-- **C87**, factors.  All seven classes change their sign when the interval is reversed. -/
theorem C87_odd (pt : Growth) : ∀ fac ∈ nbFactors pt, fac.Odd := by
  intro fac h
  simp only [nbFactors, List.mem_cons, List.not_mem_nil, or_false] at h
  have hq : ∀ (g : ℝ → ℝ) (x y : ℝ), (∫ a in y..x, g a) = -∫ a in x..y, g a := fun g x y => intervalIntegral.integral_symm x y
  rcases h with rfl | rfl | rfl | rfl | rfl | rfl | rfl <;> constructor <;> intro ai af ar <;>
    simp only [fastPM, fastPM1, fastPM2, quinn, tve, vte, naive, kickFast, driftFast, kickQuad, driftQuad]
  all_goals first
    | exact hq _ _ _
    | rw [hq, mul_neg]
    | rw [← neg_sub, mul_neg, neg_div]
    | rw [← neg_sub, mul_neg]

theorem nbTraj_append (m : PMesh ℝ) (cshape : List ℕ) (w : Resampler ℝ) (om : ℝ) (fac : Factors) (l l' : List NbOp) : ∀ (L : List NBody) (b : NBody),
    nbTraj m cshape w om fac (l ++ l') L b =
      nbTraj m cshape w om fac l' (L.map (nbTraj m cshape w om fac l L)) (nbTraj m cshape w om fac l L b) := by
  induction l with
  | nil =>
    intro L b
    show nbTraj m cshape w om fac l' L b = nbTraj m cshape w om fac l' (L.map id) b
    rw [List.map_id]
  | cons op l ih =>
    intro L b
    show nbTraj m cshape w om fac (l ++ l') _ _ = _
    rw [ih, List.map_map]
    rfl

theorem nbForceAt_pos (m : PMesh ℝ) (cshape : List ℕ) (w : Resampler ℝ) (om : ℝ) {L L' : List NBody} (h : L.map NBody.x = L'.map NBody.x) :
    nbForceAt m cshape w om L = nbForceAt m cshape w om L' := by
  have hl : L.length = L'.length := by simpa using congrArg List.length h
  have hfac : nbFac m L = nbFac m L' := by unfold nbFac; rw [hl]
  have e : densAt m w (nbSys (nbFac m L)) L = densAt m w (nbSys (nbFac m L')) L' := by
    funext g
    unfold densAt nbSys
    simp only
    rw [hfac]
    have := congrArg (fun l : List (List ℝ) => (l.map fun x => nbFac m L' * m.weightAt w x g).sum) h
    simpa [List.map_map, Function.comp_def] using this
  funext y d
  unfold nbForceAt
  rw [e]

theorem zipWith_undo (c : ℝ) : ∀ (v f : List ℝ), v.length = f.length →
    List.zipWith (fun v f => v + f * -c) (List.zipWith (fun v f => v + f * c) v f) f = v
  | [], [], _ => rfl
  | v :: vs, f :: fs, h => by
    simp only [List.zipWith_cons_cons]
    rw [zipWith_undo c vs fs (by simpa using h)]
    congr 1
    ring

/-- All rows are there, and the forces are those of the positions. -/
structure Fresh (m : PMesh ℝ) (cshape : List ℕ) (w : Resampler ℝ) (om : ℝ) (L : List NBody) : Prop where
  sane : ∀ b ∈ L, b.Sane m.nmesh.length
  force : ∀ b ∈ L, b.f = (List.range m.nmesh.length).map fun d => nbForceAt m cshape w om L b.x d

/-- One step of `symp2`. -/
noncomputable def symp2Step (p : ℝ × ℝ) : List NbOp :=
  [.kick p.1 (Real.sqrt (p.1 * p.2)) p.1, .drift p.1 p.2 (Real.sqrt (p.1 * p.2)), .force, .kick (Real.sqrt (p.1 * p.2)) p.2 p.2]

theorem symp2_eq (times : List ℝ) : symp2 times = .force :: (stepPairs times).flatMap symp2Step := rfl

theorem kickDrift_traj (m : PMesh ℝ) (cshape : List ℕ) (w : Resampler ℝ) (om : ℝ) (fac : Factors) (x1 x2 x3 y1 y2 y3 z1 z2 z3 : ℝ) (L : List NBody)
    (b : NBody) : nbTraj m cshape w om fac [.kick x1 x2 x3, .drift y1 y2 y3, .force, .kick z1 z2 z3] L b =
      NBody.kick (fac.K z1 z2 z3) { (b.kick (fac.K x1 x2 x3)).drift (fac.D y1 y2 y3) with f := ((List.range m.nmesh.length).map fun d =>
        nbForceAt m cshape w om (L.map fun b => (b.kick (fac.K x1 x2 x3)).drift (fac.D y1 y2 y3))
          ((b.kick (fac.K x1 x2 x3)).drift (fac.D y1 y2 y3)).x d) } := by
  have h1 : ∀ (L : List NBody) x y z, nbOp m cshape w om fac L (.kick x y z) = NBody.kick (fac.K x y z) := fun _ _ _ _ => rfl
  have h2 : ∀ (L : List NBody) x y z, nbOp m cshape w om fac L (.drift x y z) = NBody.drift (fac.D x y z) := fun _ _ _ _ => rfl
  simp only [nbTraj, h1, h2, List.map_map]
  rfl

theorem symp2Step_undo (m : PMesh ℝ) (cshape : List ℕ) (w : Resampler ℝ) (om : ℝ) (fac : Factors) (hodd : fac.Odd) (x y : ℝ) (L : List NBody)
    (hL : Fresh m cshape w om L) :
    Fresh m cshape w om (L.map (nbTraj m cshape w om fac (symp2Step (x, y)) L)) ∧
    ∀ b ∈ L, nbTraj m cshape w om fac (symp2Step (y, x)) (L.map (nbTraj m cshape w om fac (symp2Step (x, y)) L))
      (nbTraj m cshape w om fac (symp2Step (x, y)) L b) = b := by
  obtain ⟨c, hc⟩ : ∃ c, c = Real.sqrt (x * y) := ⟨_, rfl⟩
  obtain ⟨k1, hk1⟩ : ∃ k, k = fac.K x c x := ⟨_, rfl⟩
  obtain ⟨k2, hk2⟩ : ∃ k, k = fac.K c y y := ⟨_, rfl⟩
  obtain ⟨e, he⟩ : ∃ k, k = fac.D x y c := ⟨_, rfl⟩
  obtain ⟨mid, hmid⟩ : ∃ mid : NBody → NBody, mid = fun b => (b.kick k1).drift e := ⟨_, rfl⟩
  obtain ⟨G, hG⟩ : ∃ G, G = nbForceAt m cshape w om (L.map mid) := ⟨_, rfl⟩
  -- forth
  have forth : ∀ b, nbTraj m cshape w om fac (symp2Step (x, y)) L b =
      { mid b with f := (List.range m.nmesh.length).map fun d => G (mid b).x d }.kick k2 := by
    intro b
    rw [symp2Step, kickDrift_traj]
    simp only [← hc, ← hk1, ← hk2, ← he]
    rw [hG, hmid]
  have hx : ∀ b, (nbTraj m cshape w om fac (symp2Step (x, y)) L b).x = (mid b).x := fun b => by rw [forth]; rfl
  have hpos : (L.map (nbTraj m cshape w om fac (symp2Step (x, y)) L)).map NBody.x = (L.map mid).map NBody.x := by
    rw [List.map_map, List.map_map]
    exact List.map_congr_left fun b _ => hx b
  have hfl : ∀ b ∈ L, b.f.length = m.nmesh.length := fun b hb => by rw [hL.force b hb]; simp
  constructor
  · constructor
    · intro b' hb'
      obtain ⟨b, hb, rfl⟩ := List.mem_map.1 hb'
      rw [forth, hmid]
      have hs := hL.sane b hb
      refine ⟨hs.q, ?_, ?_⟩
      · simp [NBody.kick, NBody.drift, hs.s, hs.v, hfl b hb]
      · simp [NBody.kick, NBody.drift, hs.v, hfl b hb]
    · intro b' hb'
      obtain ⟨b, hb, rfl⟩ := List.mem_map.1 hb'
      rw [nbForceAt_pos m cshape w om hpos, ← hG, hx, forth]
      rfl
  · intro b hb
    have hs := hL.sane b hb
    obtain ⟨L', hL'⟩ : ∃ L', L' = L.map (nbTraj m cshape w om fac (symp2Step (x, y)) L) := ⟨_, rfl⟩
    -- back to the middle
    have back1 : ∀ b ∈ L, ((nbTraj m cshape w om fac (symp2Step (x, y)) L b).kick (-k2)).drift (-e) =
        { b.kick k1 with f := (List.range m.nmesh.length).map fun d => G (mid b).x d } := by
      intro b hb
      have hs := hL.sane b hb
      rw [forth, hmid]
      simp only [NBody.kick, NBody.drift]
      have h1 : (List.zipWith (fun v f => v + f * k1) b.v b.f).length = m.nmesh.length := by simp [hs.v, hfl b hb]
      rw [zipWith_undo k2 _ _ (by rw [h1]; simp), zipWith_undo e _ _ (by rw [h1, hs.s])]
    have hbackx : (L'.map fun b => (b.kick (-k2)).drift (-e)).map NBody.x = L.map NBody.x := by
      rw [hL', List.map_map, List.map_map]
      apply List.map_congr_left
      intro b hb
      simp only [Function.comp_apply]
      rw [back1 b hb]
      rfl
    have hK1 : fac.K y c y = -k2 := by rw [hodd.K, hk2]
    have hK2 : fac.K c x x = -k1 := by rw [hodd.K, hk1]
    have hD : fac.D y x c = -e := by rw [hodd.D, he]
    rw [← hL']
    rw [symp2Step, kickDrift_traj]
    simp only [mul_comm y x, ← hc, hK1, hK2, hD]
    rw [nbForceAt_pos m cshape w om (L := L'.map fun b => (b.kick (-k2)).drift (-e)) (L' := L) hbackx, back1 b hb]
    simp only [NBody.kick]
    have : NBody.x ⟨b.q, b.s, List.zipWith (fun v f => v + f * k1) b.v b.f, (List.range m.nmesh.length).map fun d => G (mid b).x d⟩ = b.x := rfl
    rw [this, ← hL.force b hb, zipWith_undo k1 _ _ (by rw [hs.v, hfl b hb])]

theorem stepPairs_snoc (a b : ℝ) : ∀ l : List ℝ, stepPairs (l ++ [b, a]) = stepPairs (l ++ [b]) ++ [(b, a)]
  | [] => rfl
  | [_] => rfl
  | c :: c' :: l => by
    have := stepPairs_snoc a b (c' :: l)
    simp only [List.cons_append, stepPairs_cons] at this ⊢
    rw [this]

theorem symp2_undo (m : PMesh ℝ) (cshape : List ℕ) (w : Resampler ℝ) (om : ℝ) (fac : Factors) (hodd : fac.Odd) : ∀ (times : List ℝ) (L : List NBody),
    Fresh m cshape w om L →
    Fresh m cshape w om (L.map (nbTraj m cshape w om fac ((stepPairs times).flatMap symp2Step) L)) ∧
    ∀ b ∈ L, nbTraj m cshape w om fac ((stepPairs times.reverse).flatMap symp2Step)
      (L.map (nbTraj m cshape w om fac ((stepPairs times).flatMap symp2Step) L))
      (nbTraj m cshape w om fac ((stepPairs times).flatMap symp2Step) L b) = b
  | [], L, hL => by
    have : L.map (nbTraj m cshape w om fac ((stepPairs []).flatMap symp2Step) L) = L := List.map_id L
    rw [this]
    exact ⟨hL, fun b _ => rfl⟩
  | [x], L, hL => by
    have : L.map (nbTraj m cshape w om fac ((stepPairs [x]).flatMap symp2Step) L) = L := List.map_id L
    rw [this]
    exact ⟨hL, fun b _ => rfl⟩
  | x :: y :: l, L, hL => by
    obtain ⟨f1, hf1⟩ : ∃ f, f = nbTraj m cshape w om fac (symp2Step (x, y)) L := ⟨_, rfl⟩
    obtain ⟨u1, u2⟩ := symp2Step_undo m cshape w om fac hodd x y L hL
    rw [← hf1] at u1 u2
    obtain ⟨L1, hL1⟩ : ∃ L1, L1 = L.map f1 := ⟨_, rfl⟩
    rw [← hL1] at u1 u2
    obtain ⟨i1, i2⟩ := symp2_undo m cshape w om fac hodd (y :: l) L1 u1
    obtain ⟨f2, hf2⟩ : ∃ f, f = nbTraj m cshape w om fac ((stepPairs (y :: l)).flatMap symp2Step) L1 := ⟨_, rfl⟩
    rw [← hf2] at i1 i2
    have hforth : nbTraj m cshape w om fac ((stepPairs (x :: y :: l)).flatMap symp2Step) L = fun b => f2 (f1 b) := by
      funext b
      rw [stepPairs_cons, List.flatMap_cons, nbTraj_append, ← hf1, ← hL1, ← hf2]
    have hall : L.map (fun b => f2 (f1 b)) = L1.map f2 := by rw [hL1, List.map_map]; rfl
    rw [hforth, hall]
    refine ⟨i1, fun b hb => ?_⟩
    have hmem : f1 b ∈ L1 := by rw [hL1]; exact List.mem_map_of_mem hb
    have hrev : (x :: y :: l).reverse = l.reverse ++ [y, x] := by simp
    rw [hrev, stepPairs_snoc, List.flatMap_append, nbTraj_append]
    rw [List.reverse_cons] at i2
    rw [i2 _ hmem]
    have hback : (L1.map f2).map (nbTraj m cshape w om fac ((stepPairs (l.reverse ++ [y])).flatMap symp2Step) (L1.map f2)) = L1 := by
      rw [List.map_map]
      exact (List.map_congr_left fun b hb => i2 b hb).trans (List.map_id _)
    rw [hback]
    have : [(y, x)].flatMap symp2Step = symp2Step (y, x) := by simp
    rw [this]
    exact u2 b hb

/-- **C87**, going back.  `symp2` is exactly reversible: a run over the times and then a run over the times in the reverse order bring the particles
of all ranks back to the `Q`, `S` and `V` from which they began, for all factors that are odd (all seven classes are, `C87_odd`).
Partial: the restrictions of `C23_paint_partial` on the decomposition. -/
theorem C87_reversible_partial (w : Resampler ℝ) (hw : w.Valid) (om : ℝ) (fac : Factors) (hodd : fac.Odd) (times : List ℝ)
    (a : Machine) (ha : a.OK w) (s : ℕ → List NBody) (hx : ∀ q ∈ a.all s, q.Sane a.m.nmesh.length) :
    (∃ s' s'', a.NbRun w om fac (symp2 times) s s' ∧ a.NbRun w om fac (symp2 times.reverse) s' s'') ∧
    ∀ s' s'', a.NbRun w om fac (symp2 times) s s' → a.NbRun w om fac (symp2 times.reverse) s' s'' →
      ∀ r < a.m.nrank, (s'' r).map NBody.state = (s r).map NBody.state := by
  obtain ⟨L, hL⟩ : ∃ L, L = a.all s := ⟨_, rfl⟩
  obtain ⟨fo, hfo⟩ : ∃ f, f = nbOp a.m a.t.cshape w om fac L .force := ⟨_, rfl⟩
  obtain ⟨h1, h2⟩ := nbRun_force hw ha om fac ((stepPairs times).flatMap symp2Step) s (sane_of_all hx)
  rw [← symp2_eq] at h1 h2
  have hx0 : (L.map fo).map NBody.x = L.map NBody.x := by
    rw [List.map_map, hfo]
    exact List.map_congr_left fun b _ => rfl
  have fresh : Fresh a.m a.t.cshape w om (L.map fo) := by
    constructor
    · intro b hb
      obtain ⟨b', hb', rfl⟩ := List.mem_map.1 hb
      rw [hfo]
      exact (nbOp_force_ready om a.m _ fac _ b' (hx b' (by rw [← hL]; exact hb'))).1
    · intro b hb
      rw [nbForceAt_pos a.m a.t.cshape w om hx0]
      obtain ⟨b', hb', rfl⟩ := List.mem_map.1 hb
      rw [hfo]
      rfl
  obtain ⟨g, hg⟩ : ∃ g, g = nbTraj a.m a.t.cshape w om fac ((stepPairs times).flatMap symp2Step) (L.map fo) := ⟨_, rfl⟩
  obtain ⟨i1, i2⟩ := symp2_undo a.m a.t.cshape w om fac hodd times (L.map fo) fresh
  rw [← hg] at i1 i2
  have hrun : ∀ s', a.NbRun w om fac (symp2 times) s s' → ∀ r < a.m.nrank, s' r = (s r).map fun b => g (fo b) := by
    intro s' hs' r hr
    rw [h2 s' hs' r hr, symp2_eq, hfo, hg, hfo, hL]
    rfl
  have hall : ∀ s', a.NbRun w om fac (symp2 times) s s' → a.all s' = (L.map fo).map g := by
    intro s' hs'
    rw [nbAll_map a s s' _ (hrun s' hs'), ← hL, List.map_map]
    rfl
  have hback : ∀ s', a.NbRun w om fac (symp2 times) s s' → (∃ s'', a.NbRun w om fac (symp2 times.reverse) s' s'') ∧
      ∀ s'', a.NbRun w om fac (symp2 times.reverse) s' s'' → ∀ r < a.m.nrank, s'' r = (s r).map fo := by
    intro s' hs'
    obtain ⟨b1, b2⟩ := nbRun_force hw ha om fac ((stepPairs times.reverse).flatMap symp2Step) s' (sane_of_all (by
      rw [hall s' hs']; exact i1.sane))
    rw [← symp2_eq] at b1 b2
    refine ⟨b1, fun s'' hs'' r hr => ?_⟩
    rw [b2 s'' hs'' r hr, hrun s' hs' r hr, List.map_map]
    apply List.map_congr_left
    intro b hb
    have hbL : b ∈ L := by rw [hL]; exact List.mem_flatMap.2 ⟨r, List.mem_range.2 hr, hb⟩
    have hmem : fo b ∈ L.map fo := List.mem_map_of_mem hbL
    have hforce : ∀ b' ∈ (L.map fo).map g, nbOp a.m a.t.cshape w om fac ((L.map fo).map g) .force b' = b' := by
      intro b' hb'
      have := i1.force b' hb'
      simp only [nbOp]
      rw [← this]
    simp only [Function.comp_apply]
    rw [symp2_eq, hall s' hs']
    rw [nbTraj]
    rw [hforce _ (List.mem_map_of_mem hmem), (List.map_congr_left hforce).trans (List.map_id' _)]
    exact i2 _ hmem
  constructor
  · obtain ⟨s', hs'⟩ := h1
    obtain ⟨⟨s'', hs''⟩, -⟩ := hback s' hs'
    exact ⟨s', s'', hs', hs''⟩
  · intro s' s'' hs' hs'' r hr
    rw [(hback s' hs').2 s'' hs'' r hr, List.map_map, hfo]
    exact List.map_congr_left fun b _ => rfl

/-! ## From the seed -/

/-- **C87**, from the seed.  The whole of `simulate` (white noise, displacements, velocities, time steps on a finer mesh with another window) on two
numbers of ranks: both runs complete on all ranks, and end with the same particles up to their order.
Partial: as `C87_ranks_partial`; and the noise as C38, C42. -/
theorem C87_simulate_partial {σ : Type} (rng : Rng σ) (rnd : ℚ → ℚ) (w w' : Resampler ℝ) (hw : w.Valid) (hw' : w'.Valid) (P : ℝ → ℝ) (D1 f1 E : ℝ → ℝ)
    (om : ℝ) (fac : Factors) (scheme : List ℝ → List NbOp) (hscheme : scheme ∈ nbSchemes) (a0 : ℝ) (times : List ℝ) (seed : ℕ)
    (a a' b b' : Machine) (ha : a.OK w) (ha' : a'.OK w') (hb : b.OK w) (hb' : b'.OK w') (hra : a'.m.nrank = a.m.nrank) (hrb : b'.m.nrank = b.m.nrank)
    {N0 N1 N2 : ℕ} (hN : 2 ≤ N0 ∧ 2 ≤ N1 ∧ 2 ≤ N2) (hna : a.m.nmesh = [N0, N1, N2]) (hnb : b.m.nmesh = [N0, N1, N2])
    (hbox : a.m.box = b.m.box) (hst : a.t.cshape = b.t.cshape) (hdim : a'.m.nmesh.length = 3) (hn' : a'.m.nmesh = b'.m.nmesh)
    (hbox' : a'.m.box = b'.m.box) (hst' : a'.t.cshape = b'.t.cshape) (ar br : ℕ → NoiseRank) (har : NoiseReady a.t ar) (hbr : NoiseReady b.t br) :
    (∃ s', NbSimulate rng rnd w w' P D1 f1 E om fac scheme (a0 :: times) seed a a' ar s') ∧
    (∃ t', NbSimulate rng rnd w w' P D1 f1 E om fac scheme (a0 :: times) seed b b' br t') ∧
    ∀ s' t', NbSimulate rng rnd w w' P D1 f1 E om fac scheme (a0 :: times) seed a a' ar s' →
      NbSimulate rng rnd w w' P D1 f1 E om fac scheme (a0 :: times) seed b b' br t' → (a'.all s').Perm (b'.all t') := by
  have hn : a.m.nmesh = b.m.nmesh := by rw [hna, hnb]
  obtain ⟨mk, hmk⟩ : ∃ mk : ℕ → List ℝ → List ℝ → NBody, mk = fun _ q dx => nbInit (D1 a0) a0 (f1 a0) (E a0) q dx := ⟨_, rfl⟩
  -- the start is a simulation of no steps
  obtain ⟨⟨s0, _, hs0, -⟩, ⟨t0, _, ht0, -⟩, hperm⟩ := C85_seed_to_final_partial rng rnd w hw (⟨fun b => b.q, fun _ => 1, fun _ => [], fun _ b _ => b⟩ : Sys NBody)
    (fun _ _ _ => rfl) a b ha hb hN hna hnb hbox hst seed true 0 ar br har hbr [0, 0, 0] rfl (nbKernels P a.m.nmesh a.m.box) mk
    (by intro i x f hx; rw [hmk]; exact hx) 0
  have hkern : nbKernels P b.m.nmesh b.m.box = nbKernels P a.m.nmesh a.m.box := by rw [hn, hbox]
  have hsa := (start_iff (B := NBody) rng rnd hw ha hN hna seed true 0 ar har [0, 0, 0] rfl (nbKernels P a.m.nmesh a.m.box) mk).2
  have hsane : ∀ s, a.Start rng rnd w seed true 0 ar [0, 0, 0] (nbKernels P a.m.nmesh a.m.box) mk s → ∀ q ∈ a'.all s, q.Sane a'.m.nmesh.length := by
    intro s hs q hq
    obtain ⟨r, hr, hq⟩ := List.mem_flatMap.1 hq
    have hr : r < a.m.nrank := by rw [← hra]; exact List.mem_range.1 hr
    rw [hsa s hs r hr] at hq
    obtain ⟨xi, hxi, rfl⟩ := List.mem_map.1 hq
    have hxg := (List.of_mem_zip hxi).1
    have hl : xi.1.length = 3 := by
      unfold PMesh.uniformGrid at hxg
      obtain ⟨g, hg, e⟩ := List.mem_map.1 hxg
      rw [meshCoordinates_eq] at hg
      obtain ⟨c, hc, rfl⟩ := List.mem_map.1 hg
      have := (ha.mesh.global_valid hr (mem_ndindex.1 hc)).len
      rw [← e]
      simp [this, ha.mesh.box_len, hna]
    rw [hmk, hdim]
    refine ⟨hl, ?_, ?_⟩ <;> simp [nbInit, nbKernels, hna]
  have hall : ∀ (c c' : Machine) (s : ℕ → List NBody), c'.m.nrank = c.m.nrank → c'.all s = c.all s := by
    intro c c' s h
    unfold Machine.all
    rw [h]
  have hp : ∀ s t, a.Start rng rnd w seed true 0 ar [0, 0, 0] (nbKernels P a.m.nmesh a.m.box) mk s →
      b.Start rng rnd w seed true 0 br [0, 0, 0] (nbKernels P a.m.nmesh a.m.box) mk t → (a'.all s).Perm (b'.all t) := by
    intro s t hs ht
    rw [hall a a' s hra, hall b b' t hrb]
    exact hperm s s t t hs rfl ht rfl
  have hmain := fun s t hs ht => C87_ranks_partial w' hw' om fac scheme hscheme (a0 :: times) a' b' ha' hb' hn' hbox' hst' s t (hsane s hs) (hp s t hs ht)
  obtain ⟨_, ⟨s1, hs1⟩, ⟨t1, ht1⟩, -⟩ := hmain s0 t0 hs0 ht0
  unfold NbSimulate
  rw [hkern]
  simp only [List.headD_cons]
  rw [← hmk]
  refine ⟨⟨s1, s0, hs0, hs1⟩, ⟨t1, t0, ht0, ht1⟩, ?_⟩
  rintro s' t' ⟨s, hs, hs'⟩ ⟨t, ht, ht'⟩
  obtain ⟨f, -, -, h1, h2⟩ := hmain s t hs ht
  rw [nbAll_map a' s s' f (h1 s' hs'), nbAll_map b' t t' f (h2 t' ht')]
  exact (hp s t hs ht).map f

end

/-! ## Examples: three particles on two ranks, and on one rank in another order -/

section
variable (pt : Growth) (om : ℝ) (p q u : NBody) (hp : p.Sane 3) (hq : q.Sane 3) (hu : u.Sane 3)
include hp hq hu

theorem exBodies_sane : ∀ b ∈ exMachine2.all (fun r => if r = 0 then [p, q] else [u]), b.Sane exMachine2.m.nmesh.length := by
  intro b hb
  have : b ∈ [p, q, u] := hb
  simp only [List.mem_cons, List.not_mem_nil, or_false] at this
  rcases this with rfl | rfl | rfl <;> assumption

example := C87_ranks_partial exWinR exWinR_valid om (fastPM pt) symp3 (by simp [nbSchemes]) [1 / 10, 1 / 2, 1] exMachine2 exMachine1 exMachine2_ok
  exMachine1_ok rfl rfl rfl (fun r => if r = 0 then [p, q] else [u]) (fun _ => [u, p, q]) (exBodies_sane p q u hp hq hu)
  (List.perm_append_comm (l₁ := [p, q]) (l₂ := [u]))

example := C87_momentum_partial exWinR exWinR_valid om (naive pt) symp1 (by simp [nbSchemes]) [1 / 10, 1 / 2, 1] exMachine2 exMachine2_ok
  (fun r => if r = 0 then [p, q] else [u]) (exBodies_sane p q u hp hq hu)

example := C87_reversible_partial exWinR exWinR_valid om (quinn pt) (C87_odd pt _ (by simp [nbFactors])) [1 / 10, 1 / 2, 1] exMachine2 exMachine2_ok
  (fun r => if r = 0 then [p, q] else [u]) (exBodies_sane p q u hp hq hu)

end

/-- A body on the grid of three axes. -/
example : NBody.Sane 3 ⟨[0, 1, 2], [1 / 2, 0, 0], [0, 0, 1], []⟩ := ⟨rfl, rfl, rfl⟩

example := C87_clocks symp3 (by simp [nbSchemes]) (1 / 10) [1 / 2, 1]

example := C87_totals ⟨fun x y _ => y - x, fun x y _ => y ^ 2 - x ^ 2⟩ id (· ^ 2) (fun _ _ _ => rfl) (fun _ _ _ => rfl) symp2 (by simp [nbSchemes])
  (1 / 10) [1 / 2, 1]

/-- From the seed, forces on the mesh of the noise (`boost` 1). -/
example (mem mem' : ℤ → ℝ × ℝ) (pt : Growth) (P D1 f1 : ℝ → ℝ) := C87_simulate_partial (ranlxdRng id) id exWinR exWinR exWinR_valid exWinR_valid P D1 f1
  pt.E (3 / 10) (vte pt) symp2 (by simp [nbSchemes]) (1 / 10) [1 / 2, 1] 120577 exMachine2 exMachine2 exMachine1 exMachine1 exMachine2_ok exMachine2_ok
  exMachine1_ok exMachine1_ok rfl rfl (N0 := 4) (N1 := 4) (N2 := 4) (by omega) rfl rfl rfl rfl rfl rfl rfl rfl (exNoiseRank mem) _
  (exNoise_ready mem) (exMachine1_ready mem')

#print axioms C87_ranks_partial
#print axioms C87_momentum_partial
#print axioms C87_clocks
#print axioms C87_totals
#print axioms C87_odd
#print axioms C87_reversible_partial
#print axioms C87_simulate_partial

end Pmesh
