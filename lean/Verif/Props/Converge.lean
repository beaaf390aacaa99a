import Verif.Lemmas.ConvergeForce
import Verif.Lemmas.ConvergeMotion
import Verif.Props.NBodySpace

/-! # C99: runs of the N-body program converge to the equations of motion -/

namespace Pmesh

section
variable {N : ℕ} {m : PMesh ℝ} (Q : Fin N → Fin m.nmesh.length → ℝ)

/-- The force of the program is the force of the particle-mesh method. -/
theorem pmForce_isMeshForce (hm : m.OK) {cshape : List ℕ} (hs : StoredShape m.nmesh cshape) (w : Resampler ℝ) (om : ℝ) {J : List (Fin N)} (hJ : J.Perm (List.finRange N)) :
    IsMeshForce m w om Q (pmForce Q m cshape w om J) := by
  intro S rho φ hrho hφ i d
  unfold pmForce
  rw [show (1.5 : ℝ) = 3 / 2 by norm_num]
  congr 1
  apply sum_congr'
  intro g hg
  have hg := mem_ndindex.1 hg
  congr 1
  have hdens : (fun g => (J.map fun j => 1.0 * (m.nmesh.prod : ℝ) / (J.length : ℝ) * m.weightAt w (List.ofFn fun d => S j d + Q j d) g).sum) = rho := by
    funext g
    rw [hrho, (hJ.map _).sum_eq, hJ.length_eq, List.length_finRange, List.sum_map_mul_left, ← List.ofFn_eq_map, List.sum_ofFn]
    norm_num
    ring
  rw [hdens]
  exact c2r_force hs hm.dim (nmesh_pos' hm) hm.box_len hm.box_pos d.2 hφ hg

theorem meshForce_unique (hm : m.OK) (w : Resampler ℝ) (om : ℝ) {F F' : (Fin N → Fin m.nmesh.length → ℝ) → Fin N → Fin m.nmesh.length → ℝ}
    (h : IsMeshForce m w om Q F) (h' : IsMeshForce m w om Q F') : F = F' := by
  funext S i d
  obtain ⟨φ, hφ⟩ := C92_potential m.nmesh hm.dim (nmesh_pos' hm) m.box fun g => (∑ j, m.weightAt w (List.ofFn fun d => S j d + Q j d) g) * (m.nmesh.prod / N)
  rw [h S _ φ (fun _ => rfl) hφ i d, h' S _ φ (fun _ => rfl) hφ i d]

theorem meshForce_BL (hm : m.OK) {w : Resampler ℝ} (hw : w.Valid) (hk : Confined w.kern) (hl : LipschitzKernel w.kern) (om : ℝ)
    {F : (Fin N → Fin m.nmesh.length → ℝ) → Fin N → Fin m.nmesh.length → ℝ} (h : IsMeshForce m w om Q F) : BL F := by
  rw [meshForce_unique Q hm w om h (pmForce_isMeshForce Q hm (Or.inl rfl) w om (List.Perm.refl _))]
  exact pmForce_BL hm Q m.nmesh hw hk hl om _
end

theorem motion_cont (pt : Growth) (hE : ContinuousOn pt.E (Set.Ioi 0)) (hne : ∀ a > 0, pt.E a ≠ 0) (n : ℕ) :
    ContinuousOn (fun a => 1 / (a ^ n * pt.E a)) (Set.Ioi 0) :=
  continuousOn_const.div ((continuous_pow n).continuousOn.mul hE) fun a ha => mul_ne_zero (pow_ne_zero _ (ne_of_gt ha)) (hne a ha)

/-- **C99**, motion.  There is exactly one force of the particle-mesh method, and with a Lipschitz window the equations of motion with this force have
exactly one solution from all displacements and velocities, for all times. -/
theorem C99_motion (m : PMesh ℝ) (hm : m.OK) (w : Resampler ℝ) (hw : w.Valid) (hk : Confined w.kern) (hl : LipschitzKernel w.kern) (om : ℝ) (E : ℝ → ℝ)
    (hE : ContinuousOn E (Set.Ioi 0)) (hne : ∀ a > 0, E a ≠ 0) (N : ℕ) (Q : Fin N → Fin m.nmesh.length → ℝ) :
    ∃! F, IsMeshForce m w om Q F ∧ ∀ a0 a1, 0 < a0 → a0 ≤ a1 → ∀ z : Phase N m.nmesh.length, ∃ S V, S a0 = z.1 ∧ V a0 = z.2 ∧ MovesOn E F a0 a1 S V ∧
      ∀ S' V', S' a0 = z.1 → V' a0 = z.2 → MovesOn E F a0 a1 S' V' → ∀ a ∈ Set.Icc a0 a1, S' a = S a ∧ V' a = V a := by
  have hF := pmForce_isMeshForce Q hm (Or.inl rfl) w om (List.Perm.refl (List.finRange N))
  refine ⟨_, ⟨hF, fun a0 a1 ha0 ha z => ?_⟩, fun F' h => meshForce_unique Q hm w om h.1 hF⟩
  obtain ⟨M, L, -, hL0, hM, hL⟩ := meshForce_BL Q hm hw hk hl om hF
  have e2 := motion_cont ⟨E, E, E, E, E⟩ hE hne 2
  have e3 := motion_cont ⟨E, E, E, E, E⟩ hE hne 3
  obtain ⟨S, V, hS, hV, h⟩ := motion_exists e2 e3 hM hL hL0 ha0 ha z.1 z.2
  exact ⟨S, V, hS, hV, h, fun S' V' hS' hV' h' => motion_unique e2 e3 hL hL0 ha0 h' h (hS'.trans hS.symm) (hV'.trans hV.symm)⟩

section
variable {w : Resampler ℝ} (hw : w.Valid) (hk : Confined w.kern) (hl : LipschitzKernel w.kern) (om : ℝ) {pt : Growth}
  (hE : ContinuousOn pt.E (Set.Ioi 0)) (hne : ∀ a > 0, pt.E a ≠ 0) {a : Machine} (ha : a.OK w) {N : ℕ} (Q : Fin N → Fin a.m.nmesh.length → ℝ)
  {F : (Fin N → Fin a.m.nmesh.length → ℝ) → Fin N → Fin a.m.nmesh.length → ℝ} (hF : IsMeshForce a.m w om Q F) {a0 a1 : ℝ} (h0 : 0 < a0) (h01 : a0 ≤ a1)
  {S V : ℝ → Fin N → Fin a.m.nmesh.length → ℝ} (hmove : MovesOn pt.E F a0 a1 S V)
include hw hk hl hE hne ha hF h0 h01 hmove

theorem run_near : ∃ C, 0 ≤ C ∧ ∀ fac η h, 0 ≤ η → η ≤ 1 → 0 ≤ h → FacNear fac pt.E (a0 * (a0 / a1)) a1 (2 * h) η → ∀ idx : ℕ → List (Fin N),
    ((List.range a.m.nrank).flatMap idx).Perm (List.finRange N) → ∀ scheme ∈ nbSchemes, ∀ times, TimeSteps a0 a1 h times →
      (∃ s', a.NbRun w om fac (scheme times) (fun r => (idx r).map (Phase.body Q (S a0, V a0))) s') ∧
      ∀ s', a.NbRun w om fac (scheme times) (fun r => (idx r).map (Phase.body Q (S a0, V a0))) s' →
        ∃ z : Phase N a.m.nmesh.length, (∀ i d, |z.1 i d - S a1 i d| ≤ C * (h + 18 * η) ∧ |z.2 i d - V a1 i d| ≤ C * (h + 18 * η)) ∧
          ∀ r < a.m.nrank, (s' r).map NBody.state = (idx r).map fun i => (z.body Q i).state := by
  obtain ⟨M, L, -, hL0, hM, hL⟩ := meshForce_BL Q ha.mesh hw hk hl om hF
  obtain ⟨C, hC, herr⟩ := schemes_error (motion_cont pt hE hne 2) (motion_cont pt hE hne 3) hM hL hL0 h0 h01 hmove
  refine ⟨C, hC, fun fac η h hη hη1 hh hfac idx hidx scheme hs times ht => ?_⟩
  obtain ⟨l, hl', e1, e2⟩ := herr fac η h hη hη1 hh hfac scheme hs times ht
  have hst : StoredShape a.m.nmesh a.t.cshape := by rw [← ha.modes_mesh]; exact ha.storage
  have hΦ : F = pmForce Q a.m a.t.cshape w om ((List.range a.m.nrank).flatMap idx) :=
    meshForce_unique Q ha.mesh w om hF (pmForce_isMeshForce Q ha.mesh hst w om hidx)
  obtain ⟨r1, r2⟩ := nbRun_phase hw om fac ha l Q idx rfl hΦ (S a0, V a0)
  rw [hl']
  refine ⟨r1, fun s' hs' => ⟨((phaseRun fac F l (S a0, V a0, F (S a0))).1, (phaseRun fac F l (S a0, V a0, F (S a0))).2.1), fun i d => ⟨?_, ?_⟩, fun r hr => ?_⟩⟩
  · exact ((norm_le_pi_norm (((phaseRun fac F l (S a0, V a0, F (S a0))).1 - S a1) i) d).trans (norm_le_pi_norm _ i)).trans e1
  · exact ((norm_le_pi_norm (((phaseRun fac F l (S a0, V a0, F (S a0))).2.1 - V a1) i) d).trans (norm_le_pi_norm _ i)).trans e2
  · rw [r2 s' hs' r hr]
    rfl

/-- **C99**, rate (partial: the restrictions of C23 on the decomposition).  With class `Quinn` and a Lipschitz window, for each motion with the force of
the particle-mesh method there is a constant `C` such that a run of any scheme with any steps of at most `h`, from the displacements and velocities of the
motion at `a0`, with any distribution of the particles to the ranks, completes with all displacements and velocities within `C h` of the motion at `a1`. -/
theorem C99_rate_partial : ∃ C, ∀ idx : ℕ → List (Fin N), ((List.range a.m.nrank).flatMap idx).Perm (List.finRange N) → ∀ scheme ∈ nbSchemes,
    ∀ h ≥ 0, ∀ times, TimeSteps a0 a1 h times →
      (∃ s', a.NbRun w om (quinn pt) (scheme times) (fun r => (idx r).map (Phase.body Q (S a0, V a0))) s') ∧
      ∀ s', a.NbRun w om (quinn pt) (scheme times) (fun r => (idx r).map (Phase.body Q (S a0, V a0))) s' →
        ∃ z : Phase N a.m.nmesh.length, (∀ i d, |z.1 i d - S a1 i d| ≤ C * h ∧ |z.2 i d - V a1 i d| ≤ C * h) ∧
          ∀ r < a.m.nrank, (s' r).map NBody.state = (idx r).map fun i => (z.body Q i).state := by
  obtain ⟨C, -, h⟩ := run_near hw hk hl om hE hne ha Q hF h0 h01 hmove
  refine ⟨C, fun idx hidx scheme hs d hd times ht => ?_⟩
  have := h (quinn pt) 0 d le_rfl zero_le_one hd (quinn_near pt _ _ _) idx hidx scheme hs times ht
  simpa using this
end

/-- **C99**, convergence (partial: the restrictions of C23 on the decomposition).  With any of the seven classes of factors and a Lipschitz window, for
each motion with the force of the particle-mesh method and each `ε` there is a size of the steps below which all runs, of all schemes, complete with all
displacements and velocities within `ε` of the motion at `a1`. -/
theorem C99_converges_partial (w : Resampler ℝ) (hw : w.Valid) (hk : Confined w.kern) (hl : LipschitzKernel w.kern) (om : ℝ) (pt : Growth) (hpt : pt.OK)
    (hgf : ContinuousOn pt.gf (Set.Ioi 0)) (hgp : ContinuousOn pt.gp (Set.Ioi 0)) (a : Machine) (ha : a.OK w) (N : ℕ) (Q : Fin N → Fin a.m.nmesh.length → ℝ)
    (F : (Fin N → Fin a.m.nmesh.length → ℝ) → Fin N → Fin a.m.nmesh.length → ℝ) (hF : IsMeshForce a.m w om Q F) (a0 a1 : ℝ) (h0 : 0 < a0) (h01 : a0 ≤ a1)
    (S V : ℝ → Fin N → Fin a.m.nmesh.length → ℝ) (hmove : MovesOn pt.E F a0 a1 S V) (ε : ℝ) (hε : 0 < ε) :
    ∃ δ > 0, ∀ fac ∈ nbFactors pt, ∀ idx : ℕ → List (Fin N), ((List.range a.m.nrank).flatMap idx).Perm (List.finRange N) → ∀ scheme ∈ nbSchemes,
      ∀ times, TimeSteps a0 a1 δ times →
        (∃ s', a.NbRun w om fac (scheme times) (fun r => (idx r).map (Phase.body Q (S a0, V a0))) s') ∧
        ∀ s', a.NbRun w om fac (scheme times) (fun r => (idx r).map (Phase.body Q (S a0, V a0))) s' →
          ∃ z : Phase N a.m.nmesh.length, (∀ i d, |z.1 i d - S a1 i d| ≤ ε ∧ |z.2 i d - V a1 i d| ≤ ε) ∧
            ∀ r < a.m.nrank, (s' r).map NBody.state = (idx r).map fun i => (z.body Q i).state := by
  have h1 : 0 < a1 := h0.trans_le h01
  obtain ⟨C, hC, h⟩ := run_near hw hk hl om hpt.E_cont hpt.E_ne ha Q hF h0 h01 hmove
  obtain ⟨η, hη, hη1, hηC⟩ : ∃ η > 0, η ≤ 1 ∧ C * (19 * η) ≤ ε := by
    refine ⟨min 1 (ε / (19 * (C + 1))), by positivity, min_le_left _ _, ?_⟩
    calc C * (19 * min 1 (ε / (19 * (C + 1)))) ≤ (C + 1) * (19 * (ε / (19 * (C + 1)))) := by
          gcongr
          · linarith
          · exact min_le_right _ _
      _ = ε := by field_simp
  obtain ⟨δ, hδ, hnear⟩ : ∃ δ > 0, ∀ fac ∈ nbFactors pt, FacNear fac pt.E (a0 * (a0 / a1)) a1 δ η := by
    have hlo : 0 < a0 * (a0 / a1) := by positivity
    have : ∀ l : List Factors, (∀ fac ∈ l, fac ∈ nbFactors pt) → ∃ δ > 0, ∀ fac ∈ l, FacNear fac pt.E (a0 * (a0 / a1)) a1 δ η := by
      intro l
      induction l with
      | nil => exact fun _ => ⟨1, one_pos, by simp⟩
      | cons fac l ih =>
        intro hmem
        obtain ⟨δ, hδ, hd⟩ := ih fun f hf => hmem f (List.mem_cons_of_mem _ hf)
        obtain ⟨δ', hδ', hd'⟩ := factors_near pt hpt hgf hgp fac (hmem fac List.mem_cons_self) (hi := a1) hlo hη
        refine ⟨min δ δ', lt_min hδ hδ', fun f hf x hx y hy r hr e1 e2 => ?_⟩
        rcases List.mem_cons.1 hf with rfl | hf
        · exact hd' x hx y hy r hr (e1.trans (min_le_right _ _)) (e2.trans (min_le_right _ _))
        · exact hd f hf x hx y hy r hr (e1.trans (min_le_left _ _)) (e2.trans (min_le_left _ _))
    exact this _ fun _ h => h
  refine ⟨min (δ / 2) η, lt_min (by positivity) hη, fun fac hfac idx hidx scheme hs times ht => ?_⟩
  have hle : 2 * min (δ / 2) η ≤ δ := by linarith [min_le_left (δ / 2) η]
  have hm0 : 0 < min (δ / 2) η := lt_min (by positivity) hη
  obtain ⟨r1, r2⟩ := h fac η (min (δ / 2) η) hη.le hη1 hm0.le (fun x hx y hy r hr e1 e2 => hnear fac hfac x hx y hy r hr (e1.trans hle) (e2.trans hle)) idx hidx scheme hs times ht
  refine ⟨r1, fun s' hs' => ?_⟩
  obtain ⟨z, hz, hst⟩ := r2 s' hs'
  have hfin : C * (min (δ / 2) η + 18 * η) ≤ ε := by
    refine le_trans (mul_le_mul_of_nonneg_left ?_ hC) hηC
    linarith [min_le_right (δ / 2) η]
  exact ⟨z, fun i d => ⟨(hz i d).1.trans hfin, (hz i d).2.trans hfin⟩, hst⟩

/-- **C99**, windows.  The windows `cic`, `tsc` and `pcs` are Lipschitz and vanish outside; `ngp` (and `nnb`) is not Lipschitz. -/
theorem C99_windows : (∀ t : Tuned, LipschitzKernel (Tuned.kern t : Kern ℝ) ↔ t ≠ .nnb) ∧ ∀ t : Tuned, Confined (Tuned.kern t : Kern ℝ) := by
  refine ⟨fun t => ?_, fun t => tuned_confined t⟩
  cases t
  · refine ⟨?_, fun h => absurd rfl h⟩
    rintro ⟨c, hc⟩
    exfalso
    have h := hc (1 / 2) (1 / 2 - 1 / (2 * (|c| + 2)))
    have hp : (0 : ℝ) < 1 / (2 * (|c| + 2)) := by positivity
    have hq : 1 / (2 * (|c| + 2)) ≤ (1 : ℝ) / 2 := by
      apply div_le_div_of_nonneg_left <;> linarith [abs_nonneg c]
    have e1 : (Tuned.kern .nnb : Kern ℝ).kernel (1 / 2) = 0 := by
      show nearestKernel (1 / 2 : ℝ) = 0
      unfold nearestKernel
      rw [if_neg (by norm_num)]
    have e2 : (Tuned.kern .nnb : Kern ℝ).kernel (1 / 2 - 1 / (2 * (|c| + 2))) = 1 := by
      show nearestKernel (1 / 2 - 1 / (2 * (|c| + 2)) : ℝ) = 1
      unfold nearestKernel
      rw [if_pos ⟨by linarith, by linarith⟩]
    rw [e1, e2, sub_sub_cancel, abs_of_pos hp, zero_sub, abs_neg, abs_one] at h
    have : c * (1 / (2 * (|c| + 2))) ≤ 1 / 2 := by
      rw [mul_one_div, div_le_div_iff₀ (by positivity) (by norm_num)]
      linarith [le_abs_self c, abs_nonneg c]
    linarith
  · exact ⟨fun _ => by simp, fun _ => linear_lipschitz⟩
  · exact ⟨fun _ => by simp, fun _ => quadratic_lipschitz⟩
  · exact ⟨fun _ => by simp, fun _ => cubic_lipschitz⟩

/-! Non-vacuity: two ranks, three particles, a mesh of 4 x 4 x 4 cells, in an Einstein-de Sitter universe. -/

example (Q : Fin 3 → Fin 3 → ℝ) := C99_motion exMachine2.m exMachine2_ok.mesh exWinR exWinR_valid linear_confined linear_lipschitz (3 / 10) exEdS.E exEdS_ok.E_cont exEdS_ok.E_ne 3 Q

example (Q : Fin 3 → Fin 3 → ℝ) (z : Phase 3 3) : ∃ F S V, IsMeshForce exMachine2.m exWinR (3 / 10) Q F ∧ S (1 / 10) = z.1 ∧ V (1 / 10) = z.2 ∧ MovesOn exEdS.E F (1 / 10) 1 S V := by
  obtain ⟨F, ⟨hF, h⟩, -⟩ := C99_motion exMachine2.m exMachine2_ok.mesh exWinR exWinR_valid linear_confined linear_lipschitz (3 / 10) exEdS.E exEdS_ok.E_cont exEdS_ok.E_ne 3 Q
  obtain ⟨S, V, h1, h2, h3, -⟩ := h (1 / 10) 1 (by norm_num) (by norm_num) z
  exact ⟨F, S, V, hF, h1, h2, h3⟩

example (Q : Fin 3 → Fin 3 → ℝ) (F S V) (hF : IsMeshForce exMachine2.m exWinR (3 / 10) Q F) (h : MovesOn exEdS.E F (1 / 10) 1 S V) :=
  C99_rate_partial exWinR_valid linear_confined linear_lipschitz (3 / 10) exEdS_ok.E_cont exEdS_ok.E_ne exMachine2_ok Q hF (by norm_num) (by norm_num) h

example (Q : Fin 3 → Fin 3 → ℝ) (F S V) (hF : IsMeshForce exMachine2.m exWinR (3 / 10) Q F) (h : MovesOn exEdS.E F (1 / 10) 1 S V) :=
  C99_converges_partial exWinR exWinR_valid linear_confined linear_lipschitz (3 / 10) exEdS exEdS_ok (by unfold exEdS; fun_prop) (by unfold exEdS; fun_prop) exMachine2
    exMachine2_ok 3 Q F hF (1 / 10) 1 (by norm_num) (by norm_num) S V h

example : TimeSteps (1 / 10) 1 (1 / 2) [1 / 10, 1 / 2, 1] := ⟨rfl, rfl, by norm_num [List.isChain_cons_cons]⟩

example : ((List.range exMachine2.m.nrank).flatMap fun r => if r = 0 then [0, 2] else [1]).Perm (List.finRange 3) := by
  show ([0, 2, 1] : List (Fin 3)).Perm (List.finRange 3)
  decide

#print axioms C99_motion
#print axioms C99_rate_partial
#print axioms C99_converges_partial
#print axioms C99_windows

end Pmesh
