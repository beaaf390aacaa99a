import Verif.Props.QpmExec
import Verif.Props.Cosmology

/-!
# C126 with the factors that the code computes
-/

namespace Pmesh

section
variable {ι K : Type*} [Field K] [LinearOrder K] [IsStrictOrderedRing K] [FloorRing K]

theorem qExec_near {L : K} (hL : 0 < L) {kf df : K → K → K} {I : K → K} {acc : (ι → K) → ι → K} (h0 : ∀ x i, acc x i = 0)
    {d ε : K} (hdf : ∀ a b, a ≤ b → b ≤ a + d → |df a b - (I b - I a)| ≤ ε * (I b - I a))
    {x0 v0 : ι → K} : ∀ (ops : List (QOp K)) (xc vc s : K) (f : Option K) (p : QPart ι K), QClock d ops xc vc s f →
      p.v = v0 → (f ≠ none → ∀ i, p.a i = 0) →
      (∃ T, |T - I xc| ≤ ε * I xc ∧ ∀ i, 0 ≤ p.x i ∧ p.x i < L ∧ ∃ k : ℤ, p.x i = x0 i + v0 i * T + (k : K) * L) →
      ∀ e ∈ qExec L kf df acc ops p, ∃ t, (e.1 = .stepDone t ∨ e.1 = .write t ∨ e.1 = .finished t) ∧ e.2.v = v0 ∧
        ∃ T, |T - I t| ≤ ε * I t ∧ ∀ i, 0 ≤ e.2.x i ∧ e.2.x i < L ∧ ∃ k : ℤ, e.2.x i = x0 i + v0 i * T + (k : K) * L := by
  intro ops
  induction ops with
  | nil => intro _ _ _ _ _ _ _ _ _ e he; simp [qExec] at he
  | cons o r ih =>
    intro xc vc s f p hc hv ha hx e he
    cases o with
    | accel => exact ih xc vc s _ { p with a := acc p.x } hc hv (fun _ i => h0 _ i) hx e he
    | kick a b =>
      obtain ⟨_, _, hf, hc⟩ := hc
      have hne : f ≠ none := by rcases hf with h | h <;> simp [h]
      refine ih xc b s f { p with v := fun i => qKickCoord (kf a b) (p.v i) (p.a i) } hc ?_ ha hx e he
      rw [← hv]
      funext i
      simp [qKickCoord, ha hne i]
    | drift a b =>
      obtain ⟨hax, hab, hsa, hbs, _, hc⟩ := hc
      subst hax
      refine ih b vc s f { p with x := fun i => qDriftCoord L (df a b) (p.x i) (p.v i) } hc hv ha ?_ e he
      obtain ⟨T, hT, hx⟩ := hx
      refine ⟨T + df a b, ?_, fun i => ?_⟩
      · have h1 := hdf a b hab (by linarith)
        calc |T + df a b - I b| = |(T - I a) + (df a b - (I b - I a))| := by congr 1; ring
          _ ≤ |T - I a| + |df a b - (I b - I a)| := abs_add_le _ _
          _ ≤ ε * I a + ε * (I b - I a) := add_le_add hT h1
          _ = ε * I b := by ring
      · obtain ⟨h1, h2, k, hk⟩ := C112_drift_wraps hL (df a b) (p.x i) (p.v i)
        obtain ⟨_, _, k', hk'⟩ := hx i
        refine ⟨h1, h2, k + k', ?_⟩
        simp only
        rw [hk, hk', hv]
        push_cast
        ring
    | stepDone t =>
      obtain ⟨hxt, _, _, hc⟩ := hc
      rcases List.mem_cons.1 he with rfl | he
      · subst hxt
        exact ⟨_, Or.inl rfl, hv, hx⟩
      · exact ih _ _ _ _ p hc hv ha hx e he
    | write t =>
      obtain ⟨hxt, hc⟩ := hc
      rcases List.mem_cons.1 he with rfl | he
      · subst hxt
        exact ⟨_, Or.inr (Or.inl rfl), hv, hx⟩
      · exact ih _ _ _ _ p hc hv ha hx e he
    | finished t =>
      obtain ⟨hxt, _, _, hr⟩ := hc
      subst hr
      rcases List.mem_cons.1 he with rfl | he
      · subst hxt
        exact ⟨_, Or.inr (Or.inr rfl), hv, hx⟩
      · simp [qExec] at he

theorem qExec_near_v {L : K} {kf df : K → K → K} {I : K → K} {acc : (ι → K) → ι → K} {g : ι → K} (hg : ∀ x, acc x = g)
    {d ε : K} (hkf : ∀ a, |kf a (a + d / 2) - (I (a + d / 2) - I a)| ≤ ε * (I (a + d / 2) - I a))
    {v0 : ι → K} : ∀ (ops : List (QOp K)) (xc vc s : K) (f : Option K) (p : QPart ι K), QClock d ops xc vc s f →
      (f ≠ none → p.a = g) → (∃ T, |T - I vc| ≤ ε * I vc ∧ ∀ i, p.v i = v0 i + g i * T) →
      ∀ e ∈ qExec L kf df acc ops p, ∀ t, e.1 = .stepDone t ∨ e.1 = .finished t → ∃ T, |T - I t| ≤ ε * I t ∧ ∀ i, e.2.v i = v0 i + g i * T := by
  intro ops
  induction ops with
  | nil => intro _ _ _ _ _ _ _ _ e he; simp [qExec] at he
  | cons o r ih =>
    intro xc vc s f p hc ha hv e he
    cases o with
    | accel => exact ih xc vc s _ { p with a := acc p.x } hc (fun _ => hg _) hv e he
    | kick a b =>
      obtain ⟨hav, hb, hf, hc⟩ := hc
      subst hav hb
      have hne : f ≠ none := by rcases hf with h | h <;> simp [h]
      refine ih xc _ s f { p with v := fun i => qKickCoord (kf a (a + d / 2)) (p.v i) (p.a i) } hc ha ?_ e he
      obtain ⟨T, hT, hv⟩ := hv
      refine ⟨T + kf a (a + d / 2), ?_, fun i => ?_⟩
      · calc |T + kf a (a + d / 2) - I (a + d / 2)| = |(T - I a) + (kf a (a + d / 2) - (I (a + d / 2) - I a))| := by congr 1; ring
          _ ≤ |T - I a| + |kf a (a + d / 2) - (I (a + d / 2) - I a)| := abs_add_le _ _
          _ ≤ ε * I a + ε * (I (a + d / 2) - I a) := add_le_add hT (hkf a)
          _ = ε * I (a + d / 2) := by ring
      · simp only [qKickCoord]
        rw [hv i, ha hne]
        ring
    | drift a b =>
      obtain ⟨_, _, _, _, _, hc⟩ := hc
      exact ih b vc s f { p with x := fun i => qDriftCoord L (df a b) (p.x i) (p.v i) } hc ha hv e he
    | stepDone t =>
      obtain ⟨_, hvt, _, hc⟩ := hc
      rcases List.mem_cons.1 he with rfl | he
      · intro t' ht'
        have : t = t' := by simpa using ht'
        subst this hvt
        exact hv
      · exact ih _ _ _ _ p hc ha hv e he
    | write t =>
      obtain ⟨_, hc⟩ := hc
      rcases List.mem_cons.1 he with rfl | he
      · intro t' ht'
        simp at ht'
      · exact ih _ _ _ _ p hc ha hv e he
    | finished t =>
      obtain ⟨_, hvt, _, hr⟩ := hc
      subst hr
      rcases List.mem_cons.1 he with rfl | he
      · intro t' ht'
        have : t = t' := by simpa using ht'
        subst this hvt
        exact hv
      · simp [qExec] at he

end

open Real

theorem free_code_aux {ι : Type*} {M Λ H0 box : ℝ} (hM : 0 < M) (hΛ : 0 ≤ Λ) (hMΛ : M + Λ ≤ 1) (hH : 0 < H0) (hbox : 0 < box)
    (acc : (ι → ℝ) → ι → ℝ) (h0 : ∀ x i, acc x i = 0) {l d : ℝ} (hl : l < 0) (hd : 0 < d) (hd' : d ≤ 1 / 10)
    (aout : List ℝ) (p : QPart ι ℝ) (hx : ∀ i, 0 ≤ p.x i ∧ p.x i < box) :
    ∀ e ∈ qExec box (dtKick ⟨M, Λ⟩ H0) (dtDrift ⟨M, Λ⟩ H0) acc (qRun l d aout).ops p,
      ∃ t, (e.1 = .stepDone t ∨ e.1 = .write t ∨ e.1 = .finished t) ∧ e.2.v = p.v ∧
        ∃ T, |T - ∫ s in l..t, driftIntegrand ⟨M, Λ⟩ H0 s| ≤ 1 / 10 ^ 8 * ∫ s in l..t, driftIntegrand ⟨M, Λ⟩ H0 s ∧
          ∀ i, 0 ≤ e.2.x i ∧ e.2.x i < box ∧ ∃ k : ℤ, e.2.x i = p.x i + p.v i * T + (k : ℝ) * box := by
  have hk : 0 ≤ 1 - M - Λ := by linarith
  have k2 : driftIntegrand ⟨M, Λ⟩ H0 = expOver 2 M (1 - M - Λ) Λ H0 := funext fun l => driftIntegrand_eq ⟨M, Λ⟩ H0 l
  have hcont : Continuous (driftIntegrand ⟨M, Λ⟩ H0) := by rw [k2]; exact expOver_continuous hM hk hΛ 2 hH
  have hint : ∀ a b : ℝ, IntervalIntegrable (driftIntegrand ⟨M, Λ⟩ H0) MeasureTheory.volume a b := fun a b => hcont.intervalIntegrable a b
  refine qExec_near hbox h0 (I := fun t => ∫ s in l..t, driftIntegrand ⟨M, Λ⟩ H0 s) (d := d) (fun a b hab hbd => ?_) _ l l l none p
    (C112_leapfrog hl hd aout) rfl (fun h => absurd rfl h) ⟨0, by simp, fun i => ⟨(hx i).1, (hx i).2, 0, by simp⟩⟩
  have hsub : (∫ s in l..b, driftIntegrand ⟨M, Λ⟩ H0 s) - ∫ s in l..a, driftIntegrand ⟨M, Λ⟩ H0 s = ∫ s in a..b, driftIntegrand ⟨M, Λ⟩ H0 s := by
    rw [sub_eq_iff_eq_add', intervalIntegral.integral_add_adjacent_intervals (hint _ _) (hint _ _)]
  have hpos : 0 ≤ ∫ s in a..b, driftIntegrand ⟨M, Λ⟩ H0 s := by
    refine intervalIntegral.integral_nonneg hab fun s _ => ?_
    rw [k2]
    exact (expOver_pos hM hk hΛ 2 H0 s hH).le
  rw [hsub]
  have := qFactor_expOver hM hk hΛ hH (p := 2) (by norm_num) le_rfl (l0 := a) (l1 := b) (by rw [abs_of_nonneg (by linarith)]; linarith)
  rw [← k2, abs_of_nonneg hpos] at this
  exact this

/-- **C126, free motion with the factors of the code.**  For steps of at most 1/10, as in the code, and the factors that `Kick` and `Drift` compute with the trapezoidal rule, the
particles without forces are at every yield where the free motion takes them, `x + v ∫ dt/a²` with `dt = d(log a)/(E(a) H0)`, moved into the box; the integral is right to a relative
error of 1e-8, however many steps and snapshots there were. -/
theorem C126_free_code {ι : Type*} {M Λ H0 box : ℝ} (hM : 0 < M) (hΛ : 0 ≤ Λ) (hMΛ : M + Λ ≤ 1) (hH : 0 < H0) (hbox : 0 < box)
    (acc : (ι → ℝ) → ι → ℝ) (h0 : ∀ x i, acc x i = 0) {l d : ℝ} (hl : l < 0) (hd : 0 < d) (hd' : d ≤ 1 / 10)
    (aout : List ℝ) (p : QPart ι ℝ) (hx : ∀ i, 0 ≤ p.x i ∧ p.x i < box) :
    ∀ e ∈ qExec box (dtKick ⟨M, Λ⟩ H0) (dtDrift ⟨M, Λ⟩ H0) acc (qRun l d aout).ops p,
      ∃ t, (e.1 = .stepDone t ∨ e.1 = .write t ∨ e.1 = .finished t) ∧ e.2.v = p.v ∧
        ∃ T, |T - ∫ s in l..t, 1 / (exp s ^ 2 * (√(M / exp s ^ 3 + (1 - M - Λ) / exp s ^ 2 + Λ) * H0))| ≤
          1 / 10 ^ 8 * ∫ s in l..t, 1 / (exp s ^ 2 * (√(M / exp s ^ 3 + (1 - M - Λ) / exp s ^ 2 + Λ) * H0)) ∧
          ∀ i, 0 ≤ e.2.x i ∧ e.2.x i < box ∧ ∃ k : ℤ, e.2.x i = p.x i + p.v i * T + (k : ℝ) * box := by
  have e : ∀ s, driftIntegrand ⟨M, Λ⟩ H0 s = 1 / (exp s ^ 2 * (√(M / exp s ^ 3 + (1 - M - Λ) / exp s ^ 2 + Λ) * H0)) := by
    intro s
    unfold driftIntegrand
    simp only
    rw [Ea_eq_sqrt _ (exp_pos s)]
    simp only [inv_pow, div_eq_mul_inv, pow_two (exp s)]
  have := free_code_aux hM hΛ hMΛ hH hbox acc h0 hl hd hd' aout p hx
  simp only [e] at this
  exact this

/-- A flat universe, one particle, from a = 1/e to today. -/
example := C126_free_code (ι := Unit) (M := 3 / 10) (Λ := 7 / 10) (H0 := 100) (box := 512) (by norm_num) (by norm_num) (by norm_num) (by norm_num) (by norm_num)
  (fun _ _ => 0) (fun _ _ => rfl) (l := -1) (d := 1 / 10) (by norm_num) (by norm_num) (by norm_num) [-1 / 2, -1 / 4] ⟨fun _ => 7, fun _ => -3000, fun _ => 0⟩
  (fun _ => by norm_num)

/-- **C126, uniform force with the factors of the code.**  Under constant accelerations the velocities at the ends of steps and of the run are `v + g ∫ dt/a` with an integral that is right to a
relative error of 1e-8. -/
theorem C126_uniform_code_partial {ι : Type*} {M Λ H0 : ℝ} (hM : 0 < M) (hΛ : 0 ≤ Λ) (hMΛ : M + Λ ≤ 1) (hH : 0 < H0) (box : ℝ)
    (acc : (ι → ℝ) → ι → ℝ) (g : ι → ℝ) (hg : ∀ x, acc x = g) {l d : ℝ} (hl : l < 0) (hd : 0 < d) (hd' : d ≤ 1 / 10)
    (aout : List ℝ) (p : QPart ι ℝ) :
    ∀ e ∈ qExec box (dtKick ⟨M, Λ⟩ H0) (dtDrift ⟨M, Λ⟩ H0) acc (qRun l d aout).ops p, ∀ t, e.1 = .stepDone t ∨ e.1 = .finished t →
      ∃ T, |T - ∫ s in l..t, 1 / (exp s * (√(M / exp s ^ 3 + (1 - M - Λ) / exp s ^ 2 + Λ) * H0))| ≤
          1 / 10 ^ 8 * ∫ s in l..t, 1 / (exp s * (√(M / exp s ^ 3 + (1 - M - Λ) / exp s ^ 2 + Λ) * H0)) ∧
        ∀ i, e.2.v i = p.v i + g i * T := by
  have hk : 0 ≤ 1 - M - Λ := by linarith
  have k1 : kickIntegrand ⟨M, Λ⟩ H0 = expOver 1 M (1 - M - Λ) Λ H0 := funext fun l => kickIntegrand_eq ⟨M, Λ⟩ H0 l
  have hcont : Continuous (kickIntegrand ⟨M, Λ⟩ H0) := by rw [k1]; exact expOver_continuous hM hk hΛ 1 hH
  have hint : ∀ a b : ℝ, IntervalIntegrable (kickIntegrand ⟨M, Λ⟩ H0) MeasureTheory.volume a b := fun a b => hcont.intervalIntegrable a b
  have e : ∀ s, 1 / (exp s * (√(M / exp s ^ 3 + (1 - M - Λ) / exp s ^ 2 + Λ) * H0)) = kickIntegrand ⟨M, Λ⟩ H0 s := by
    intro s
    unfold kickIntegrand
    simp only
    rw [Ea_eq_sqrt _ (exp_pos s)]
    simp only [inv_pow, div_eq_mul_inv]
  simp only [e]
  refine qExec_near_v hg (I := fun t => ∫ s in l..t, kickIntegrand ⟨M, Λ⟩ H0 s) (d := d) (fun a => ?_) _ l l l none p
    (C112_leapfrog hl hd aout) (fun h => absurd rfl h) ⟨0, by simp, fun i => by simp⟩
  have hsub : (∫ s in l..(a + d / 2), kickIntegrand ⟨M, Λ⟩ H0 s) - ∫ s in l..a, kickIntegrand ⟨M, Λ⟩ H0 s =
      ∫ s in a..(a + d / 2), kickIntegrand ⟨M, Λ⟩ H0 s := by
    rw [sub_eq_iff_eq_add', intervalIntegral.integral_add_adjacent_intervals (hint _ _) (hint _ _)]
  have hpos : 0 ≤ ∫ s in a..(a + d / 2), kickIntegrand ⟨M, Λ⟩ H0 s := by
    refine intervalIntegral.integral_nonneg (by linarith) fun s _ => ?_
    rw [k1]
    exact (expOver_pos hM hk hΛ 1 H0 s hH).le
  rw [hsub]
  have := qFactor_expOver hM hk hΛ hH (p := 1) le_rfl (by norm_num) (l0 := a) (l1 := a + d / 2) (by rw [abs_of_nonneg (by linarith)]; linarith)
  rw [← k1, abs_of_nonneg hpos] at this
  exact this

example := C126_uniform_code_partial (ι := Unit) (M := 3 / 10) (Λ := 7 / 10) (H0 := 100) (by norm_num) (by norm_num) (by norm_num) (by norm_num) 512
  (fun _ _ => 5) (fun _ => 5) (fun _ => rfl) (l := -1) (d := 1 / 10) (by norm_num) (by norm_num) (by norm_num) [-1 / 2, -1 / 4] ⟨fun _ => 7, fun _ => -3000, fun _ => 0⟩

#print axioms C126_free_code
#print axioms C126_uniform_code_partial

end Pmesh
