import Verif.Model.QpmExec
import Verif.Props.Qpm

/-!
# C126: the motion of particles in the leap-frog solver

`φ` and `κ` are the times in which drifts and kicks are uniform (integrals of the integrands of C113), so that the exact factors are differences of them.
-/

namespace Pmesh

variable {ι K : Type*} [Field K] [LinearOrder K] [IsStrictOrderedRing K] [FloorRing K]

theorem qExec_free {L : K} (hL : 0 < L) {kf : K → K → K} {φ : K → K} {acc : (ι → K) → ι → K} (h0 : ∀ x i, acc x i = 0)
    {l d : K} {x0 v0 : ι → K} : ∀ (ops : List (QOp K)) (xc vc s : K) (f : Option K) (p : QPart ι K), QClock d ops xc vc s f →
      p.v = v0 → (f ≠ none → ∀ i, p.a i = 0) → (∀ i, 0 ≤ p.x i ∧ p.x i < L ∧ ∃ k : ℤ, p.x i = x0 i + v0 i * (φ xc - φ l) + (k : K) * L) →
      ∀ e ∈ qExec L kf (fun a b => φ b - φ a) acc ops p, ∃ t, (e.1 = .stepDone t ∨ e.1 = .write t ∨ e.1 = .finished t) ∧ e.2.v = v0 ∧
        ∀ i, 0 ≤ e.2.x i ∧ e.2.x i < L ∧ ∃ k : ℤ, e.2.x i = x0 i + v0 i * (φ t - φ l) + (k : K) * L := by
  intro ops
  induction ops with
  | nil => intro _ _ _ _ _ _ _ _ _ e he; simp [qExec] at he
  | cons o r ih =>
    intro xc vc s f p hc hv ha hx e he
    cases o with
    | accel => exact ih xc vc s _ { p with a := acc p.x } hc hv (fun _ i => h0 _ i) hx e he
    | kick a b =>
      obtain ⟨_, _, hf, hc⟩ := hc
      have hne : f ≠ none := by rcases hf with h | h <;> simp [h]
      refine ih xc b s f { p with v := fun i => qKickCoord (kf a b) (p.v i) (p.a i) } hc ?_ ha hx e he
      rw [← hv]
      funext i
      simp [qKickCoord, ha hne i]
    | drift a b =>
      obtain ⟨hax, _, _, _, _, hc⟩ := hc
      subst hax
      refine ih b vc s f { p with x := fun i => qDriftCoord L (φ b - φ a) (p.x i) (p.v i) } hc hv ha (fun i => ?_) e he
      obtain ⟨h1, h2, k, hk⟩ := C112_drift_wraps hL (φ b - φ a) (p.x i) (p.v i)
      obtain ⟨_, _, k', hk'⟩ := hx i
      refine ⟨h1, h2, k + k', ?_⟩
      simp only
      rw [hk, hk', hv]
      push_cast
      ring
    | stepDone t =>
      obtain ⟨hxt, _, _, hc⟩ := hc
      rcases List.mem_cons.1 he with rfl | he
      · subst hxt
        exact ⟨_, Or.inl rfl, hv, hx⟩
      · exact ih _ _ _ _ p hc hv ha hx e he
    | write t =>
      obtain ⟨hxt, hc⟩ := hc
      rcases List.mem_cons.1 he with rfl | he
      · subst hxt
        exact ⟨_, Or.inr (Or.inl rfl), hv, hx⟩
      · exact ih _ _ _ _ p hc hv ha hx e he
    | finished t =>
      obtain ⟨hxt, _, _, hr⟩ := hc
      subst hr
      rcases List.mem_cons.1 he with rfl | he
      · subst hxt
        exact ⟨_, Or.inr (Or.inr rfl), hv, hx⟩
      · simp [qExec] at he

/-- **C126, free motion.**  Without forces, the particles keep their velocities and at every yield (also at snapshots, whatever the output times and the length of steps) are at the
place that the free motion has at the time told to the caller, moved into the box by whole boxes. -/
theorem C126_free {L : K} (hL : 0 < L) (kf : K → K → K) (φ : K → K) (acc : (ι → K) → ι → K) (h0 : ∀ x i, acc x i = 0) {l d : K} (hl : l < 0) (hd : 0 < d)
    (aout : List K) (p : QPart ι K) (hx : ∀ i, 0 ≤ p.x i ∧ p.x i < L) :
    ∀ e ∈ qExec L kf (fun a b => φ b - φ a) acc (qRun l d aout).ops p, ∃ t, (e.1 = .stepDone t ∨ e.1 = .write t ∨ e.1 = .finished t) ∧ e.2.v = p.v ∧
      ∀ i, 0 ≤ e.2.x i ∧ e.2.x i < L ∧ ∃ k : ℤ, e.2.x i = p.x i + p.v i * (φ t - φ l) + (k : K) * L :=
  qExec_free hL h0 _ l l l none p (C112_leapfrog hl hd aout) rfl (fun h => absurd rfl h) fun i => ⟨(hx i).1, (hx i).2, 0, by simp⟩

/-- One particle that crosses the box. -/
example := C126_free (ι := Unit) (L := (1 : ℚ)) (by norm_num) (fun a b => b - a) id (fun _ _ => 0) (fun _ _ => rfl) (l := -1) (d := 1 / 3) (by norm_num)
  (by norm_num) [-1 / 4, -1 / 2] ⟨fun _ => 1 / 2, fun _ => 3, fun _ => 0⟩ (fun _ => by norm_num)

theorem qExec_uniform {L : K} {df : K → K → K} {κ : K → K} {acc : (ι → K) → ι → K} {g : ι → K} (hg : ∀ x, acc x = g)
    {l d : K} {v0 : ι → K} : ∀ (ops : List (QOp K)) (xc vc s : K) (f : Option K) (p : QPart ι K), QClock d ops xc vc s f →
      (f ≠ none → p.a = g) → (∀ i, p.v i = v0 i + g i * (κ vc - κ l)) →
      ∀ e ∈ qExec L (fun a b => κ b - κ a) df acc ops p, ∀ t, e.1 = .stepDone t ∨ e.1 = .finished t → ∀ i, e.2.v i = v0 i + g i * (κ t - κ l) := by
  intro ops
  induction ops with
  | nil => intro _ _ _ _ _ _ _ _ e he; simp [qExec] at he
  | cons o r ih =>
    intro xc vc s f p hc ha hv e he
    cases o with
    | accel => exact ih xc vc s _ { p with a := acc p.x } hc (fun _ => hg _) hv e he
    | kick a b =>
      obtain ⟨hav, _, hf, hc⟩ := hc
      subst hav
      have hne : f ≠ none := by rcases hf with h | h <;> simp [h]
      refine ih xc b s f { p with v := fun i => qKickCoord (κ b - κ a) (p.v i) (p.a i) } hc ha (fun i => ?_) e he
      simp only [qKickCoord]
      rw [hv i, ha hne]
      ring
    | drift a b =>
      obtain ⟨_, _, _, _, _, hc⟩ := hc
      exact ih b vc s f { p with x := fun i => qDriftCoord L (df a b) (p.x i) (p.v i) } hc ha hv e he
    | stepDone t =>
      obtain ⟨_, hvt, _, hc⟩ := hc
      rcases List.mem_cons.1 he with rfl | he
      · intro t' ht'
        have : t = t' := by simpa using ht'
        subst this hvt
        exact hv
      · exact ih _ _ _ _ p hc ha hv e he
    | write t =>
      obtain ⟨_, hc⟩ := hc
      rcases List.mem_cons.1 he with rfl | he
      · intro t' ht'
        simp at ht'
      · exact ih _ _ _ _ p hc ha hv e he
    | finished t =>
      obtain ⟨_, hvt, _, hr⟩ := hc
      subst hr
      rcases List.mem_cons.1 he with rfl | he
      · intro t' ht'
        have : t = t' := by simpa using ht'
        subst this hvt
        exact hv
      · simp [qExec] at he

/-- **C126, uniform force.**  If every particle has a constant acceleration, then at the end of every step and at the end of the run the velocities are the exact ones of the time told to
the caller, whatever the output times. -/
theorem C126_uniform_partial (L : K) (df : K → K → K) (κ : K → K) (acc : (ι → K) → ι → K) (g : ι → K) (hg : ∀ x, acc x = g) {l d : K} (hl : l < 0) (hd : 0 < d)
    (aout : List K) (p : QPart ι K) :
    ∀ e ∈ qExec L (fun a b => κ b - κ a) df acc (qRun l d aout).ops p, ∀ t, e.1 = .stepDone t ∨ e.1 = .finished t →
      ∀ i, e.2.v i = p.v i + g i * (κ t - κ l) :=
  qExec_uniform hg _ l l l none p (C112_leapfrog hl hd aout) (fun h => absurd rfl h) fun i => by simp

example := C126_uniform_partial (ι := Unit) (1 : ℚ) (fun a b => b - a) id (fun _ _ => 2) (fun _ => 2) (fun _ => rfl) (l := -1) (d := 1 / 3) (by norm_num)
  (by norm_num) [-1 / 4, -1 / 2] ⟨fun _ => 1 / 2, fun _ => 3, fun _ => 0⟩

/-- **C126 violated** at snapshots: under a constant acceleration the velocities that are written are those of the middle of the step, not those of the time of
the snapshot. Here the step goes from -1 to 0, the snapshot is at -1/4 where the velocity is 3/4, and 1/2 is written. -/
theorem C126_violated_snapshot : (qExec (ι := Unit) (100 : ℚ) (fun a b => b - a) (fun a b => b - a) (fun _ _ => 1) (qRun (-1) 1 [-1 / 4]).ops
    ⟨fun _ => 10, fun _ => 0, fun _ => 0⟩).map (fun e => (e.1, e.2.x (), e.2.v ())) =
      [(.stepDone (-1), 10, 0), (.write (-1 / 4), 10 + 3 / 8, 1 / 2), (.finished 0, 10 + 1 / 2, 1)] ∧
    (0 : ℚ) + 1 * (-1 / 4 - -1) = 3 / 4 := by
  refine ⟨?_, by norm_num⟩
  decide +kernel

#print axioms C126_free
#print axioms C126_uniform_partial
#print axioms C126_violated_snapshot

end Pmesh
