import Verif.Spec.OldState
import Verif.Props.Buffers
import Mathlib.Algebra.BigOperators.Group.List.Basic
import Mathlib.Algebra.Group.Pi.Basic
import Mathlib.Algebra.Order.Field.Rat

/-!
# C78: the deprecated `ParticleMesh` as a state machine
-/

namespace Pmesh

variable {Mem R C Q : Type} (F : Fft Mem R C) (hF : F.OK) (junk : Mem → Mem)

theorem oldRun_append [AddZeroClass R] (p q : List (OldOp R C Q)) (s : OldState Mem C) :
    oldRun F junk (p ++ q) s = (oldRun F junk p s).bind fun (s, a) => (oldRun F junk q s).map fun (s, b) => (s, a ++ b) := by
  induction p generalizing s with
  | nil => simp [oldRun]
  | cons o os ih =>
    simp only [List.cons_append, oldRun]
    cases oldStep F junk o s with
    | none => rfl
    | some x =>
      obtain ⟨s1, a⟩ := x
      simp only [Option.bind_some, ih]
      cases oldRun F junk os s1 with
      | none => rfl
      | some y =>
        obtain ⟨s2, b⟩ := y
        simp only [Option.bind_some, Option.map_some]
        cases oldRun F junk q s2 <;> simp

include hF in
theorem getC_stateTransfer (ts : List (C → C)) (m : Mem) :
    F.getC true (stateTransfer F ts m) = ts.foldl (fun c t => t c) (F.getC true m) := by
  unfold stateTransfer
  induction ts generalizing m with
  | nil => rfl
  | cons t ts ih => rw [List.foldl_cons, ih, hF.complex, List.foldl_cons]

include hF in
/-- **C78**, refinement.  Whatever the memory holds: if a sequence of calls has a meaning for the machine without memory, then the
code runs it without an exception and returns the same values, whatever the transforms leave in the rest of the buffer. -/
theorem C78_refines [AddZeroClass R] (p : List (OldOp R C Q)) (i i' : Ideal R C) (out : List Q) (h : Ideal.run F p i = some (i', out))
    (s : OldState Mem C) (hs : i.In F s) :
    ∃ s', oldRun F junk p s = some (s', out) ∧ i'.In F s' := by
  induction p generalizing i s out with
  | nil =>
    simp only [Ideal.run, Option.some.injEq, Prod.mk.injEq] at h
    obtain ⟨rfl, rfl⟩ := h
    exact ⟨s, rfl, hs⟩
  | cons o os ih =>
    simp only [Ideal.run] at h
    obtain ⟨⟨i1, a⟩, h1, h2⟩ := Option.bind_eq_some_iff.1 h
    obtain ⟨⟨i2, b⟩, h3, h4⟩ := Option.map_eq_some_iff.1 h2
    simp only [Prod.mk.injEq] at h4
    obtain ⟨rfl, rfl⟩ := h4
    have hstep : ∃ s1, oldStep F junk o s = some (s1, a) ∧ i1.In F s1 := by
      obtain ⟨f, st⟩ := i
      obtain ⟨m, st'⟩ := s
      obtain ⟨rfl, hf⟩ := hs
      rcases o with _ | d | _ | _ | _ | ts | ts | q <;> rcases f with r | c <;> simp only at hf <;>
        simp only [Ideal.step, Option.some.injEq, Prod.mk.injEq, reduceCtorEq] at h1
      all_goals first
        | (obtain ⟨rfl, rfl⟩ := h1
           subst hf
           exact ⟨_, rfl, rfl, by simp [hF.real, hF.complex, getC_stateTransfer F hF]⟩)
        | skip
      all_goals
        rcases st' with _ | ⟨c', cs⟩
        · simp [Ideal.step] at h1
        · simp only [Ideal.step, Option.some.injEq, Prod.mk.injEq] at h1
          obtain ⟨rfl, rfl⟩ := h1
          exact ⟨_, rfl, rfl, by simp [hF.complex]⟩
    obtain ⟨s1, e1, e2⟩ := hstep
    obtain ⟨s2, e3, e4⟩ := ih _ _ h3 s1 e2
    exact ⟨s2, by simp [oldRun, e1, e3], e4⟩

/-- A balanced sequence never raises and leaves the stack as it was, from any state. -/
theorem balanced_run [AddZeroClass R] {p : List (OldOp R C Q)} (hp : Balanced p) (s : OldState Mem C) :
    ∃ s' out, oldRun F junk p s = some (s', out) ∧ s'.stack = s.stack := by
  induction hp generalizing s with
  | nil => exact ⟨s, [], rfl, rfl⟩
  | one o h1 h2 =>
    rcases o with _ | d | _ | _ | _ | ts | ts | q
    all_goals first
      | exact absurd rfl h1
      | exact absurd rfl h2
      | exact ⟨_, _, rfl, rfl⟩
  | append _ _ ih1 ih2 =>
    obtain ⟨s1, a, e1, e2⟩ := ih1 s
    obtain ⟨s2, b, e3, e4⟩ := ih2 s1
    exact ⟨s2, a ++ b, by simp [oldRun_append, e1, e3], e4.trans e2⟩
  | saved _ ih =>
    obtain ⟨s1, a, e1, e2⟩ := ih ⟨s.mem, F.getC true s.mem :: s.stack⟩
    obtain ⟨m1, st1⟩ := s1
    simp only at e2
    subst e2
    exact ⟨⟨F.setC true (F.getC true s.mem) m1, s.stack⟩, a, by simp [oldRun, oldStep, oldRun_append, e1], rfl⟩

include hF in
/-- **C78**, `push` and `pop`.  Whatever is done in between, with `push` and `pop` paired, `pop` brings back the complex field that
`push` saved, and the stack. -/
theorem C78_push_pop [AddZeroClass R] {p : List (OldOp R C Q)} (hp : Balanced p) (s : OldState Mem C) :
    ∃ s' out, oldRun F junk (.push :: p ++ [.pop]) s = some (s', out) ∧ F.getC true s'.mem = F.getC true s.mem ∧ s'.stack = s.stack := by
  obtain ⟨s1, a, e1, e2⟩ := balanced_run F junk hp ⟨s.mem, F.getC true s.mem :: s.stack⟩
  obtain ⟨m1, st1⟩ := s1
  simp only at e2
  subst e2
  exact ⟨⟨F.setC true (F.getC true s.mem) m1, s.stack⟩, a, by simp [oldRun, oldStep, oldRun_append, e1], hF.complex _ _ _, rfl⟩

include hF in
/-- **C78**, the standard steps.  Whatever was done with the object before, the readout for each direction is that of the transform
back of the transform of all particles painted, after the transfer functions of this direction only. -/
theorem C78_force_loop [AddMonoid R] (particles : List R) (dirs : List (List (C → C) × (R → Q))) (s : OldState Mem C) :
    ∃ s', oldRun F junk (forceLoop particles dirs) s = some (s', dirs.map fun d =>
        d.2 (F.bwd (d.1.foldl (fun c t => t c) (F.norm (F.fwd particles.sum))))) ∧ s'.stack = s.stack := by
  have hpaint : ∀ (r : R) (st : List C) (ps : List R) (rest : List (OldOp R C Q)),
      Ideal.run F (ps.map .paint ++ rest) ⟨.inl r, st⟩ = Ideal.run F rest ⟨.inl (r + ps.sum), st⟩ := by
    intro r st ps rest
    induction ps generalizing r with
    | nil => simp
    | cons d ps ih =>
      simp only [List.map_cons, List.cons_append, Ideal.run, Ideal.step, Option.bind_some, ih, List.sum_cons, add_assoc]
      cases Ideal.run F rest ⟨.inl (r + (d + ps.sum)), st⟩ <;> simp
  have hdirs : ∀ (c : C) (st : List C) (ds : List (List (C → C) × (R → Q))),
      Ideal.run F (ds.flatMap fun d => [OldOp.push, .c2r d.1, .readout d.2, .pop]) ⟨.inr c, st⟩ =
        some (⟨.inr c, st⟩, ds.map fun d => d.2 (F.bwd (d.1.foldl (fun c t => t c) c))) := by
    intro c st ds
    induction ds with
    | nil => rfl
    | cons d ds ih => simp [Ideal.run, Ideal.step, ih]
  have hi : Ideal.run F (.clear :: (particles.map .paint ++ .r2c :: dirs.flatMap fun d => [OldOp.push, .c2r d.1, .readout d.2, .pop]))
      ⟨.inr (F.getC true s.mem), s.stack⟩ = some (⟨.inr (F.norm (F.fwd particles.sum)), s.stack⟩,
        dirs.map fun d => d.2 (F.bwd (d.1.foldl (fun c t => t c) (F.norm (F.fwd particles.sum))))) := by
    simp [Ideal.run, Ideal.step, hpaint, hdirs]
  obtain ⟨s', e1, e2⟩ := C78_refines F hF junk _ _ _ _ hi s ⟨rfl, rfl⟩
  exact ⟨s', e1, e2.1⟩

/-- Without `push`, the second direction sees the complex view of the memory of the real field. -/
theorem C78_violated_no_push :
    ∃ s' out, oldRun fft2 (fun m => m) [.clear, .paint ![1, 2], .r2c, .c2r [], .readout (fun r => (r 0, r 1)), .c2r [], .readout fun r => (r 0, r 1)]
        ⟨fun _ => 0, []⟩ = some (s', out) ∧ out = [(1, 2), (1 / 2, 3 / 2)] :=
  ⟨_, _, rfl, by decide +kernel⟩

/-- `pop` destroys the real field: what is read after it is not what was read before. -/
theorem C78_violated_pop :
    ∃ s' out, oldRun fft2 (fun m => m) [.clear, .paint ![1, 2], .r2c, .push, .c2r [], .readout (fun r => (r 0, r 1)), .pop,
        .readout fun r => (r 0, r 1)] ⟨fun _ => 0, []⟩ = some (s', out) ∧ out = [(1, 2), (3 / 2, 0)] :=
  ⟨_, _, rfl, by decide +kernel⟩

/-- `pop` without `push` raises. -/
theorem C78_pop_empty [AddZeroClass R] (m : Mem) : oldRun (Q := Q) F junk [.pop] ⟨m, []⟩ = none := rfl

/-- The views of a mesh of two points satisfy the hypotheses. -/
theorem fft2_ok : fft2.OK := by
  constructor
  · intro v m
    funext j
    fin_cases j <;> simp [fft2]
  · intro t c m
    funext j
    fin_cases j <;> simp [fft2]

example := C78_force_loop fft2 fft2_ok (fun _ _ => 7) [![1, 2], ![3, 4]] [([fun c => c], fun r => r 0), ([fun c j => (2 * (c j).1, 0)], fun r => r 1)]
  ⟨fun _ => 5, []⟩

example := C78_push_pop fft2 fft2_ok (fun _ _ => 7) (p := [.c2r [], .readout fun r => r 0]) (.append (.one _ (by simp) (by simp)) (.one _ (by simp) (by simp)))
  ⟨fun _ => 5, []⟩

example := C78_refines fft2 fft2_ok (fun _ _ => 7) [.paint ![1, 2], .r2c, .push, .c2r [], .readout fun r => r 0, .pop] ⟨.inl 0, []⟩ _ _ rfl
  ⟨fun _ => 0, []⟩ ⟨rfl, by funext j; fin_cases j <;> rfl⟩

#print axioms C78_refines
#print axioms C78_push_pop
#print axioms C78_force_loop
#print axioms C78_violated_no_push
#print axioms C78_violated_pop
#print axioms C78_pop_empty

end Pmesh
