import Verif.Spec.Reshape
import Mathlib.Data.List.Basic
import Mathlib.Data.Rat.Defs
import Mathlib.Algebra.BigOperators.Group.List.Basic
import Mathlib.Tactic.Common
import Mathlib.Tactic.SplitIfs

/-!
# C80: `reshape`, `resize` and `respawn` change what they are asked to change

For all meshes made by the constructor and all arguments; whatever `pfft` accepts.
-/

namespace Pmesh

section
variable {K : Type} {split : ℕ → List ℕ} {accepts : List ℕ → List ℕ → ℕ → Bool}

theorem fillBox_exact {n : ℕ} {l : List K} (h : l.length = n) : fillBox n (.array l) = .ok l := by
  subst h
  match l with
  | [] => rfl
  | [a] => rfl
  | a :: b :: l => simp [fillBox]

theorem fillBox_len {n : ℕ} {b : PerAxis K} {l : List K} (h : fillBox n b = .ok l) : l.length = n := by
  match b with
  | .scalar a => cases h; simp
  | .array [] => simp only [fillBox] at h; split_ifs at h with hn; cases h; exact hn
  | .array [a] => cases h; simp
  | .array (a :: b :: l) => simp only [fillBox] at h; split_ifs at h with hn; cases h; exact hn

/-- The constructor, exactly. -/
theorem newMesh_iff {nmesh : List ℕ} {box : PerAxis K} {comm : CommDesc} {np : Option (List ℕ)} {dtype : PmDtype} {plan : PlanMethod}
    {win : WindowArg} {p : MeshDesc K} : newMesh split accepts nmesh box comm np dtype plan win = .ok p ↔
      ¬ (nmesh.length = 1 ∧ comm.size ≠ 1) ∧ chooseNp split comm nmesh.length np = .ok p.np ∧ dtype ≠ .other ∧
      fillBox nmesh.length box = .ok p.box ∧ plan ≠ .unknown ∧ accepts p.np nmesh comm.size = true ∧ win = .window p.resampler ∧
      p.nmesh = nmesh ∧ p.comm = comm ∧ p.dtype = dtype ∧ p.plan = plan ∧ p.padded = decide (p.np.length ≠ nmesh.length) := by
  unfold newMesh
  generalize chooseNp split comm nmesh.length np = e
  generalize fillBox nmesh.length box = fb
  constructor
  · intro h
    by_cases h1 : nmesh.length = 1 ∧ comm.size ≠ 1
    · rw [if_pos h1] at h; cases h
    · rw [if_neg h1] at h
      cases e with
      | error e => cases h
      | ok q =>
        by_cases h2 : dtype = .other
        · simp only [h2, if_true] at h; cases h
        · simp only [h2, if_false] at h
          cases fb with
          | error e => cases h
          | ok b =>
            cases h3 : accepts q nmesh comm.size with
            | false => simp [h3] at h
            | true =>
              by_cases h4 : plan = .unknown
              · simp [h3, h4] at h
              · simp only [h3, h4, if_false, Bool.not_true, Bool.false_eq_true] at h
                cases win with
                | other => cases h
                | window w =>
                  cases h
                  exact ⟨h1, rfl, h2, rfl, h4, h3, rfl, rfl, rfl, rfl, rfl, rfl⟩
  · rintro ⟨h1, rfl, h2, rfl, h3, h4, rfl, rfl, rfl, rfl, rfl, h5⟩
    rw [if_neg h1]
    simp only [h2, h3, h4, if_false, Bool.not_true, Bool.false_eq_true, ← h5]

theorem MeshDesc.Made.facts {p : MeshDesc K} (hp : p.Made split accepts) :
    p.box.length = p.nmesh.length ∧ p.dtype ≠ .other ∧ ¬ (p.nmesh.length = 1 ∧ p.comm.size ≠ 1) ∧
      accepts p.np p.nmesh p.comm.size = true ∧ p.padded = decide (p.np.length ≠ p.nmesh.length) := by
  obtain ⟨nmesh, box, comm, np, dtype, plan, win, h⟩ := hp
  obtain ⟨h1, h2, h3, h4, h5, h6, h7, rfl, rfl, rfl, rfl, h8⟩ := newMesh_iff.1 h
  exact ⟨fillBox_len h4, h3, h1, h6, h8⟩

variable (split accepts) in
/-- **C80**, `reshape`: with the number of cells `N` and the box size `B` asked for (what is not given is kept; of the box size
the first entries), the call fails with ValueError exactly if their lengths differ or a 1-d mesh is asked for on several ranks;
otherwise, if `pfft` accepts the old process mesh for the new mesh, it gives a mesh with `N` and `B`, the old communicator,
process mesh, type and window. -/
theorem C80_reshape (p : MeshDesc K) (hp : p.Made split accepts) (nmesh : Option (PerAxis ℕ)) (box : Option (PerAxis K))
    (N : List ℕ) (hN : N = nmesh.elim p.nmesh (PerAxis.expand p.nmesh.length))
    (B : List K) (hB : B = box.elim (p.box.take N.length) (PerAxis.expand N.length)) :
    (p.reshape split accepts nmesh box = .error .value ↔ B.length ≠ N.length ∨ N.length = 1 ∧ p.comm.size ≠ 1) ∧
    (∀ q, p.reshape split accepts nmesh box = .ok q → p.Like q N B) ∧
    (B.length = N.length → (N.length = 1 → p.comm.size = 1) → accepts p.np N p.comm.size = true →
      ∃ q, p.reshape split accepts nmesh box = .ok q ∧ q.Made split accepts) := by
  obtain ⟨f1, f2, f3, f4, f5⟩ := hp.facts
  have hr : p.reshape split accepts nmesh box = if B.length ≠ N.length then .error .value
      else newMesh split accepts N (.array B) p.comm (some p.np) p.dtype .estimate (.window p.resampler) := by
    subst hB hN
    rcases nmesh with _ | ⟨_ | _⟩ <;> rcases box with _ | ⟨_ | _⟩ <;> rfl
  have hall : B.length = N.length → (N.length = 1 → p.comm.size = 1) → accepts p.np N p.comm.size = true →
      newMesh split accepts N (.array B) p.comm (some p.np) p.dtype .estimate (.window p.resampler) =
        .ok ⟨N, B, p.comm, p.np, p.dtype, p.resampler, decide (p.np.length ≠ N.length), .estimate⟩ := by
    intro h1 h2 h3
    refine newMesh_iff.2 ⟨fun h => h.2 (h2 h.1), rfl, f2, fillBox_exact h1, by decide, h3, rfl, rfl, rfl, rfl, rfl, rfl⟩
  rw [hr]
  refine ⟨?_, ?_, ?_⟩
  · split_ifs with h
    · simp [h]
    · rw [not_not] at h
      simp only [h, ne_eq, not_true_eq_false, false_or]
      constructor
      · intro he
        by_contra hc
        have h2 : N.length = 1 → p.comm.size = 1 := by tauto
        cases h3 : accepts p.np N p.comm.size with
        | true => rw [hall h h2 h3] at he; cases he
        | false =>
          unfold newMesh at he
          rw [if_neg hc] at he
          simp [f2, fillBox_exact h, h3, chooseNp] at he
      · intro hc
        unfold newMesh
        rw [if_pos hc]
  · intro q hq
    split_ifs at hq with h
    rw [not_not] at h
    obtain ⟨_, h2, _, h4, _, _, h7, e1, e2, e3, _, _⟩ := newMesh_iff.1 hq
    rw [fillBox_exact h] at h4
    injection h4 with h4
    injection h2 with h2
    injection h7 with h7
    exact ⟨e1, h4.symm, e2, h2.symm, e3, h7.symm⟩
  · intro h1 h2 h3
    rw [if_neg (by simp [h1]), hall h1 h2 h3]
    exact ⟨_, rfl, _, _, _, _, _, _, _, hall h1 h2 h3⟩

/-- **C80**, `reshape()` without arguments never fails and gives the mesh again, with plans made by the method `estimate`. -/
theorem C80_reshape_nothing_partial (p : MeshDesc K) (hp : p.Made split accepts) :
    p.reshape split accepts none none = .ok { p with plan := .estimate } := by
  obtain ⟨f1, f2, f3, f4, f5⟩ := hp.facts
  unfold MeshDesc.reshape
  simp only [List.take_of_length_le (Nat.le_of_eq f1), f1, ne_eq, not_true_eq_false, if_false]
  exact newMesh_iff.2 ⟨f3, rfl, f2, fillBox_exact f1, by decide, f4, rfl, rfl, rfl, rfl, rfl, f5⟩

/-- **C80**: changing the number of cells twice is changing it once: nothing of the mesh in between remains, as long as the
number of axes stays. -/
theorem C80_reshape_twice (p : MeshDesc K) (hp : p.Made split accepts) (N M : List ℕ) (hN : N.length = p.nmesh.length)
    (hM : M.length = p.nmesh.length) (q : MeshDesc K) (hq : p.reshape split accepts (some (.array N)) none = .ok q) :
    q.reshape split accepts (some (.array M)) none = p.reshape split accepts (some (.array M)) none := by
  obtain ⟨f1, -⟩ := hp.facts
  obtain ⟨e1, e2, e3, e4, e5, e6⟩ := (C80_reshape split accepts p hp (some (.array N)) none N rfl _ rfl).2.1 q hq
  unfold MeshDesc.reshape
  simp only [e2, e3, e4, e5, e6, Option.elim_none]
  rw [List.take_take, hN, hM, Nat.min_self]

/-- **C80**, `resize` is `reshape`, and there and back again the mesh is the old one (with plans made by `estimate`). -/
theorem C80_resize_back (p : MeshDesc K) (hp : p.Made split accepts) (N : List ℕ) (hN : N.length = p.nmesh.length) (q : MeshDesc K)
    (hq : p.resize split accepts (.array N) = .ok q) :
    q.resize split accepts (.array p.nmesh) = .ok { p with plan := .estimate } := by
  unfold MeshDesc.resize at *
  rw [C80_reshape_twice p hp N p.nmesh hN rfl q hq, ← C80_reshape_nothing_partial p hp]
  rfl

variable (split accepts) in
/-- **C80**, `respawn`: fails with ValueError exactly if the mesh is 1-d and the new communicator has several ranks; with
TypeError exactly if the mesh has no axes and no process mesh is given; otherwise, if `pfft` accepts, it gives a mesh with the
same cells, box, type and window on the new communicator. -/
theorem C80_respawn (p : MeshDesc K) (hp : p.Made split accepts) (comm : CommDesc) (np : Option (List ℕ)) :
    (p.respawn split accepts comm np = .error .value ↔ p.nmesh.length = 1 ∧ comm.size ≠ 1) ∧
    (p.respawn split accepts comm np = .error .type ↔ p.nmesh = [] ∧ np = none) ∧
    ∀ q, p.respawn split accepts comm np = .ok q → p.nmesh = q.nmesh ∧ p.box = q.box ∧ q.comm = comm ∧ p.dtype = q.dtype ∧
      p.resampler = q.resampler ∧ (∀ n ∈ np, q.np = n) ∧ (np = none → defaultNp split comm p.nmesh.length = .ok q.np) := by
  obtain ⟨f1, f2, f3, f4, f5⟩ := hp.facts
  have hsplit : p.respawn split accepts comm np = if p.nmesh.length = 1 ∧ comm.size ≠ 1 then .error .value else
      match chooseNp split comm p.nmesh.length np with
      | .error e => .error e
      | .ok n => if accepts n p.nmesh comm.size then
          .ok ⟨p.nmesh, p.box, comm, n, p.dtype, p.resampler, decide (n.length ≠ p.nmesh.length), .estimate⟩ else .error .pfft := by
    unfold MeshDesc.respawn newMesh
    rw [fillBox_exact f1]
    by_cases h : p.nmesh.length = 1 ∧ comm.size ≠ 1
    · rw [if_pos h, if_pos h]
    · rw [if_neg h, if_neg h]
      cases chooseNp split comm p.nmesh.length np with
      | error e => rfl
      | ok n => cases hac : accepts n p.nmesh comm.size <;> simp [f2, hac]
  have hdef : ∀ e, defaultNp split comm p.nmesh.length = .error e ↔ e = .type ∧ p.nmesh = [] := by
    intro e
    unfold defaultNp
    match hl : p.nmesh with
    | [] => simp [eq_comm]
    | [a] => simp
    | [a, b] => simp
    | a :: b :: c :: l => simp
  rw [hsplit]
  refine ⟨?_, ?_, ?_⟩
  · split_ifs with h
    · simp [h]
    · simp only [h, iff_false]
      cases np with
      | some n => simp only [chooseNp]; split_ifs <;> simp
      | none =>
        simp only [chooseNp]
        cases hd : defaultNp split comm p.nmesh.length with
        | error e => obtain ⟨rfl, _⟩ := (hdef e).1 hd; simp
        | ok n => simp only []; split_ifs <;> simp
  · split_ifs with h
    · simp only [Except.error.injEq, reduceCtorEq, false_iff]
      rintro ⟨h0, -⟩
      rw [h0] at h; simp at h
    · cases np with
      | some n => simp only [chooseNp, reduceCtorEq, and_false, iff_false]; split_ifs <;> simp
      | none =>
        simp only [chooseNp, and_true]
        cases hd : defaultNp split comm p.nmesh.length with
        | error e => obtain ⟨rfl, h0⟩ := (hdef e).1 hd; simp [h0]
        | ok n =>
          have h0 : p.nmesh ≠ [] := by
            intro h0
            rw [(hdef .type).2 ⟨rfl, h0⟩] at hd; cases hd
          simp only [h0, iff_false]; split_ifs <;> simp
  · intro q hq
    split_ifs at hq with h
    cases np with
    | some n =>
      simp only [chooseNp] at hq
      split_ifs at hq
      cases hq
      exact ⟨rfl, rfl, rfl, rfl, rfl, fun n' hn => by cases hn; rfl, fun h => by cases h⟩
    | none =>
      simp only [chooseNp] at hq
      cases hd : defaultNp split comm p.nmesh.length with
      | error e => rw [hd] at hq; cases hq
      | ok n =>
        rw [hd] at hq
        simp only [] at hq
        split_ifs at hq
        cases hq
        exact ⟨rfl, rfl, rfl, rfl, rfl, fun n' hn => (by cases hn), fun _ => rfl⟩

/-- **C80** is violated for the planning method: no `reshape` or `respawn` of any mesh keeps `measure` or `exhaustive`. -/
theorem C80_violated_plan (p q : MeshDesc K) (hplan : p.plan ≠ .estimate) (nmesh : Option (PerAxis ℕ)) (box : Option (PerAxis K))
    (comm : CommDesc) (np : Option (List ℕ))
    (h : p.reshape split accepts nmesh box = .ok q ∨ p.respawn split accepts comm np = .ok q) : q.plan ≠ p.plan := by
  have hq : q.plan = .estimate := by
    rcases h with h | h
    · unfold MeshDesc.reshape at h
      simp only [] at h
      split_ifs at h
      exact (newMesh_iff.1 h).2.2.2.2.2.2.2.2.2.2.1
    · exact (newMesh_iff.1 h).2.2.2.2.2.2.2.2.2.2.1
  rw [hq]
  exact fun h => hplan h.symm

/-- **C80** is violated for the dimension: going to fewer axes and back fails, since the box size of the axes left out is lost. -/
theorem C80_violated_dimension_back (p q : MeshDesc K) (hp : p.Made split accepts) (N : List ℕ) (hN : N.length < p.nmesh.length)
    (hq : p.reshape split accepts (some (.array N)) none = .ok q) :
    q.reshape split accepts (some (.array p.nmesh)) none = .error .value := by
  obtain ⟨f1, -⟩ := hp.facts
  obtain ⟨e1, e2, -⟩ := (C80_reshape split accepts p hp (some (.array N)) none N rfl _ rfl).2.1 q hq
  unfold MeshDesc.reshape
  simp only [e2, Option.elim_none]
  rw [if_pos]
  rw [List.take_take, List.length_take, f1]
  omega

/-- **C80** is violated for one axis: pfft takes no process mesh with axes for a 1-d mesh (the comment at
pmesh/tests/test_pm.py:369), and `reshape` keeps the process mesh, so a mesh with a process mesh cannot be reshaped to one axis,
not even on one rank, where `ParticleMesh([n])` can be made. -/
theorem C80_violated_one_axis (hpfft : ∀ np n s, accepts np [n] s = true ↔ np = []) (p : MeshDesc K) (hp : p.Made split accepts)
    (hnp : p.np ≠ []) (h1 : p.comm.size = 1) (n : ℕ) (b : K) :
    p.reshape split accepts (some (.array [n])) (some (.scalar b)) = .error .pfft ∧
      ∃ q : MeshDesc K, newMesh split accepts [n] (.scalar b) p.comm none p.dtype .estimate (.window p.resampler) = .ok q := by
  obtain ⟨f1, f2, f3, f4, f5⟩ := hp.facts
  constructor
  · have hacc : accepts p.np [n] p.comm.size = false := by
      rw [Bool.eq_false_iff]; exact fun h => hnp ((hpfft _ _ _).1 h)
    unfold MeshDesc.reshape newMesh
    rw [h1] at hacc
    simp [fillBox, chooseNp, h1, f2, hacc]
  · exact ⟨⟨[n], [b], p.comm, [], p.dtype, p.resampler, true, .estimate⟩, newMesh_iff.2 ⟨by simp [h1], rfl, f2, rfl, by decide,
      (hpfft _ _ _).2 rfl, rfl, rfl, rfl, rfl, rfl, rfl⟩⟩

end

/-! ## Examples -/

/-- A 3-d mesh on six ranks with plans made by `measure`. -/
def exDesc : MeshDesc ℚ := ⟨[8, 8, 4], [100, 100, 50], ⟨7, 6⟩, [3, 2], .f4, 5, true, .measure⟩

def exSplit : ℕ → List ℕ := fun n => if n = 6 then [3, 2] else [n, 1]

def exAccepts : List ℕ → List ℕ → ℕ → Bool := fun np nmesh size => np.prod == size && decide (np.length ≤ nmesh.length)

theorem exDesc_made : exDesc.Made exSplit exAccepts :=
  ⟨[8, 8, 4], .array [100, 100, 50], ⟨7, 6⟩, none, .f4, .measure, .window 5, by decide +kernel⟩

example := C80_reshape exSplit exAccepts exDesc exDesc_made (some (.array [16, 16])) none [16, 16] rfl _ rfl

example : exDesc.reshape exSplit exAccepts (some (.scalar 16)) none =
    .ok ⟨[16, 16, 16], [100, 100, 50], ⟨7, 6⟩, [3, 2], .f4, 5, true, .estimate⟩ := by decide +kernel

example := C80_reshape_nothing_partial exDesc exDesc_made

example := C80_reshape_twice exDesc exDesc_made [4, 4, 4] [2, 2, 2] rfl rfl
  ⟨[4, 4, 4], [100, 100, 50], ⟨7, 6⟩, [3, 2], .f4, 5, true, .estimate⟩ (by decide +kernel)

example := C80_resize_back exDesc exDesc_made [4, 4, 4] rfl
  ⟨[4, 4, 4], [100, 100, 50], ⟨7, 6⟩, [3, 2], .f4, 5, true, .estimate⟩ (by decide +kernel)

example := C80_respawn exSplit exAccepts exDesc exDesc_made ⟨8, 1⟩ (some [1, 1])

example := C80_violated_plan exDesc { exDesc with plan := .estimate } (by decide) none none ⟨0, 1⟩ none
  (Or.inl (C80_reshape_nothing_partial exDesc exDesc_made))

example := C80_violated_dimension_back exDesc ⟨[4, 4], [100, 100], ⟨7, 6⟩, [3, 2], .f4, 5, false, .estimate⟩ exDesc_made [4, 4]
  (by decide) (by decide +kernel)

example := C80_violated_one_axis (K := ℚ) (split := fun n => [n, 1])
  (accepts := fun np nmesh _ => decide (np.length < nmesh.length)) (by intro np n s; simp)
  ⟨[8, 8, 8], [1, 1, 1], ⟨7, 1⟩, [1, 1], .f8, 5, true, .estimate⟩
  ⟨[8, 8, 8], .scalar 1, ⟨7, 1⟩, none, .f8, .estimate, .window 5, by decide +kernel⟩ (by decide) rfl 8 1

#print axioms C80_reshape
#print axioms C80_reshape_nothing_partial
#print axioms C80_reshape_twice
#print axioms C80_resize_back
#print axioms C80_respawn
#print axioms C80_violated_plan
#print axioms C80_violated_dimension_back
#print axioms C80_violated_one_axis

end Pmesh
