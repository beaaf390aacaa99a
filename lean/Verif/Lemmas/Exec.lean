import Verif.Lemmas.Spmd

/-! # An interpreter of SPMD programs, for concrete executions -/

namespace Pmesh

variable {V R : Type}

/-- The results, if all programs have ended. -/
def endsAll : List (Prog V R) → Option (List R)
  | [] => some []
  | .ret r :: ps => (endsAll ps).map (r :: ·)
  | .coll .. :: _ => none

/-- Contributions and continuations, if all programs are in the collective `op`. -/
def collAll (op : Coll) : List (Prog V R) → Option (List V × List (List V → Prog V R))
  | [] => some ([], [])
  | .ret _ :: _ => none
  | .coll op' v k :: ps => if op' = op then (collAll op ps).map fun x => (v :: x.1, k :: x.2) else none

/-- Run at most `fuel` collectives. -/
def runAll : ℕ → List (Prog V R) → Option (List R)
  | 0, ps => endsAll ps
  | fuel + 1, ps =>
    match ps with
    | .coll op _ _ :: _ =>
      match collAll op ps with
      | none => none
      | some (vs, ks) => runAll fuel (ks.map fun k => k vs)
    | _ => endsAll ps

theorem endsAll_eq : ∀ {ps : List (Prog V R)} {rs : List R}, endsAll ps = some rs → ps = rs.map .ret
  | [], rs, h => by simp only [endsAll, Option.some.injEq] at h; subst h; rfl
  | .ret r :: ps, rs, h => by
    simp only [endsAll, Option.map_eq_some_iff] at h
    obtain ⟨rs', h, rfl⟩ := h
    rw [endsAll_eq h]; rfl
  | .coll .. :: _, rs, h => by simp [endsAll] at h

theorem collAll_eq {op : Coll} : ∀ {ps : List (Prog V R)} {vs ks}, collAll op ps = some (vs, ks) →
    ks.length = vs.length ∧ vs.length = ps.length ∧ ps = List.zipWith (Prog.coll op) vs ks
  | [], vs, ks, h => by
    simp only [collAll, Option.some.injEq, Prod.mk.injEq] at h
    obtain ⟨rfl, rfl⟩ := h; simp
  | .ret r :: ps, vs, ks, h => by simp [collAll] at h
  | .coll op' v k :: ps, vs, ks, h => by
    simp only [collAll] at h
    split at h
    · next he =>
      simp only [Option.map_eq_some_iff, Prod.mk.injEq] at h
      obtain ⟨⟨vs', ks'⟩, h, rfl, rfl⟩ := h
      obtain ⟨h1, h2, h3⟩ := collAll_eq h
      refine ⟨by simp [h1], by simp [h2], ?_⟩
      rw [he]
      conv_lhs => rw [h3]
      rfl
    · simp at h

theorem runAll_sound : ∀ (fuel : ℕ) {ps : List (Prog V R)} {rs : List R}, runAll fuel ps = some rs → Runs ps rs
  | 0, ps, rs, h => by rw [endsAll_eq h]; exact .done rs
  | fuel + 1, ps, rs, h => by
    unfold runAll at h
    split at h
    · next op v k ps' =>
      split at h
      · simp at h
      · next vs ks hc =>
        obtain ⟨h1, h2, h3⟩ := collAll_eq hc
        rw [h3]
        refine .step op vs ks rs h1 ?_ (runAll_sound fuel h)
        intro h0
        simp [h0] at h2
    · rw [endsAll_eq h]; exact .done rs

theorem AllReturn.of_runAll {n : ℕ} {p : ℕ → Prog V R} {f : ℕ → R} (fuel : ℕ)
    (h : runAll fuel ((List.range n).map p) = some ((List.range n).map f)) : AllReturn n p f :=
  runAll_sound fuel h

end Pmesh
