import Verif.Model.OldState

/-!
# Specification for C78: what the deprecated `ParticleMesh` computes

The machine that a user has in mind: there is one current field, which is real or complex, and a stack of saved complex fields.
There is no memory.  A call that needs a real field when the current field is complex, or the reverse, has no meaning.
-/

namespace Pmesh

variable {Mem R C Q : Type}

/-- The current field and the saved ones. -/
structure Ideal (R C : Type) where
  field : R ⊕ C
  stack : List C

/-- One call. -/
def Ideal.step [AddZeroClass R] (F : Fft Mem R C) : OldOp R C Q → Ideal R C → Option (Ideal R C × List Q)
  | .clear, s => some (⟨.inl 0, s.stack⟩, [])
  | .paint d, ⟨.inl r, st⟩ => some (⟨.inl (r + d), st⟩, [])
  | .r2c, ⟨.inl r, st⟩ => some (⟨.inr (F.norm (F.fwd r)), st⟩, [])
  | .readout q, ⟨.inl r, st⟩ => some (⟨.inl r, st⟩, [q r])
  | .push, ⟨.inr c, st⟩ => some (⟨.inr c, c :: st⟩, [])
  | .pop, ⟨_, c :: st⟩ => some (⟨.inr c, st⟩, [])
  | .transfer ts, ⟨.inr c, st⟩ => some (⟨.inr (ts.foldl (fun c t => t c) c), st⟩, [])
  | .c2r ts, ⟨.inr c, st⟩ => some (⟨.inl (F.bwd (ts.foldl (fun c t => t c) c)), st⟩, [])
  | _, _ => none

/-- A sequence of calls. -/
def Ideal.run [AddZeroClass R] (F : Fft Mem R C) : List (OldOp R C Q) → Ideal R C → Option (Ideal R C × List Q)
  | [], s => some (s, [])
  | o :: os, s => (Ideal.step F o s).bind fun (s, a) => (Ideal.run F os s).map fun (s, b) => (s, a ++ b)

/-- The memory holds the current field in the view that belongs to it. -/
def Ideal.In (F : Fft Mem R C) (i : Ideal R C) (s : OldState Mem C) : Prop :=
  s.stack = i.stack ∧ match i.field with
    | .inl r => F.getR s.mem = r
    | .inr c => F.getC true s.mem = c

/-- Sequences in which every `push` has its `pop`, like brackets. -/
inductive Balanced : List (OldOp R C Q) → Prop
  | nil : Balanced []
  | one (o : OldOp R C Q) (h1 : o ≠ .push) (h2 : o ≠ .pop) : Balanced [o]
  | append {p q : List (OldOp R C Q)} : Balanced p → Balanced q → Balanced (p ++ q)
  | saved {p : List (OldOp R C Q)} : Balanced p → Balanced (.push :: p ++ [.pop])

/-- The standard steps of a particle mesh solver: clear, paint the particles, transform, and for each direction of the force
transform back with the transfer functions of the direction and read out, with the complex field saved meanwhile. -/
def forceLoop (particles : List R) (dirs : List (List (C → C) × (R → Q))) : List (OldOp R C Q) :=
  .clear :: (particles.map .paint ++ .r2c :: dirs.flatMap fun d => [.push, .c2r d.1, .readout d.2, .pop])

end Pmesh
