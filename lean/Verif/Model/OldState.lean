import Verif.Model.Buffers
import Mathlib.Algebra.Group.Defs

/-!
# Model of the deprecated `ParticleMesh` as a state machine, pmesh/particlemesh.py

One buffer holds the real and the complex field (lines 107-111); the plans destroy their input and work in place (104, 114-120).  The
values on all ranks are one value here, as in `Model/Buffers.lean`; what `paint` adds, what a transfer function does and what
`readout` reads on the ranks are in `Model/OldPM.lean` and `Model/Transfer.lean`.
-/

namespace Pmesh

/-- The methods. `paint` is given as the field that the painter adds, `readout` as the function of the real field that it returns. -/
inductive OldOp (R C Q : Type) where
  | clear
  | paint (d : R)
  | r2c
  | push
  | pop
  | transfer (ts : List (C → C))
  | c2r (ts : List (C → C))
  | readout (q : R → Q)

/-- The buffer of `self.real` and `self.complex`, and `self.stack`, last pushed first. -/
structure OldState (Mem C : Type) where
  mem : Mem
  stack : List C

variable {Mem R C Q : Type}

/-- `transfer`, pmesh/particlemesh.py:316-332: the functions in order, each in place. -/
def stateTransfer (F : Fft Mem R C) (ts : List (C → C)) (m : Mem) : Mem :=
  ts.foldl (fun m t => F.setC true (t (F.getC true m)) m) m

/-- One call: the state afterwards and the value returned, if any. `none` is the `IndexError` of `pop` (314). `junk` is what the
transforms leave in the bytes outside of the view they write.
`clear` 220-233, `paint` 235-265, `r2c` 267-295, `push` 297-305, `pop` 307-314, `readout` 334-353, `c2r` 355-374. -/
def oldStep [AddZeroClass R] (F : Fft Mem R C) (junk : Mem → Mem) : OldOp R C Q → OldState Mem C → Option (OldState Mem C × List Q)
  | .clear, s => some ({ s with mem := F.setR 0 s.mem }, [])
  | .paint d, s => some ({ s with mem := F.setR (F.getR s.mem + d) s.mem }, [])
  | .r2c, s =>
    let m := F.setC true (F.fwd (F.getR s.mem)) (junk s.mem)
    some ({ s with mem := F.setC true (F.norm (F.getC true m)) m }, [])
  | .push, s => some ({ s with stack := F.getC true s.mem :: s.stack }, [])
  | .pop, ⟨_, []⟩ => none
  | .pop, ⟨m, c :: cs⟩ => some (⟨F.setC true c m, cs⟩, [])
  | .transfer ts, s => some ({ s with mem := stateTransfer F ts s.mem }, [])
  | .c2r ts, s =>
    let m := stateTransfer F ts s.mem
    some ({ s with mem := F.setR (F.bwd (F.getC true m)) (junk m) }, [])
  | .readout q, s => some (s, [q (F.getR s.mem)])

/-- A sequence of calls: the final state and all values returned. -/
def oldRun [AddZeroClass R] (F : Fft Mem R C) (junk : Mem → Mem) : List (OldOp R C Q) → OldState Mem C → Option (OldState Mem C × List Q)
  | [], s => some (s, [])
  | o :: os, s => (oldStep F junk o s).bind fun (s, a) => (oldRun F junk os s).map fun (s, b) => (s, a ++ b)

end Pmesh
