import Verif.Model.Buffers

/-!
# What transforms should do to memory
-/

namespace Pmesh

variable {Mem R C : Type}

/-- The modes that a field of any class stands for: those it stores, or those of its values. -/
def Fft.modes (F : Fft Mem R C) (m : Memory Mem) (f : Fld) : C :=
  match f.ty with
  | .real => F.norm (F.fwd (F.getR (m.mem f.buf)))
  | .complex t => F.getC t (m.mem f.buf)

/-- The values that a field of any class stands for: those it stores, or those of its modes. -/
def Fft.values (F : Fft Mem R C) (m : Memory Mem) (f : Fld) : R :=
  match f.ty with
  | .real => F.getR (m.mem f.buf)
  | .complex t => F.bwd (F.getC t (m.mem f.buf))

/-- Every buffer that existed before is as before, except the buffer `b`. -/
def OnlyWrites (b : ℕ) (m m' : Memory Mem) : Prop := ∀ c, c < m.next → c ≠ b → m'.mem c = m.mem c

end Pmesh
