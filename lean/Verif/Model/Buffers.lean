import Mathlib.Logic.Function.Basic
import Mathlib.Data.Nat.Notation

/-!
# Model of the memory of fields and of the choice of plans, pmesh/pm.py:218-245, 450-477, 479-543, 655-695, 987-1020

A field is a typed view of a buffer (`_base`).  Several fields may share a buffer.  The values of a field on all ranks are one
value here, and so are the contents of a buffer, because every rank does the same steps with its part.

`_base in other._base and other._base in _base` (pm.py:676, 1004) is modelled as equality of the buffers: two buffers are the same
memory or disjoint.  The memory of a new buffer is whatever was there.
-/

namespace Pmesh

/-- The classes `RealField`, `TransposedComplexField` and `UntransposedComplexField`. -/
inductive FieldType where
  | real
  | complex (transposed : Bool)
deriving DecidableEq, Repr

/-- A field object: its class and its buffer, pm.py:218-245. -/
structure Fld where
  ty : FieldType
  buf : ℕ
deriving DecidableEq, Repr

/-- pfft for one `ParticleMesh`: `view_input` and `view_output` (pm.py:235, 239) as functions that read and write a view of a
buffer, the unnormalised transforms, the multiplication with `numpy.prod(self.Nmesh ** -1.0)` (pm.py:692) and `_use_padded`
(pm.py:1328-1334). -/
structure Fft (Mem R C : Type) where
  getR : Mem → R
  setR : R → Mem → Mem
  getC : Bool → Mem → C
  setC : Bool → C → Mem → Mem
  fwd : R → C
  bwd : C → R
  norm : C → C
  padded : Bool

/-- What is written to a view is read from this view. Nothing is said about the other views of the buffer. -/
structure Fft.OK {Mem R C : Type} (F : Fft Mem R C) : Prop where
  real : ∀ v m, F.getR (F.setR v m) = v
  complex : ∀ t v m, F.getC t (F.setC t v m) = v

/-- The memory: contents of the buffers and the number of the next buffer to be allocated. -/
structure Memory (Mem : Type) where
  mem : ℕ → Mem
  next : ℕ

/-- Write a buffer. -/
def Memory.put {Mem : Type} (m : Memory Mem) (b : ℕ) (x : Mem) : Memory Mem := { m with mem := Function.update m.mem b x }

/-- Allocate a buffer: `LocalBuffer(partition, base=None)`, pm.py:226. -/
def Memory.alloc {Mem : Type} (m : Memory Mem) : ℕ × Memory Mem := (m.next, { m with next := m.next + 1 })

/-- The plans of pm.py:1436-1440, named by the arguments of `make_duo` and the direction. -/
structure Plan where
  inplace : Bool
  transposed : Bool
  forward : Bool
deriving DecidableEq, Repr

variable {Mem R C : Type}

/-- `plan.execute(input, output)`.  A plan made for one buffer must be used with one buffer, a plan made for two buffers with two,
pm.py:1421-1433; otherwise both buffers are `junk` afterwards.  The transform without padding destroys its input (pm.py:1331).
Bytes of the output that are not in the view written are junk. -/
def Fft.execute (F : Fft Mem R C) (junk : Plan → Memory Mem → ℕ → Mem) (p : Plan) (i o : ℕ) (m : Memory Mem) : Memory Mem :=
  let x := m.mem i
  let y := junk p m o
  let result := if p.forward then F.setC p.transposed (F.fwd (F.getR x)) y else F.setR (F.bwd (F.getC p.transposed x)) y
  if p.inplace then
    if i = o then m.put o result else (m.put i (junk p m i)).put o y
  else
    if i = o then m.put o y
    else (if F.padded then m else m.put i (junk p m i)).put o result

/-- The argument `out` of `r2c` and `c2r`. `Ellipsis` and the field itself both mean in place (pm.py:663-667, 990-994). -/
inductive OutArg where
  | none
  | inplace
  | other (f : Fld)
deriving DecidableEq, Repr

/-- `RealField.r2c`, pm.py:655-695, of a real field in buffer `a`. `none` is the failed assertion of pm.py:669. -/
def Fft.r2c (F : Fft Mem R C) (junk : Plan → Memory Mem → ℕ → Mem) (a : ℕ) (out : OutArg) (m : Memory Mem) : Option (Fld × Memory Mem) :=
  let (f, m) : Fld × Memory Mem := match out with
    | .none => (⟨.complex true, m.alloc.1⟩, m.alloc.2)
    | .inplace => (⟨.complex true, a⟩, m)
    | .other f => (f, m)
  match f.ty with
  | .real => Option.none
  | .complex t =>
    let (a, m) : ℕ × Memory Mem := if F.padded then (a, m) else (f.buf, m.put f.buf (F.setR (F.getR (m.mem a)) (m.mem f.buf)))
    let m := F.execute junk ⟨decide (a = f.buf), t, true⟩ a f.buf m
    some (f, m.put f.buf (F.setC t (F.norm (F.getC t (m.mem f.buf))) (m.mem f.buf)))

/-- `BaseComplexField.c2r`, pm.py:987-1020, of a complex field in buffer `a`. `none` is the failed assertion of pm.py:996. -/
def Fft.c2r (F : Fft Mem R C) (junk : Plan → Memory Mem → ℕ → Mem) (t : Bool) (a : ℕ) (out : OutArg) (m : Memory Mem) : Option (Fld × Memory Mem) :=
  let (f, m) : Fld × Memory Mem := match out with
    | .none => (⟨.real, m.alloc.1⟩, m.alloc.2)
    | .inplace => (⟨.real, a⟩, m)
    | .other f => (f, m)
  match f.ty with
  | .complex _ => Option.none
  | .real =>
    let (a, m) : ℕ × Memory Mem := if F.padded then (a, m) else (f.buf, m.put f.buf (F.setC t (F.getC t (m.mem a)) (m.mem f.buf)))
    some (f, F.execute junk ⟨decide (a = f.buf), t, false⟩ a f.buf m)

/-- `Field.cast`, pm.py:450-477. Of `out` only the buffer is used. -/
def Fft.cast (F : Fft Mem R C) (junk : Plan → Memory Mem → ℕ → Mem) (s : Fld) (ty : FieldType) (out : Option ℕ) (m : Memory Mem) :
    Option (Fld × Memory Mem) :=
  let (b, m) : ℕ × Memory Mem := match out with
    | none => m.alloc
    | some b => (b, m)
  let f : Fld := ⟨ty, b⟩
  match s.ty, ty with
  | .real, .complex _ => F.r2c junk s.buf (.other f) m
  | .real, .real => some (f, m.put b (F.setR (F.getR (m.mem s.buf)) (m.mem b)))
  | .complex t, .real => F.c2r junk t s.buf (.other f) m
  | .complex t, .complex u =>
    if t = u then some (f, m.put b (F.setC u (F.getC t (m.mem s.buf)) (m.mem b)))
    else (F.c2r junk t s.buf (.other ⟨.real, b⟩) m).bind fun (tmp, m) => F.r2c junk tmp.buf (.other f) m

variable {R' C' : Type}

/-- `Field.resample`, pm.py:479-543, from a field of mesh `F` into the field `o` of mesh `G`.  `same` says that `Nmesh` agrees, and
`sel` is what the modes of the result are in terms of the modes of the source (pm.py:498-538, see Model/Field.lean). -/
def Fft.resample (F : Fft Mem R C) (G : Fft Mem R' C') (junk : Plan → Memory Mem → ℕ → Mem) (sel : C → C') (same : Bool) (s o : Fld)
    (m : Memory Mem) : Option (Fld × Memory Mem) :=
  (if same then (F.cast junk s o.ty (some o.buf) m).map (·.2) else some m).bind fun m =>
  (F.cast junk s (.complex true) none m).bind fun (c, m) =>
  let m := m.put o.buf (G.setC true (sel (F.getC true (m.mem c.buf))) (m.mem o.buf))
  match o.ty with
  | .real => G.c2r junk true o.buf (.other o) m
  | .complex _ => some (o, m)

end Pmesh
