import Verif.Model.Field
import Verif.Model.Fourier
import Verif.Model.Mesh

/-!
# Model of meshes of complex numbers, pmesh/pm.py:1268-1272, 1343-1349

With `dtype='c16'` a `RealField` is an array of complex numbers, the transforms are complex to complex (`r2cFull`,
`c2rFull` in `Verif.Model.Fourier`) and the spectrum is stored in full.
-/

namespace Pmesh

section
variable {K : Type} [Field K]

/-- `RealField.cdot` on rank `r`, pmesh/pm.py:897-899, of arrays of complex numbers: `numpy.sum(self * other)`, without a
complex conjugation. -/
def complexCdot (t : Tiling) (r : ℕ) (f g : List ℕ → Cx K) : Prog (Cx K) (Cx K) :=
  .coll .allreduce ((ndindex (t.lshape r)).map fun c => cxMul (f c) (g c)).sum fun vs => .ret vs.sum

/-- `RealField.cnorm`, pmesh/pm.py:901-902: `self.cdot(self)`. -/
def complexCnorm (t : Tiling) (r : ℕ) (f : List ℕ → Cx K) : Prog (Cx K) (Cx K) := complexCdot t r f f

end

section
variable {K : Type} [Field K] [LinearOrder K] [IsStrictOrderedRing K] [FloorRing K]

/-- `field.readout(pos, hsml, gradient=gradient, layout=lay)` of an array of complex numbers, pmesh/pm.py:745-791: the
window gets the view `real.real`, pmesh/window.py:216-217. -/
def cxReadout (m : PMesh K) (w : Resampler K) (gradient : Option ℕ) (r : ℕ) (lay : Option Lay) (pos : List (List K))
    (hsml : Quant K) (field : ℤ → Cx K) : Prog (Msg (List K)) (Except MeshErr (List K)) :=
  pmReadout m w gradient r lay pos hsml fun a => (field a).1

/-- `pm.paint(pos, hsml, mass, gradient=gradient, hold=hold, layout=lay, out=out)` into an array of complex numbers,
pmesh/pm.py:1794-1868: the array is cleared unless `hold`, and the window adds to the view `real.real`,
pmesh/window.py:161-162. -/
def cxPaint (m : PMesh K) (w : Resampler K) (gradient : Option ℕ) (hold : Bool) (r : ℕ) (lay : Option Lay) (pos : List (List K))
    (mass hsml : Quant K) (out : ℤ → Cx K) : Prog (Msg (List K)) (Except MeshErr (ℤ → Cx K)) :=
  (pmPaint m w gradient hold r lay pos mass hsml fun a => (out a).1).andThen fun mem =>
    .ret (.ok fun a => (mem a, if hold then (out a).2 else 0))

end
end Pmesh
