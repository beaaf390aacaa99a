import Verif.Model.Field
import Verif.Lemmas.FloatRound
import Mathlib.Data.Rat.Floor

/-!
# The coordinates of fields in floating point, pmesh/pm.py:1179-1224

`p` is the number of binary digits of the arithmetic: with numpy below version 2 that of the type of the mesh (24 for `f4`, 53 for `f8`), since
numbers such as `Nmesh[d]` do not change the type of an array; with version 2 it is 53, since `numpy.arange(..., dtype='f4') + partition.local_i_start[d]`
already has the type `f8`.  Overflow and numbers below the normal range are not modelled, and the number types are those of real numbers.
-/

namespace Pmesh

/-- `numpy.pi`. -/
def pi64 : ℚ := 884279719003555 / 2 ^ 48

/-- `numpy.arange(n, dtype) + start`, then `ri[ri >= Nmesh // 2] -= Nmesh`: element `j`, pmesh/pm.py:1189-1191 and 1213-1215. -/
def wrapIndexF (p start N j : ℕ) : ℚ :=
  let r := flRound p (flRound p (j : ℚ) + flRound p (start : ℚ))
  if r ≥ ((N / 2 : ℕ) : ℚ) then flRound p (r - flRound p (N : ℚ)) else r

/-- `xi = ri * BoxSize[d] / Nmesh[d]`, pmesh/pm.py:1193. -/
def relAxisF (p start len N : ℕ) (box : ℚ) : List ℚ :=
  (List.range len).map fun j => flRound p (flRound p (wrapIndexF p start N j * flRound p box) / flRound p (N : ℚ))

/-- `wi *= (2 * numpy.pi / Nmesh[d])`, where the factor is computed in `f8`; `ki = wi * Nmesh[d] / BoxSize[d]`, pmesh/pm.py:1217-1218. -/
def wavAxisF (p start len N : ℕ) (box : ℚ) : List ℚ :=
  (List.range len).map fun j =>
    let wi := flRound p (wrapIndexF p start N j * flRound p (flRound 53 (2 * pi64 / (N : ℚ))))
    flRound p (flRound p (wi * flRound p (N : ℚ)) / flRound p box)

/-- The wavevector that `apply` gives to the function for the local element `c` on rank `r`, pmesh/pm.py:617-648. -/
def kVectorF (p : ℕ) (t : Tiling) (box : List ℚ) (r : ℕ) (c : List ℕ) : List ℚ :=
  (List.range t.nmesh.length).map fun d =>
    (wavAxisF p ((t.start r).getD d 0) ((t.lshape r).getD d 0) (t.nmesh.getD d 0) (box.getD d 0)).getD (c.getD d 0) 0

/-- `complex.apply(lambda k, v: H(k) * v)` with a function that returns real numbers, on rank `r`: both parts are multiplied and rounded to the `q`
digits of the field. -/
def filterF (p q : ℕ) (t : Tiling) (box : List ℚ) (H : List ℚ → ℚ) (r : ℕ) (f : List ℕ → Cx ℚ) (c : List ℕ) : Cx ℚ :=
  let h := H (kVectorF p t box r c)
  (flRound q (h * (f c).1), flRound q (h * (f c).2))

end Pmesh
