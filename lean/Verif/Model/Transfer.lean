import Verif.Model.Field
import Verif.Model.Spmd
import Mathlib.Analysis.SpecialFunctions.Trigonometric.Basic
import Mathlib.Analysis.SpecialFunctions.Exp

/-!
# Model of the deprecated transfer functions, pmesh/transfer.py, and of `ParticleMesh.transfer`, pmesh/particlemesh.py:316-332

A transfer function gets the object `pm`, of which it uses `w` and `comm`, and the local part of the complex field, which it
modifies in place.  The local part of rank `r` is a function of the local index; `none` is a value that is not a finite number.
Numbers are real numbers (in the code `w` is in single precision).  The body of `PowerSpectrum` after its first exception is not
modelled.
-/

namespace Pmesh

/-- An element of the complex field; `none` for infinite and nan. -/
abbrev CVal := Option (Cx ℝ)

/-- The exceptions of the transfer functions. -/
inductive TransferErr where
  | index | type | unbound
  deriving DecidableEq, Repr

/-- `wi` along one axis, pmesh/particlemesh.py:136-142. -/
noncomputable def oldW (N start len : ℕ) : List ℝ := (indexAxis start len).map fun i => (wrapIndex N i : ℝ) * (2 * Real.pi / N)

/-- `pm.w` of rank `r`, pmesh/particlemesh.py:128-151: one array per axis. -/
noncomputable def Tiling.oldW (t : Tiling) (N r : ℕ) : List (List ℝ) := List.zipWith (Pmesh.oldW N) (t.start r) (t.lshape r)

/-- The loop that looks for the zero mode, pmesh/transfer.py:47-51 and 62-65, from axis `d` on: `none` for `found = False`.
`(wi == 0).nonzero()[0][0]` is the first index **along axis 0** of the array `wi`, which has `ndim` axes: it is 0 unless
`d` is 0. -/
noncomputable def dcIndex : ℕ → List (List ℝ) → Option (List ℕ)
  | _, [] => some []
  | d, wi :: ws =>
    if wi.all fun x => decide (x ≠ 0) then none
    else (dcIndex (d + 1) ws).map fun ind => (if d = 0 then wi.findIdx fun x => decide (x = 0) else 0) :: ind

/-- `numpy.abs(z)`. -/
noncomputable def cxAbs (z : Cx ℝ) : ℝ := Real.sqrt (z.1 ^ 2 + z.2 ^ 2)

/-- `value` before the reduction, pmesh/transfer.py:45-54. -/
noncomputable def dcValue (w : List (List ℝ)) (f : List ℕ → CVal) : Option ℝ :=
  match dcIndex 0 w with
  | some ind => (f ind).map cxAbs
  | none => some 0

/-- `comm.allreduce(value, MPI.SUM)`, given the contributions. -/
noncomputable def sumVals (vs : List (Option ℝ)) : Option ℝ :=
  vs.foldr (fun v s => v.bind fun a => s.map fun b => a + b) (some 0)

/-- Division of an element by a number; division by zero gives inf or nan. -/
noncomputable def cvalDiv (z : CVal) (q : Option ℝ) : CVal :=
  z.bind fun z => q.bind fun q => if q = 0 then none else some (z.1 / q, z.2 / q)

/-- Product of an element with a complex number. -/
noncomputable def cvalMul (z : CVal) (q : Cx ℝ) : CVal := z.map fun z => cxMul z q

/-- `w2` for one row, pmesh/transfer.py:200-204 and 234-240: `none` for `-inf`. -/
noncomputable def rowW2 (w : List (List ℝ)) (row : ℕ) (c : List ℕ) : Option ℝ :=
  let w2 := (List.zipWith (fun (wi : List ℝ) i => wi.getD i 0 ^ 2) w (row :: c.tail)).sum
  if w2 = 0 then none else some (-w2)

/-- The transfer functions. -/
inductive Transfer where
  | normalizeDC | removeDC | trilinear
  | superLanzcos (dir order : ℕ)
  | gaussian (smoothing : ℝ)
  | constant (c : Cx ℝ)
  | inspect (indices : List (List ℕ))
  | laplace | poisson

/-- The call `transfer(self, self.complex)` on a rank with frequencies `w` and a local array of shape `shape`.

* `NormalizeDC`, transfer.py:38-56; `RemoveDC`, 58-67
* `Trilinear`, 69-73, has three arguments without default; the call gives two
* `SuperLanzcos(dir, order)`, 75-95; `Gaussian(smoothing)`, 97-112; `Constant(C)`, 114-119
* `Inspect(name, *indices)`, 121-131: the indices are local ones
* `Laplace`, 186-205: `complex[:] *= w2` is behind the loop, and `w2` is that of the last row
* `Poisson`, 208-241 -/
noncomputable def Transfer.run (w : List (List ℝ)) (shape : List ℕ) (op : Transfer) (f : List ℕ → CVal) :
    Prog (Option ℝ) (Except TransferErr (List ℕ → CVal)) :=
  match op with
  | .normalizeDC =>
    .coll .allreduce (dcValue w f) fun vs => .ret (.ok fun c => cvalDiv (f c) (sumVals vs))
  | .removeDC =>
    match dcIndex 0 w with
    | none => .ret (.ok f)
    | some ind => .ret (.ok (Function.update f ind (some (0, 0))))
  | .trilinear => .ret (.error .type)
  | .superLanzcos dir order =>
    match w[dir]? with
    | none => .ret (.error .index)
    | some wi =>
      let tmp := fun x : ℝ => if order = 0 then x else 1 / 6 * (8 * Real.sin x - Real.sin (2 * x))
      .ret (.ok fun c => cvalMul (f c) (0, tmp (wi.getD (c.getD dir 0) 0)))
  | .gaussian s =>
    .ret (.ok fun c => (List.zipWith (fun (wi : List ℝ) i => Real.exp (-(1 / 2) * wi.getD i 0 ^ 2 * s ^ 2)) w c).foldl
      (fun z e => cvalMul z (e, 0)) (f c))
  | .constant a => .ret (.ok fun c => cvalMul (f c) a)
  | .inspect indices =>
    if indices.all fun i => decide (i.length ≤ shape.length) && (List.zipWith (fun a n => decide (a < n)) i shape).all id then
      .ret (.ok f)
    else .ret (.error .index)
  | .laplace =>
    if shape.headD 0 = 0 then .ret (.error .unbound)
    else .ret (.ok fun c => (rowW2 w (shape.headD 0 - 1) c).bind fun q => cvalMul (f c) (q, 0))
  | .poisson =>
    .ret (.ok fun c => match rowW2 w (c.headD 0) c with
      | none => (f c).map fun _ => (0, 0)
      | some q => cvalDiv (f c) (some q))

/-- `transfer(transfer_functions)` on rank `r`, pmesh/particlemesh.py:316-332. -/
noncomputable def oldTransfer (t : Tiling) (N r : ℕ) (ops : List Transfer) (f : List ℕ → CVal) :
    Prog (Option ℝ) (Except TransferErr (List ℕ → CVal)) :=
  forProg (fun op f => op.run (t.oldW N r) (t.lshape r) f) ops f

/-- The exception that `PowerSpectrum` raises before its first collective, if any, pmesh/transfer.py:133-183: without rows,
`wsum` is not assigned; otherwise the mask `singular = w[0][-1] == 0` has shape `(1, …, 1)`, which must be the shape of a row of
the array (`scratch[singular] *= 0.5`, IndexError of numpy 1.13 or later). -/
def powerSpectrumStart (shape : List ℕ) : Option TransferErr :=
  match shape with
  | [] => some .index
  | n0 :: rest => if n0 = 0 then some .unbound else if rest = List.replicate rest.length 1 then none else some .index

end Pmesh
