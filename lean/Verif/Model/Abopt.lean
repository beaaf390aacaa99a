import Verif.Model.Mesh
import Verif.Model.Fourier

/-!
# Model of the differentiable operators of pmesh/abopt.py

Each operator is a forward function, a `jvp` (tangent of the inputs ↦ tangent of the outputs) and a `vjp` (cotangent of the outputs ↦
cotangent of the inputs).  The engine that runs them (the package `abopt`) is not modelled; an argument listed both in `ain` and
in `aout` is changed in place, and what is not assigned keeps its value.  `ZERO` is the zero tangent.  The content of an array
on a rank is a function of the position in the array.

The operators `c2r` and `r2c` (pmesh/abopt.py:73-95) call `c2r`, `r2c`, `c2r_vjp`, `r2c_vjp` of the fields and nothing else.
-/

namespace Pmesh

/-! ## Elementwise operators on arrays and real fields -/

section
variable {K : Type} [Field K] {ι : Type}

/-- `residual`, pmesh/abopt.py:198-213: `(model - data) / sigma`. -/
def abResidual (data sigma model : ι → K) (i : ι) : K := (model i - data i) / sigma i
def abResidualVjp (sigma v : ι → K) (i : ι) : K := v i / sigma i
def abResidualJvp (sigma u : ι → K) (i : ι) : K := u i / sigma i

/-- `assign_component`, pmesh/abopt.py:215-225: `attribute[..., dim] = value`; the tangent is treated the same way. -/
def abAssignComponent (dim : ℕ) (attr : ι → ℕ → K) (value : ι → K) (i : ι) (d : ℕ) : K :=
  if d = dim then value i else attr i d
def abAssignComponentJvp (dim : ℕ) (attr : ι → ℕ → K) (value : ι → K) (i : ι) (d : ℕ) : K :=
  if d = dim then value i else attr i d
/-- `_value[...] = _attribute[..., dim]`; `_attribute` is not assigned.  The results are `_attribute` and `_value`. -/
def abAssignComponentVjp (dim : ℕ) (v : ι → ℕ → K) : (ι → ℕ → K) × (ι → K) := (v, fun i => v i dim)

/-- `assign`, pmesh/abopt.py:227-238. -/
def abAssign (x : ι → K) : ι → K := x
def abAssignVjp (v : ι → K) : ι → K := v
/-- The copy of `x` is overwritten. -/
def abAssignJvp (_x u : ι → K) : ι → K := u

/-- `add`, pmesh/abopt.py:240-251. -/
def abAdd (x1 x2 : ι → K) (i : ι) : K := x1 i + x2 i
def abAddVjp (v : ι → K) : (ι → K) × (ι → K) := (v, v)
def abAddJvp (u1 u2 : ι → K) (i : ι) : K := u1 i + u2 i

/-- `multiply`, pmesh/abopt.py:253-264. -/
def abMultiply (x1 x2 : ι → K) (i : ι) : K := x1 i * x2 i
def abMultiplyVjp (x1 x2 v : ι → K) : (ι → K) × (ι → K) := (fun i => v i * x2 i, fun i => v i * x1 i)
def abMultiplyJvp (x1 x2 u1 u2 : ι → K) (i : ι) : K := u1 i * x2 i + x1 i * u2 i

/-- `to_scalar` of a real field or an array on one rank, `idx` the positions in its array; pmesh/abopt.py:266-286. -/
def abToScalar (idx : List ι) (x : ι → K) : Prog K K :=
  .coll .allreduce (idx.map fun i => x i ^ 2).sum fun vs => .ret vs.sum
def abToScalarVjp (x : ι → K) (v : K) (i : ι) : K := x i * (2 * v)
def abToScalarJvp (idx : List ι) (x u : ι → K) : Prog K K :=
  .coll .allreduce (idx.map fun i => x i * u i).sum fun vs => .ret (vs.sum * 2)

end

/-! ## Operators on complex fields -/

section
variable {K : Type} [Field K] [DecidableEq K]

/-- `nyquist_mask(factor, v)` at one mode, pmesh/abopt.py:12-16; `i` is the (global) index of the mode. -/
def nyquistMask (nmesh i : List ℕ) (factor : Cx K) : Cx K :=
  let mask := decide (factor.2 = 0) || !(List.zipWith (fun n j => decide (j = 0) || decide (j = n / 2)) nmesh i).all id
  if mask then factor else 0

/-- `transfer` on rank `r`, pmesh/abopt.py:186-188; `tf` is the transfer function at the mode with the given index.  That
`apply` gives each mode its own coordinates is C32. -/
def abTransfer (t : Tiling) (tf : List ℕ → Cx K) (r : ℕ) (f : List ℕ → Cx K) (c : List ℕ) : Cx K :=
  cxMul (nyquistMask t.nmesh (t.global r c) (tf (t.global r c))) (f c)
/-- pmesh/abopt.py:190-192. -/
def abTransferVjp (t : Tiling) (tf : List ℕ → Cx K) (r : ℕ) (f : List ℕ → Cx K) (c : List ℕ) : Cx K :=
  cxMul (nyquistMask t.nmesh (t.global r c) (cxConj (tf (t.global r c)))) (f c)
/-- pmesh/abopt.py:194-196. -/
def abTransferJvp (t : Tiling) (tf : List ℕ → Cx K) (r : ℕ) (f : List ℕ → Cx K) (c : List ℕ) : Cx K :=
  cxMul (nyquistMask t.nmesh (t.global r c) (tf (t.global r c))) (f c)

/-- `decompress_vjp` at one mode, pmesh/pm.py:1028-1045: modes that are not their own conjugates get a factor of two. -/
def decompressVjp (nmesh i : List ℕ) (y : Cx K) : Cx K :=
  if (List.zipWith (fun (n j : ℕ) => decide ((n - j) % n = j)) nmesh i).all id then y else 2 * y

/-- `decompress`, pmesh/abopt.py:97-107; forward and `jvp` do nothing. -/
def abDecompressVjp (t : Tiling) (r : ℕ) (f : List ℕ → Cx K) (c : List ℕ) : Cx K := decompressVjp t.nmesh (t.global r c) (f c)
def abDecompressJvp (f : List ℕ → Cx K) : List ℕ → Cx K := f

end

/-- `_lowpass_filter(k, v, Neff)` at one mode, pmesh/abopt.py:109-113. -/
noncomputable def lowpassFilter (nmesh : List ℕ) (box : List ℝ) (neff : ℤ) (i : List ℕ) (v : ℂ) : ℂ :=
  if (List.zipWith (fun (n : ℕ) (bi : ℝ × ℕ) =>
      decide (|((wrapIndex n bi.2 : ℤ) : ℝ) * (2 * Real.pi / bi.1)| ≤ ((neff / 2 : ℤ) : ℝ) * (2 * Real.pi / bi.1)))
      nmesh (box.zip i)).all id then v else 0

/-- `lowpass`, pmesh/abopt.py:115-119: all steps in place. -/
noncomputable def abLowpass (nmesh cshape : List ℕ) (box : List ℝ) (neff : ℤ) (f : List ℕ → ℝ) : List ℕ → ℝ :=
  c2r nmesh cshape fun k => lowpassFilter nmesh box neff k (r2c nmesh f k)

/-- pmesh/abopt.py:121-125: `_real.c2r_vjp()` makes a new field, which is filtered and transformed back in place; the result is
not stored in `_real`. -/
noncomputable def abLowpassVjp (nmesh cshape : List ℕ) (box : List ℝ) (neff : ℤ) (v : List ℕ → ℝ) : List ℕ → ℝ :=
  let _new := r2cVjp nmesh cshape fun k => lowpassFilter nmesh box neff k (c2rVjp nmesh v k)
  v

/-- pmesh/abopt.py:127-131: likewise. -/
noncomputable def abLowpassJvp (nmesh cshape : List ℕ) (box : List ℝ) (neff : ℤ) (u : List ℕ → ℝ) : List ℕ → ℝ :=
  let _new := c2r nmesh cshape fun k => lowpassFilter nmesh box neff k (r2c nmesh u k)
  u

/-! ## Operators on particles and meshes -/

section
variable {K : Type} [Field K] [LinearOrder K] [FloorRing K]

/-- The number that a rank contributes to `comm.allreduce(len(x))`. -/
def Msg.count {α : Type} : Msg α → ℕ
  | .counts [n] => n
  | _ => 0

/-- `N = pm.comm.allreduce(len(x))`. -/
def abTotal {R : Type} (len : ℕ) (k : ℕ → Prog (Msg (List K)) R) : Prog (Msg (List K)) R :=
  .coll .allreduce (.counts [len]) fun vs => k (vs.map Msg.count).sum

/-- `paint` on rank `r`, pmesh/abopt.py:146-152. -/
def abPaint (m : PMesh K) (w : Resampler K) (r : ℕ) (lay : Option Lay) (x : List (List K)) :
    Prog (Msg (List K)) (Except MeshErr (ℤ → K)) :=
  abTotal x.length fun N => (pmPaint m w none false r lay x (.scalar 1) .none fun _ => 0).andThen fun mem =>
    .ret (.ok fun a => mem a * ((m.nmesh.prod : K) / (N : K)))

/-- pmesh/abopt.py:154-160; the result are the columns of `_x`. -/
def abPaintVjp (m : PMesh K) (w : Resampler K) (r : ℕ) (lay : Option Lay) (x : List (List K)) (v : ℤ → K) :
    Prog (Msg (List K)) (Except MeshErr (List (List K))) :=
  abTotal x.length fun N => (pmGradColumns m w r lay x (.scalar 1) v).andThen fun cols =>
    .ret (.ok (cols.map fun col => col.map (· * ((m.nmesh.prod : K) / (N : K)))))

/-- pmesh/abopt.py:162-166; `none` is the zero tangent. -/
def abPaintJvp (m : PMesh K) (w : Resampler K) (r : ℕ) (lay : Option Lay) (x : List (List K)) (u : Option (List (List K))) :
    Prog (Msg (List K)) (Except MeshErr (ℤ → K)) :=
  pmPaintJvp m w r lay x (.scalar 1) u none

/-- `readout` on rank `r`, pmesh/abopt.py:168-172. -/
def abReadout (m : PMesh K) (w : Resampler K) (r : ℕ) (lay : Option Lay) (x : List (List K)) (mesh : ℤ → K) :
    Prog (Msg (List K)) (Except MeshErr (List K)) :=
  abTotal x.length fun _ => pmReadout m w none r lay x .none mesh

/-- pmesh/abopt.py:174-177. -/
def abReadoutVjp (m : PMesh K) (w : Resampler K) (r : ℕ) (lay : Option Lay) (x : List (List K)) (mesh : ℤ → K) (v : List K) :
    Prog (Msg (List K)) (Except MeshErr ((ℤ → K) × List (List K))) := pmReadoutVjp m w r lay x v mesh

/-- pmesh/abopt.py:179-184. -/
def abReadoutJvp (m : PMesh K) (w : Resampler K) (r : ℕ) (lay : Option Lay) (x : List (List K)) (mesh : ℤ → K)
    (meshT : Option (ℤ → K)) (xT : Option (List (List K))) : Prog (Msg (List K)) (Except MeshErr (List K)) :=
  pmReadoutJvp m w none r lay x mesh meshT xT

end
end Pmesh
