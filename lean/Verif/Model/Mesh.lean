import Verif.Model.Grid
import Verif.Model.Layout
import Verif.Model.Window

/-!
# Model of `ParticleMesh.decompose`, `paint` and `RealField.readout` on several ranks, pmesh/pm.py

The FFT library (pfft) decides how the mesh is split.  What pmesh gets from it is the `edges` of the slabs along each
axis, the coordinates of each rank in the process mesh, and the strides of the local array; these are parameters.
-/

namespace Pmesh

/-- `ParticleMesh`, pmesh/pm.py:1294-1487: `Nmesh`, `BoxSize`, `partition.i_edges`, `comm.size`, the coordinates of
each rank in the process mesh, the strides of `RealField.value` on each rank (in elements), and what `numpy.empty`
contains. -/
structure PMesh (K : Type*) where
  nmesh : List ℕ
  box : List K
  edges : List (List ℕ)
  nrank : ℕ
  coord : ℕ → List ℕ
  strides : ℕ → List ℤ
  junk : ℕ → ℕ

/-- A `ResampleWindow`: kernel, tuned type, `support`. -/
structure Resampler (K : Type*) where
  kern : Kern K
  tuned : Option Tuned
  support : ℕ

/-- What can go wrong in a parallel paint or readout. -/
inductive MeshErr where
  | init | fill (e : FillErr) | lay (e : LayErr) | value
  deriving DecidableEq, Repr

section
variable {K : Type} [Field K] [LinearOrder K] [IsStrictOrderedRing K] [FloorRing K]

/-- Number of slabs along each axis, `shape` of pmesh/pm.py:1450. -/
def PMesh.shape (m : PMesh K) : List ℕ := m.edges.map fun e => e.length - 1

/-- `partition.local_i_start`. -/
def PMesh.start (m : PMesh K) (r : ℕ) : List ℕ := List.zipWith (fun (e : List ℕ) c => e.getD c 0) m.edges (m.coord r)

/-- `partition.local_i_shape`. -/
def PMesh.localShape (m : PMesh K) (r : ℕ) : List ℕ :=
  List.zipWith (fun (e : List ℕ) c => e.getD (c + 1) 0 - e.getD c 0) m.edges (m.coord r)

/-- `ilocal`, pmesh/pm.py:1452-1453: number of the *first* slab that starts where this rank starts. -/
def PMesh.ilocal (m : PMesh K) (r : ℕ) : Option ℕ :=
  ravelMultiIndex false m.shape (List.zipWith (fun (e : List ℕ) s => ((e.findIdx (· == s) : ℕ) : ℤ)) m.edges (m.start r))

/-- `DomainAssign`, pmesh/pm.py:1454-1459. -/
def PMesh.domainAssign (m : PMesh K) : Option (List ℕ) := do
  let ilocals ← (List.range m.nrank).mapM m.ilocal
  let size := m.shape.prod
  pure (ilocals.zipIdx.foldl
    (fun acc ir =>
      let start := ir.1 * size / m.nrank
      let stop := (ir.1 + 1) * size / m.nrank
      acc.mapIdx fun k a => if start ≤ k ∧ k < stop then ir.2 else a)
    ((List.range size).map m.junk))

/-- `self.domain = GridND(edges, comm=self.comm, DomainAssign=DomainAssign)`, pmesh/pm.py:1460 (periodic by default). -/
def PMesh.domain (m : PMesh K) : Option (Grid K) := do
  let a ← m.domainAssign
  pure ⟨m.edges.map fun e => e.map (Nat.cast : ℕ → K), true, a, m.nrank⟩

/-- `scale=1.0 * self.Nmesh / self.BoxSize`, pmesh/pm.py:1467. -/
def PMesh.scale (m : PMesh K) : List K := List.zipWith (fun (n : ℕ) b => (n : K) / b) m.nmesh m.box

/-- The painter made of a window and `self.affine` on rank `r`: pmesh/pm.py:1465-1468, window.py:141-143 (`diffdir`),
_window.pyx:145-153. -/
def PMesh.painter (m : PMesh K) (w : Resampler K) (gradient : Option ℕ) (r : ℕ) : Painter K :=
  ⟨w.kern, w.tuned, w.support, (List.range m.nmesh.length).map fun j =>
    ⟨if gradient = some j then 1 else 0, m.scale.getD j 0, -(((m.start r).getD j 0 : ℕ) : K), m.nmesh.getD j 0,
      (m.localShape r).getD j 0, (m.strides r).getD j 0⟩⟩

/-- `transform0(x) = transform.scale * x`, pmesh/pm.py:1787-1789. -/
def PMesh.toGrid (m : PMesh K) (x : List K) : List K := List.zipWith (· * ·) m.scale x

/-- `smoothing = smoothing.support * 0.5`, broadcast to all axes, pmesh/pm.py:1778-1779. -/
def PMesh.smoothing (m : PMesh K) (w : Resampler K) : List K := List.replicate m.nmesh.length ((w.support : K) * (1 / 2))

/-- An argument that may be missing, one number, or an array with one number per particle. -/
inductive Quant (K : Type*) where
  | none | scalar (a : K) | array (l : List K)

/-- `mass=None` or `hsml=None` mean 1; `_mkarr(var, len(pos))` broadcasts, pmesh/window.py:6-16, 144-161,
_window.pyx:160-162; the outer `none` is the ValueError of the broadcast. -/
def Quant.toArray (n : ℕ) : Quant K → Option (List K)
  | .none => some (List.replicate n 1)
  | .scalar a => some (List.replicate n a)
  | .array l => if l.length = n then some l else if l.length = 1 then some (List.replicate n (l.getD 0 0)) else Option.none

/-- The particles handed to the window. -/
def mkParticles (pos : List (List K)) (mass hsml : Quant K) : Option (List (Particle K)) := do
  let ms ← mass.toArray pos.length
  let hs ← hsml.toArray pos.length
  pure (List.zipWith (fun (x : List K) (mh : K × K) => ⟨x, mh.1, mh.2⟩) pos (ms.zip hs))

end

section
variable {K R : Type} [Field K] [LinearOrder K] [IsStrictOrderedRing K] [FloorRing K]

/-- `pm.decompose(pos, smoothing)`, pmesh/pm.py:1753-1792, on rank `r`; `sm` is the smoothing after
`FindResampler`/broadcast, one number per axis (`m.smoothing w` if it is not given). Rows of all messages are lists of
numbers. -/
def pmDecompose (m : PMesh K) (sm : List K) (r : ℕ) (pos : List (List K)) : Prog (Msg (List K)) (Except MeshErr Lay) :=
  match m.domain with
  | none => .ret (.error .init)
  | some g =>
    match decompose g sm (pos.map m.toGrid) with
    | .error e => .ret (.error (.fill e))
    | .ok sends =>
      match defined sends.indices with
      | none => .ret (.error (.fill .outOfBounds))
      | some idx => layoutInit m.nrank r sends.sendlength sends.sendcounts idx fun
        | .error e => .ret (.error (.lay e))
        | .ok lay => .ret (.ok lay)

/-- `layout.exchange(pos)` of an array of rows. -/
def exchangeRows (r : ℕ) (lay : Lay) (shp : List ℕ) (rows : List (List K))
    (k : Except MeshErr (List (List K)) → Prog (Msg (List K)) R) : Prog (Msg (List K)) R :=
  exchangeOne r lay shp rows fun
  | .error e => k (.error (.lay e))
  | .ok out =>
    match defined out with
    | none => k (.error (.lay .mpi))
    | some l => k (.ok l)

/-- `exchange(layout, value)`, pmesh/pm.py:1146-1157. A number is a row with one entry. -/
def exchangeQuant (r : ℕ) (lay : Lay) (q : Quant K)
    (k : Except MeshErr (Quant K) → Prog (Msg (List K)) R) : Prog (Msg (List K)) R :=
  match q with
  | .none => k (.ok .none)
  | .scalar a => k (.ok (.scalar a))
  | .array l => exchangeRows r lay [] (l.map fun a => [a]) fun
    | .error e => k (.error e)
    | .ok rows => k (.ok (.array (rows.map fun row => row.headD 0)))

/-- The routing of the particles in `paint` and `readout`, pmesh/pm.py:1851-1858, 779-783: the particles that arrive
on rank `r`; without a layout these are the local ones. -/
def pmRoute (m : PMesh K) (r : ℕ) (lay : Option Lay) (pos : List (List K)) (mass hsml : Quant K)
    (k : Except MeshErr (List (Particle K)) → Prog (Msg (List K)) R) : Prog (Msg (List K)) R :=
  match lay with
  | none =>
    match mkParticles pos mass hsml with
    | none => k (.error .value)
    | some ps => k (.ok ps)
  | some lay => exchangeRows r lay [m.nmesh.length] pos fun
  | .error e => k (.error e)
  | .ok localpos => exchangeQuant r lay mass fun
    | .error e => k (.error e)
    | .ok localmass => exchangeQuant r lay hsml fun
      | .error e => k (.error e)
      | .ok localhsml =>
        match mkParticles localpos localmass localhsml with
        | none => k (.error .value)
        | some ps => k (.ok ps)

/-- `pm.paint(pos, hsml, mass, gradient=gradient, hold=hold, layout=lay, out=out)` on rank `r`, pmesh/pm.py:1794-1868;
`hold=True` keeps the content of `out`, otherwise it is cleared first (here the whole memory is). -/
def pmPaint (m : PMesh K) (w : Resampler K) (gradient : Option ℕ) (hold : Bool) (r : ℕ) (lay : Option Lay) (pos : List (List K))
    (mass hsml : Quant K) (out : ℤ → K) : Prog (Msg (List K)) (Except MeshErr (ℤ → K)) :=
  pmRoute m r lay pos mass hsml fun
  | .error e => .ret (.error e)
  | .ok ps =>
    match paint (m.painter w gradient r) (if hold then out else fun _ => 0) ps with
    | none => .ret (.error .value)
    | some mem => .ret (.ok mem)

/-- A contribution made of numbers written as one made of rows with one number. -/
def Msg.toRows : Msg K → Msg (List K)
  | .none => .none
  | .shape s => .shape s
  | .flag b => .flag b
  | .counts c => .counts c
  | .block buf c o => .block (buf.map fun a => [a]) c o

/-- And back. -/
def Msg.ofRows : Msg (List K) → Msg K
  | .none => .none
  | .shape s => .shape s
  | .flag b => .flag b
  | .counts c => .counts c
  | .block buf c o => .block (buf.map fun row => row.headD 0) c o

/-- `layout.gather(localresult, out=out)` with the default mode 'sum' of an array of numbers, pmesh/pm.py:791,
pmesh/domain.py:208-318. -/
def pmGather (r : ℕ) (lay : Lay) (vals : List K) : Prog (Msg (List K)) (Except MeshErr (List K)) :=
  (gatherProg r lay [] .sum vals fun
    | .error e => .ret (.error (.lay e))
    | .ok l =>
      match defined l with
      | none => .ret (.error .value)
      | some l => .ret (.ok l)).embed Msg.toRows Msg.ofRows

/-- `field.readout(pos, hsml, gradient=gradient, layout=lay)` on rank `r`, pmesh/pm.py:745-791. -/
def pmReadout (m : PMesh K) (w : Resampler K) (gradient : Option ℕ) (r : ℕ) (lay : Option Lay) (pos : List (List K))
    (hsml : Quant K) (field : ℤ → K) : Prog (Msg (List K)) (Except MeshErr (List K)) :=
  pmRoute m r lay pos .none hsml fun
  | .error e => .ret (.error e)
  | .ok ps =>
    match readout (m.painter w gradient r) field ps with
    | none => .ret (.error .value)
    | some vals =>
      match lay with
      | none => .ret (.ok vals)
      | some lay => pmGather r lay vals

/-- Column `d` of an array with one row per particle, `v[:, d]`. -/
def column (v : List (List K)) (d : ℕ) : List K := v.map fun row => row.getD d 0

/-- `numpy` product of an array with one number per particle and a number or such an array; the outer `none` is the
ValueError of a failed broadcast. -/
def mulQuant (a : List K) (q : Quant K) : Option (List K) := (q.toArray a.length).map (List.zipWith (· * ·) a)

/-- `pm.paint_jvp(pos, mass, v_pos, v_mass, layout=lay)` on rank `r`, pmesh/pm.py:1871-1887 (`gradient=None`). The
number of columns of `pos` is the dimension of the mesh. -/
def pmPaintJvp (m : PMesh K) (w : Resampler K) (r : ℕ) (lay : Option Lay) (pos : List (List K)) (mass : Quant K)
    (vpos : Option (List (List K))) (vmass : Option (List K)) : Prog (Msg (List K)) (Except MeshErr (ℤ → K)) :=
  let first : Prog (Msg (List K)) (Except MeshErr (ℤ → K)) :=
    match vpos with
    | none => .ret (.ok fun _ => 0)
    | some vpos => forProg (fun d out =>
        match mulQuant (column vpos d) mass with
        | none => .ret (.error .value)
        | some a => pmPaint m w (some d) true r lay pos (.array a) .none out)
        (List.range m.nmesh.length) fun _ => 0
  first.andThen fun out =>
    match vmass with
    | none => .ret (.ok out)
    | some vm => pmPaint m w none true r lay pos (.array vm) .none out

/-- The loop of `paint_vjp` and `readout_vjp` over the columns of the positions: column `d` of the result is the
readout of the gradient along `d` times `q`; pmesh/pm.py:1922-1924, 832-834. The result is the list of columns. -/
def pmGradColumns (m : PMesh K) (w : Resampler K) (r : ℕ) (lay : Option Lay) (pos : List (List K)) (q : Quant K)
    (field : ℤ → K) : Prog (Msg (List K)) (Except MeshErr (List (List K))) :=
  forProg (fun d out => (pmReadout m w (some d) r lay pos .none field).andThen fun g =>
    match mulQuant g q with
    | none => .ret (.error .value)
    | some a => .ret (.ok (out ++ [a]))) (List.range m.nmesh.length) []

/-- `pm.paint_vjp(v, pos, mass, layout=lay)` on rank `r`, pmesh/pm.py:1889-1934 (`gradient=None`, both results wanted):
the columns of the gradient against the positions and the gradient against the masses. -/
def pmPaintVjp (m : PMesh K) (w : Resampler K) (r : ℕ) (lay : Option Lay) (pos : List (List K)) (mass : Quant K)
    (v : ℤ → K) : Prog (Msg (List K)) (Except MeshErr (List (List K) × List K)) :=
  (pmGradColumns m w r lay pos mass v).andThen fun cols =>
    (pmReadout m w none r lay pos .none v).andThen fun om => .ret (.ok (cols, om))

/-- `field.readout_jvp(pos, v_self, v_pos, gradient=…, layout=lay)` on rank `r`, pmesh/pm.py:848-859. The argument
`gradient` is not used by the code. -/
def pmReadoutJvp (m : PMesh K) (w : Resampler K) (_gradient : Option ℕ) (r : ℕ) (lay : Option Lay) (pos : List (List K))
    (field : ℤ → K) (vself : Option (ℤ → K)) (vpos : Option (List (List K))) :
    Prog (Msg (List K)) (Except MeshErr (List K)) :=
  let first : Prog (Msg (List K)) (Except MeshErr (List K)) :=
    match vpos with
    | none => .ret (.ok (List.replicate pos.length 0))
    | some vpos => forProg (fun d jvp => (pmReadout m w (some d) r lay pos .none field).andThen fun g =>
        .ret (.ok (List.zipWith (· + ·) jvp (List.zipWith (· * ·) g (column vpos d)))))
        (List.range m.nmesh.length) (List.replicate pos.length 0)
  first.andThen fun jvp =>
    match vself with
    | none => .ret (.ok jvp)
    | some vs => (pmReadout m w none r lay pos .none vs).andThen fun g => .ret (.ok (List.zipWith (· + ·) jvp g))

/-- `field.readout_vjp(pos, v, layout=lay)` on rank `r`, pmesh/pm.py:793-845 (both results wanted, `gradient=None`): the
gradient against the field and the columns of the gradient against the positions. -/
def pmReadoutVjp (m : PMesh K) (w : Resampler K) (r : ℕ) (lay : Option Lay) (pos : List (List K)) (v : List K)
    (field : ℤ → K) : Prog (Msg (List K)) (Except MeshErr ((ℤ → K) × List (List K))) :=
  (pmGradColumns m w r lay pos (.array v) field).andThen fun cols =>
    (pmPaint m w none false r lay pos (.array v) .none fun _ => 0).andThen fun os => .ret (.ok (os, cols))

/-- The same with `out_pos=False`, where a gradient direction is allowed. -/
def pmReadoutVjpSelf (m : PMesh K) (w : Resampler K) (gradient : Option ℕ) (r : ℕ) (lay : Option Lay) (pos : List (List K))
    (v : List K) : Prog (Msg (List K)) (Except MeshErr (ℤ → K)) :=
  pmPaint m w gradient false r lay pos (.array v) .none fun _ => 0

end
end Pmesh
