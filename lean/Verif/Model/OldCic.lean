import Verif.Model.Numpy

/-!
# Model of the deprecated window modules: pmesh/cic.py, pmesh/_cic.py and pmesh/tsc.py

`pmesh.cic.paint` is `_cic.paint` if numba can be imported (cic.py:140-147), the python function of cic.py otherwise; both are
modelled.  The mesh is its elements in C order (`mesh.flat`) together with its shape and the flag `C_CONTIGUOUS`.  Weights are one
number per particle (a scalar weight is the same number for all).  Positions are what `transform` returns.  Arithmetic is exact.
-/

namespace Pmesh

section
variable {K : Type*} [Field K] [LinearOrder K] [IsStrictOrderedRing K] [FloorRing K]

/-- The array given to `paint` and `readout`. -/
structure FlatMesh (K : Type*) where
  shape : List ℕ
  flat : ℤ → K
  contiguous : Bool

/-- A particle: position in mesh units, weight. -/
structure OldPart (K : Type*) where
  pos : List K
  w : K

/-! ### the chunks -/

/-- `for start in range(0, Np, chunksize)`, _cic.py:62-73 and tsc.py:56-67: the body of the loop returns the new state and whether the
loop is left with an exception. `fuel` is the number of particles. -/
def chunkLoop {σ α : Type*} (chunksize : ℕ) (body : σ → List α → σ × Bool) : ℕ → σ → List α → σ × Bool
  | 0, s, _ => (s, false)
  | fuel + 1, s, ps =>
    if ps = [] then (s, false)
    else
      let r := body s (ps.take chunksize)
      if r.2 then r else chunkLoop chunksize body fuel r.1 (ps.drop chunksize)

/-! ### numba: _cic.py -/

/-- The loop over axes, _cic.py:87-105 and 129-147: index and kernel of neighbour `n`, `none` for `ignore = True`. -/
def cicPoint (n : ℕ) : ℕ → List ℕ → List ℕ → List K → ℤ → K → Option (ℤ × K)
  | d, size :: shape, per :: period, x :: pos, ind, kernel =>
    let intpos := ⌊x⌋
    let diff := x - intpos
    let rel := (n >>> d) &&& 1
    let targetpos := intpos + rel
    let kernel := if rel > 0 then kernel * diff else kernel * (1 - diff)
    let targetpos := if per > 0 then wrapLoop targetpos per else targetpos
    if targetpos < 0 ∨ targetpos ≥ size then none
    else cicPoint n (d + 1) shape period pos (ind * size + targetpos) kernel
  | _, _, _, _, ind, kernel => some (ind, kernel)

/-- `meshflat[ind] += v`. -/
def flatAdd (flat : ℤ → K) (ind : ℤ) (v : K) : ℤ → K := Function.update flat ind (flat ind + v)

/-- The loop over neighbours of one particle, given the index and kernel of each: adds the weights and counts those out of bounds,
_cic.py:83-110 and tsc.py:79-110. -/
def scatter (point : ℕ → Option (ℤ × K)) (nmax : ℕ) (w : K) (s : (ℤ → K) × ℕ) : (ℤ → K) × ℕ :=
  (List.range nmax).foldl (fun s n =>
    match point n with
    | none => (s.1, s.2 + 1)
    | some (ind, kernel) => (flatAdd s.1 ind (w * kernel), s.2)) s

/-- `paint_some`, _cic.py:75-112. -/
def cicPaintSome (shape period : List ℕ) (flat : ℤ → K) (ps : List (OldPart K)) : (ℤ → K) × ℕ :=
  ps.foldl (fun s p => scatter (fun n => cicPoint n 0 shape period p.pos 0 1) (2 ^ p.pos.length) p.w s) (flat, 0)

/-- The loop over neighbours of one particle in `readout_some`, _cic.py:124-153. -/
def cicReadPart (shape period : List ℕ) (flat : ℤ → K) (pos : List K) : K × ℕ :=
  (List.range (2 ^ pos.length)).foldl (fun s n =>
    match cicPoint n 0 shape period pos 0 1 with
    | none => (s.1, s.2 + 1)
    | some (ind, kernel) => (s.1 + flat ind * kernel, s.2)) (0, 0)

/-- `readout_some`, _cic.py:117-154: the values and the number of points out of bounds. -/
def cicReadSome (shape period : List ℕ) (flat : ℤ → K) (ps : List (List K)) : List K × ℕ :=
  (ps.map fun pos => (cicReadPart shape period flat pos).1, (ps.map fun pos => (cicReadPart shape period flat pos).2).sum)

/-- `period` as an array of one entry per axis, 0 for none, _cic.py:56-60. A number stands for that number on all axes. -/
def cicPeriod (ndim : ℕ) : Option (List ℕ) → List ℕ
  | none => List.replicate ndim 0
  | some p => p

/-- `_cic.paint`, _cic.py:11-14 and 22-73: the content of the mesh after the call and whether it raises. `mesh.ravel()` is a copy if the
mesh is not C-contiguous, and what is painted into the copy of each chunk is lost. -/
def nbPaint (chunksize : ℕ) (raise : Bool) (mesh : FlatMesh K) (period : Option (List ℕ)) (ps : List (OldPart K)) : (ℤ → K) × Bool :=
  chunkLoop chunksize (fun flat chunk =>
    let r := cicPaintSome mesh.shape (cicPeriod mesh.shape.length period) flat chunk
    (if mesh.contiguous then r.1 else flat, r.2 ≠ 0 && raise)) ps.length mesh.flat ps

/-- `_cic.readout`, _cic.py:16-20 and 22-73: the values written so far and whether it raises. -/
def nbReadout (chunksize : ℕ) (raise : Bool) (mesh : FlatMesh K) (period : Option (List ℕ)) (ps : List (List K)) : List K × Bool :=
  chunkLoop chunksize (fun out chunk =>
    let r := cicReadSome mesh.shape (cicPeriod mesh.shape.length period) mesh.flat chunk
    (out ++ r.1, r.2 ≠ 0 && raise)) ps.length [] ps

/-! ### numpy: cic.py -/

/-- `neighbours`, cic.py:39-40. -/
def cicNeighbour (ndim i : ℕ) : List ℕ := (List.range ndim).map fun d => (i >>> d) &&& 1

/-- `targetpos = intpos + neighbour`, cic.py:57-58. -/
def pyTarget (pos : List K) (nb : List ℕ) : List ℤ := List.zipWith (fun x (r : ℕ) => ⌊x⌋ + r) pos nb

/-- `(1.0 - numpy.abs(gridpos - targetpos)).prod(axis=-1)`, cic.py:60. -/
def pyKernel (pos : List K) (t : List ℤ) : K := (List.zipWith (fun (x : K) (t : ℤ) => 1 - |x - t|) pos t).prod

/-- `numpy.remainder` of integers: 0 (and a warning) for a zero divisor, for a positive one the remainder in `[0, p)`. -/
def npRemainder (t : ℤ) (p : ℕ) : ℤ := if p = 0 then 0 else t % p

/-- `if period is not None: numpy.remainder(targetpos, period, targetpos)`, cic.py:63-65. -/
def pyWrap (period : Option (List ℕ)) (t : List ℤ) : List ℤ :=
  match period with
  | none => t
  | some p => List.zipWith npRemainder t p

/-- The mask of cic.py:67-73. -/
def pyInside (shape : List ℕ) (t : List ℤ) : Bool :=
  (t.all fun t => 0 ≤ t) && (List.zipWith (fun (t : ℤ) (n : ℕ) => decide (t < n)) t shape).all id

/-- `numpy.ravel_multi_index(targetpos.T, mesh.shape, mode='raise')` for one point: an error if outside, the position in C order
otherwise. -/
def pyRavel (shape : List ℕ) (t : List ℤ) : Option ℤ :=
  if pyInside shape t then some ((List.zipWith (fun (t : ℤ) (n : ℕ) => (t, n)) t shape).foldl (fun ind p => ind * p.2 + p.1) 0) else none

/-- `u, label = numpy.unique(targetindex, return_inverse=True); mesh.flat[u] += numpy.bincount(label, add, minlength=len(u))`,
cic.py:78-79: each entry of `u` is increased by the sum of the `add` of that index. (The order of `u` plays no role.) -/
def uniqueAdd (flat : ℤ → K) (ia : List (ℤ × K)) : ℤ → K :=
  (ia.map (·.1)).dedup.foldl (fun m u => Function.update m u (flat u + ((ia.filter fun p => p.1 = u).map (·.2)).sum)) flat

/-- The loop over neighbours for one chunk, cic.py:56-79: `none` if `ravel_multi_index` raises. What was painted before stays in the mesh
in that case; the model drops it. -/
def pyPaintChunk (raise : Bool) (shape : List ℕ) (period : Option (List ℕ)) (flat : ℤ → K) (ps : List (OldPart K)) : Option (ℤ → K) :=
  (List.range (2 ^ shape.length)).foldlM (fun flat i =>
    let pts := ps.map fun p =>
      let t := pyTarget p.pos (cicNeighbour shape.length i)
      (pyWrap period t, p.w * pyKernel p.pos t)
    let pts := if raise then pts else pts.filter fun q => pyInside shape q.1
    (pts.mapM fun q => (pyRavel shape q.1).map fun ind => (ind, q.2)).map (uniqueAdd flat)) flat

/-- `paint` of cic.py:11-81; `none` if it raises. -/
def pyPaint (chunksize : ℕ) (raise : Bool) (mesh : FlatMesh K) (period : Option (List ℕ)) (ps : List (OldPart K)) : Option (ℤ → K) :=
  let r := chunkLoop chunksize (fun (flat : Option (ℤ → K)) chunk =>
    let r := flat.bind fun flat => pyPaintChunk raise mesh.shape period flat chunk
    (r, r.isNone)) ps.length (some mesh.flat) ps
  r.1

/-- One particle and one neighbour of `readout`, cic.py:112-136: what is added to the value; `none` if it raises. -/
def pyReadPoint (raise : Bool) (mesh : FlatMesh K) (period : Option (List ℕ)) (pos : List K) (i : ℕ) : Option K :=
  let t := pyTarget pos (cicNeighbour mesh.shape.length i)
  let kernel := pyKernel pos t
  let t := pyWrap period t
  if !raise && !pyInside mesh.shape t then some 0
  else (pyRavel mesh.shape t).map fun ind => kernel * mesh.flat ind

/-- `readout` of cic.py:83-137; `none` if it raises. The loops over chunks and neighbours treat each particle by itself. -/
def pyReadout (raise : Bool) (mesh : FlatMesh K) (period : Option (List ℕ)) (ps : List (List K)) : Option (List K) :=
  ps.mapM fun pos => (List.range (2 ^ mesh.shape.length)).foldlM (fun out i =>
    (pyReadPoint raise mesh period pos i).map fun v => out + v) 0

/-! ### tsc.py -/

/-- `numpy.rint`: to the nearest integer, half-integers to the even one. -/
def rint (x : K) : ℤ :=
  if x - ⌊x⌋ < 1 / 2 then ⌊x⌋ else if 1 / 2 < x - ⌊x⌋ then ⌊x⌋ + 1 else if ⌊x⌋ % 2 = 0 then ⌊x⌋ else ⌊x⌋ + 1

/-- The loop over axes, tsc.py:83-105. The strides are in units of elements. -/
def tscPoint (n period : ℕ) : ℕ → List ℕ → List ℕ → List K → ℤ → K → Option (ℤ × K)
  | d, size :: shape, stride :: strides, x :: pos, ind, kernel =>
    let intpos := rint x
    let diff := (intpos : K) - x
    let rel : ℤ := ((n / 3 ^ d % 3 : ℕ) : ℤ) - 1
    let targetpos := intpos + rel - 1
    let kernel := if rel = -1 then kernel * (1 / 2 * (1 / 2 + diff) * (1 / 2 + diff))
      else if rel = 0 then kernel * (3 / 4 - diff * diff)
      else kernel * (1 / 2 * (1 / 2 - diff) * (1 / 2 - diff))
    let targetpos := if period > 0 then wrapLoop targetpos period else targetpos
    if targetpos < 0 ∨ targetpos ≥ size then none
    else tscPoint n period (d + 1) shape strides pos (ind + stride * targetpos) kernel
  | _, _, _, _, ind, kernel => some (ind, kernel)

/-- Strides of a C-contiguous array, in elements. -/
def tscStrides : List ℕ → List ℕ
  | [] => []
  | _ :: shape => shape.prod :: tscStrides shape

/-- `paint_some`, tsc.py:70-112. -/
def tscPaintSome (shape : List ℕ) (period : ℕ) (flat : ℤ → K) (ps : List (OldPart K)) : (ℤ → K) × ℕ :=
  ps.foldl (fun s p => scatter (fun n => tscPoint n period 0 shape (tscStrides shape) p.pos 0 1) (3 ^ p.pos.length) p.w s) (flat, 0)

/-- `tsc.paint`, tsc.py:11-14 and 22-67; `none` for the `ValueError` of a mesh that is not contiguous. The period is one number, 0 for
none. -/
def tscPaint (chunksize : ℕ) (raise : Bool) (mesh : FlatMesh K) (period : ℕ) (ps : List (OldPart K)) : Option ((ℤ → K) × Bool) :=
  if mesh.contiguous then
    some (chunkLoop chunksize (fun flat chunk =>
      let r := tscPaintSome mesh.shape period flat chunk
      (r.1, r.2 ≠ 0 && raise)) ps.length mesh.flat ps)
  else none

/-- `tsc.readout`, tsc.py:16-20: the name `readout_some` is not defined anywhere in the module, so the call raises `NameError`. -/
def tscReadout (_mesh : FlatMesh K) (_ps : List (List K)) : Option (List K) := none

end
end Pmesh
