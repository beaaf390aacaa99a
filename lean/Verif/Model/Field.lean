import Verif.Model.Numpy
import Verif.Model.Spmd

/-!
# Model of the collective field operations, pmesh/pm.py

Coordinates of mesh points and modes, collective access to single elements, norms and inner products.

The FFT library decides how a global array is split over the ranks; what pmesh gets is the place of the local array in the
global one.  The local array is a function of the local index here (memory order matters for `apply`, see
`Verif.Model.Slab`).
-/

namespace Pmesh

/-- How a `Field` is stored: `Nmesh`, `cshape` (the shape of the global array: `Nmesh`, or `Nmesh // 2 + 1` elements on the
last axis if Hermitian-compressed), number of ranks, `start` and `shape` of the local array, pmesh/pm.py:220-265. -/
structure Tiling where
  nmesh : List ℕ
  cshape : List ℕ
  nrank : ℕ
  start : ℕ → List ℕ
  lshape : ℕ → List ℕ

/-- A complex number: real and imaginary part. -/
abbrev Cx (K : Type) := K × K

section
variable {K : Type} [Field K]

/-- `numpy.conj`. -/
def cxConj (z : Cx K) : Cx K := (z.1, -z.2)

/-- Product of complex numbers. -/
def cxMul (z w : Cx K) : Cx K := (z.1 * w.1 - z.2 * w.2, z.1 * w.2 + z.2 * w.1)

/-! ## Coordinates -/

/-- `numpy.arange(len) + start`: `i_ind`, `o_ind` along one axis, pmesh/pm.py:1187, 1211. -/
def indexAxis (start len : ℕ) : List ℤ := (List.range len).map fun (j : ℕ) => (j : ℤ) + start

/-- `ri[ri >= Nmesh // 2] -= Nmesh`, pmesh/pm.py:1191 and 1215. -/
def wrapIndex (N : ℕ) (i : ℤ) : ℤ := if i ≥ ((N / 2 : ℕ) : ℤ) then i - N else i

/-- `_init_i_coords` along one axis, pmesh/pm.py:1189-1193: the relative coordinates of a `RealField`. -/
def relAxis (start len N : ℕ) (box : K) : List K :=
  (indexAxis start len).map fun i => (wrapIndex N i : K) * box / (N : K)

/-- `_init_o_coords` along one axis, pmesh/pm.py:1213-1218: the wavenumbers of a `ComplexField`; `pi` is `numpy.pi`. -/
def wavAxis (pi : K) (start len N : ℕ) (box : K) : List K :=
  (indexAxis start len).map fun i => (wrapIndex N i : K) * (2 * pi / (N : K)) * (N : K) / box

/-- The coordinates for `kind='circular'`, pmesh/pm.py:643. -/
def circAxis (pi : K) (start len N : ℕ) (box : K) : List K := (wavAxis pi start len N box).map fun k => k * box / (N : K)

/-! ## Collective access -/

/-- What an index of `cgetitem`/`csetitem` selects: the complex number, its real or its imaginary part (a further index 0
or 1). -/
inductive Part where
  | whole | re | im
  deriving DecidableEq, Repr

/-- `index1[index1 < 0] += Nmesh[index1 < 0]`, pmesh/pm.py:281. -/
def unNegative (nmesh : List ℕ) (index : List ℤ) : List ℤ :=
  List.zipWith (fun (i : ℤ) (n : ℕ) => if i < 0 then i + n else i) index nmesh

/-- `_ctol`, pmesh/pm.py:267-285, for an index of the right length: the local index, if this rank stores the element. -/
def Tiling.ctol (t : Tiling) (r : ℕ) (index : List ℤ) : Option (List ℕ) :=
  let i1 := unNegative t.nmesh index
  if (List.zipWith (fun (i : ℤ) (s : ℕ) => decide (i ≥ s)) i1 (t.start r)).all id &&
      (List.zipWith (fun (i : ℤ) (e : ℕ) => decide (i < e)) i1 (List.zipWith (· + ·) (t.start r) (t.lshape r))).all id then
    some (List.zipWith (fun (i : ℤ) (s : ℕ) => (i - s).toNat) i1 (t.start r))
  else none

/-- Read the whole number or a part of it; parts are numbers with imaginary part 0. -/
def getPart (p : Part) (z : Cx K) : Cx K :=
  match p with
  | .whole => z
  | .re => (z.1, 0)
  | .im => (z.2, 0)

/-- Assign the whole number or a part of it. -/
def setPart (p : Part) (z y : Cx K) : Cx K :=
  match p with
  | .whole => y
  | .re => (y.1, z.2)
  | .im => (z.1, y.1)

/-- `cgetitem`, pmesh/pm.py:287-296, on rank `r`; `f` is the local array.  An index of another length raises `IndexError`
on every rank (`none`). -/
def cgetitem (t : Tiling) (r : ℕ) (p : Part) (index : List ℤ) (f : List ℕ → Cx K) : Prog (Cx K) (Option (Cx K)) :=
  if index.length = t.nmesh.length then
    let ret := match t.ctol r index with
      | some c => getPart p (f c)
      | none => 0
    .coll .allreduce ret fun vs => .ret (some vs.sum)
  else .ret none

/-- The dual index, pmesh/pm.py:307-312: `-index + Nmesh`, modulo `Nmesh`. -/
def dualIndex (nmesh : List ℕ) (index : List ℤ) : List ℤ :=
  List.zipWith (fun (i : ℤ) (n : ℕ) => (-i + n) % n) index nmesh

/-- What `csetitem` assigns on rank `r`, pmesh/pm.py:319-338: the value for the element and the value for its dual, given
the local indices. -/
def csetValues (p : Part) (loc dual : Option (List ℕ)) (y : Cx K) : Cx K × Cx K :=
  let same := loc.isSome && dual.isSome && loc == dual
  let y1 := if loc = none then 0 else y
  let dy1 := if dual = none then 0 else y
  match p with
  | .im => if same then (0, 0) else (y1, -dy1)
  | .whole => if same then ((y1.1, 0), ((cxConj dy1).1, 0)) else (y1, cxConj dy1)
  | .re => (y1, dy1)

/-- `value[localindex] = y` if the rank stores the element, pmesh/pm.py:340-343. -/
def writeAt (p : Part) (f : List ℕ → Cx K) (loc : Option (List ℕ)) (y : Cx K) : List ℕ → Cx K :=
  match loc with
  | none => f
  | some c => fun c' => if c' = c then setPart p (f c) y else f c'

/-- `csetitem`, pmesh/pm.py:298-345, on rank `r`: the new local array and the returned value.  `cx` says whether the field
is a complex field. -/
def csetitem (t : Tiling) (cx : Bool) (r : ℕ) (p : Part) (index : List ℤ) (y : Cx K) (f : List ℕ → Cx K) :
    Prog (Cx K) (Option ((List ℕ → Cx K) × Cx K)) :=
  if index.length = t.nmesh.length then
    let loc := t.ctol r index
    let dual := if cx then t.ctol r (dualIndex t.nmesh index) else none
    let ys := csetValues p loc dual y
    let f' := writeAt p (writeAt p f loc ys.1) dual ys.2
    .coll .allreduce ys.1 fun vs => .ret (some (f', vs.sum))
  else .ret none

/-! ## Norms -/

/-- `compressed`, pmesh/pm.py:357-375; `none` is the ValueError. -/
def Tiling.compressed (t : Tiling) : Option Bool :=
  if t.nmesh.getLastD 0 = t.cshape.getLastD 0 then some false
  else if t.nmesh.getLastD 0 / 2 + 1 = t.cshape.getLastD 0 then some true
  else none

/-- Global index of a local element, `field.i` at that element. -/
def Tiling.global (t : Tiling) (r : ℕ) (c : List ℕ) : List ℕ := List.zipWith (· + ·) (t.start r) c

/-- `_expand_hermitian(i, y)` at one element, pmesh/pm.py:908-918. -/
def expandHermitian (t : Tiling) (comp : Bool) (i : List ℕ) (y : Cx K) : Cx K :=
  if comp then
    let mask := decide (i.getLastD 0 ≠ 0) && decide (i.getLastD 0 ≠ t.nmesh.getLastD 0 / 2)
    y + (if mask then y else 0)
  else y

/-- `k.normp(p=2)` at one mode: sum of the squares of its wavenumbers, pmesh/pm.py:122-136. -/
def kSquared (pi : K) (nmesh : List ℕ) (box : List K) (i : List ℕ) : K :=
  (List.zipWith (fun (n : ℕ) (bi : K × ℕ) =>
    (((wrapIndex n bi.2 : ℤ) : K) * (2 * pi / (n : K)) * (n : K) / bi.1) ^ 2) nmesh (box.zip i)).sum

/-- `cnorm(metric, norm)` on rank `r`, pmesh/pm.py:920-943.  `metric2` is `k² ↦ metric(√k²)`, if a metric is given. -/
def cnorm (pi : K) (t : Tiling) (box : List K) (metric2 : Option (K → K)) (norm : Cx K → K) (r : ℕ) (f : List ℕ → Cx K) :
    Prog (Cx K) (Option (Cx K)) :=
  match t.compressed with
  | none => .ret none
  | some comp =>
    .coll .allreduce
      ((ndindex (t.lshape r)).map fun c =>
        expandHermitian t comp (t.global r c)
          (norm (f c) * (metric2.elim 1 fun m => m (kSquared pi t.nmesh box (t.global r c))), 0)).sum
      fun vs => .ret (some vs.sum)

/-- `cdot(other, metric)` of complex fields on rank `r`, pmesh/pm.py:945-974. -/
def cdot (pi : K) (t : Tiling) (box : List K) (metric2 : Option (K → K)) (r : ℕ) (f g : List ℕ → Cx K) :
    Prog (Cx K) (Option (Cx K)) :=
  match t.compressed with
  | none => .ret none
  | some comp =>
    .coll .allreduce
      ((ndindex (t.lshape r)).map fun c =>
        cxMul (expandHermitian t comp (t.global r c) (cxMul (cxConj (g c)) (f c)))
          (metric2.elim 1 fun m => m (kSquared pi t.nmesh box (t.global r c)), 0)).sum
      fun vs => .ret (some vs.sum)

end
end Pmesh
