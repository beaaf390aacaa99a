import Verif.Model.FRead
import Verif.Model.Layout
import Verif.Model.UniformGrid
import Verif.Lemmas.FloatRound
import Mathlib.Data.Rat.Floor

/-!
# Number types in `exchange`, `gather` and `generate_uniform_particle_grid`

The other models have one type of numbers.  Here an array is a numpy type with a list of rational values.  Overflow of floating point
numbers, numbers below the normal range, `nan`, complex and structured types are not modelled.
-/

namespace Pmesh

/-- The real number types of numpy: `int 64` is `i8`, `uint 32` is `u4`, `float 53` is `f8`, `float 24` is `f4`, `float 11` is `f2`
(the number of binary digits). -/
inductive DType where
  | int (bits : ℕ)
  | uint (bits : ℕ)
  | float (digits : ℕ)
  deriving DecidableEq, Repr

def DType.isFloat : DType → Bool
  | .float _ => true
  | _ => false

/-- `data.astype(dst)` of one number of type `src`: integers wrap around, floating point numbers are cut towards zero (`junk` if the result
is out of range: undefined in C) and numbers are rounded to the digits of a floating point type. -/
def astype (junk : ℚ → ℤ) (src dst : DType) (x : ℚ) : ℚ :=
  match dst with
  | .float p => flRound p x
  | .int b =>
    let t := truncInt x
    if src.isFloat && !decide (-2 ^ (b - 1) ≤ t ∧ t < 2 ^ (b - 1)) then junk x
    else (((t + 2 ^ (b - 1)) % 2 ^ b - 2 ^ (b - 1) : ℤ) : ℚ)
  | .uint b =>
    let t := truncInt x
    if src.isFloat && !decide (0 ≤ t ∧ t < 2 ^ b) then junk x else ((t % 2 ^ b : ℤ) : ℚ)

/-! ## `exchange` and `gather`, pmesh/domain.py:50-57, :173-318 -/

/-- The program after its first collective.  `exchangeOne` and `gatherProg` begin with `comm.bcast(data.dtype)`, which they do with an empty
message and whose result they do not look at. -/
def Prog.afterFirst {V R : Type} : Prog V R → Prog V R
  | .ret r => .ret r
  | .coll _ _ k => k []

/-- A message that is not a type. -/
def untyped : DType ⊕ Msg ℚ → Msg ℚ
  | .inl _ => .none
  | .inr m => m

/-- `dtype_root = comm.bcast(data.dtype)`, pmesh/domain.py:52: every rank goes on with the type that rank 0 has. -/
def withRootType {R : Type} (dt : DType) (p : DType → Prog (Msg ℚ) R) : Prog (DType ⊕ Msg ℚ) R :=
  .coll .bcast (.inl dt) fun ms =>
    let root := match ms.head? with
      | some (.inl d) => d
      | _ => dt
    (p root).afterFirst.embed .inr untyped

/-- `Layout._exchange`, pmesh/domain.py:173-206: `data.astype(dtype_root)`, then the exchange.  The result has the type of rank 0. -/
def exchangeTyped (junk : ℚ → ℤ) (rank : ℕ) (lay : Lay) (dt : DType) (shp : List ℕ) (data : List ℚ) :
    Prog (DType ⊕ Msg ℚ) (Except LayErr (DType × List (Option ℚ))) :=
  withRootType dt fun root => exchangeOne rank lay shp (data.map (astype junk dt root)) fun
    | .error e => .ret (.error e)
    | .ok out => .ret (.ok (root, out))

inductive TypedMode where
  | all | sum | mean | any | local
  deriving DecidableEq, Repr

inductive TypedErr where
  | lay (e : LayErr)
  /-- `UFuncTypeError: Cannot cast ufunc output` -/
  | typeError
  deriving DecidableEq, Repr

/-- One entry of `bincountv(self.indices, recvbuffer, minlength)`, pmesh/domain.py:26-48: `numpy.bincount` converts the weights to `f8` and
adds them up in `f8`; `out[ind] = ...` converts to the type of `recvbuffer`. -/
def sumEntry (junk : ℚ → ℤ) (root : DType) (indices : List ℕ) (recv : List ℚ) (i : ℕ) : ℚ :=
  astype junk (.float 53) root
    (bincountR (binary 53 (by norm_num)) (indices.zip (recv.map (astype junk root (.float 53)))) i)

/-- The local part of `gather`, pmesh/domain.py:279-318, for a buffer of type `root`. In mode `'mean'` the line `out[...] /= N`
(:309) divides in `f8`; numpy does not write the result into an array of integers. -/
def typedReduce (junk : ℚ → ℤ) (root : DType) (lay : Lay) (mode : TypedMode) (recv : List ℚ) : Except TypedErr (List (Option ℚ)) :=
  if lay.sendlength = 0 then .ok []
  else
    match mode with
    | .sum => .ok ((List.range lay.sendlength).map fun i => some (sumEntry junk root lay.indices recv i))
    | .mean =>
      match root with
      | .float p => .ok ((List.range lay.sendlength).map fun i =>
          if lay.indices.count i = 0 then none
          else some (flRound p (flRound 53 (sumEntry junk root lay.indices recv i / (lay.indices.count i : ℚ)))))
      | _ => .error .typeError
    | .any => .ok ((lay.indices.zip recv).foldl (fun acc p => acc.set p.1 (some p.2)) (List.replicate lay.sendlength (some 0)))
    | _ => .ok (recv.map some)

/-- `Layout.gather` with `out=None`, pmesh/domain.py:208-318. -/
def gatherTyped (junk : ℚ → ℤ) (rank : ℕ) (lay : Lay) (dt : DType) (shp : List ℕ) (mode : TypedMode) (data : List ℚ) :
    Prog (DType ⊕ Msg ℚ) (Except TypedErr (DType × List (Option ℚ))) :=
  withRootType dt fun root =>
    if mode = .local then
      gatherProg rank lay shp .local (data.map (astype junk dt root)) fun
        | .error e => .ret (.error (.lay e))
        | .ok out => .ret (.ok (root, out))
    else
      gatherProg rank lay shp .all (data.map (astype junk dt root)) fun
        | .error e => .ret (.error (.lay e))
        | .ok out =>
          match defined out with
          | none => .ret (.error (.lay .mpi))
          | some recv => .ret ((typedReduce junk root lay mode recv).map fun out => (root, out))

/-! ## `generate_uniform_particle_grid`, pmesh/pm.py:1697-1738 -/

/-- The floating point type that numpy takes for an integer of `bits` bits. -/
def floatFor (bits : ℕ) : ℕ := if bits ≤ 8 then 11 else if bits ≤ 16 then 24 else 53

/-- `numpy.result_type` of two arrays. -/
def resultType : DType → DType → DType
  | .float p, .float q => .float (max p q)
  | .float p, .int b => .float (max p (floatFor b))
  | .float p, .uint b => .float (max p (floatFor b))
  | .int b, .float p => .float (max p (floatFor b))
  | .uint b, .float p => .float (max p (floatFor b))
  | .int a, .int b => .int (max a b)
  | .uint a, .uint b => .uint (max a b)
  | .int b, .uint a => if a < b then .int b else if a < 64 then .int (2 * a) else .float 53
  | .uint a, .int b => if a < b then .int b else if a < 64 then .int (2 * a) else .float 53

/-- `numpy.can_cast(src, dst, 'same_kind')`, the rule for `a += b`. -/
def sameKind : DType → DType → Bool
  | _, .float _ => true
  | .float _, _ => false
  | _, .int _ => true
  | .int _, .uint _ => false
  | .uint _, .uint _ => true

/-- The type of the indices, `numpy.indices(shape, dtype)`, pmesh/pm.py:1700; without a type `f8` (`numpy.empty(shape, None)`).  The line
`if dtype is None: dtype == self.dtype` (:1726) is a comparison without effect. -/
def indexType (dtype : Option DType) : DType := dtype.getD (.float 53)

/-- The type of the result of `generate_uniform_particle_grid(shift, dtype)`, `none` if it raises `UFuncTypeError`: `coord + local_i_start` with
`local_i_start` of type `i8` (:1701), `source[...] += shift` (:1736) and `source[...] *= BoxSize / Nmesh` (:1737). -/
def gridType (dtype : Option DType) (shiftType : DType) : Option DType :=
  let src := resultType (indexType dtype) (.int 64)
  if sameKind (resultType src shiftType) src && sameKind (resultType src (.float 53)) src then some src else none

/-- `mesh_coordinates(dtype)` where the sum is done in `f8`, pmesh/pm.py:1697-1702. -/
def PMesh.sourceTyped (junk : ℚ → ℤ) (m : PMesh ℚ) (dtype : Option DType) (r : ℕ) : List (List ℚ) :=
  (ndindex (m.localShape r)).map fun c =>
    List.zipWith (fun (k s : ℕ) => flRound 53 (astype junk (.int 64) (indexType dtype) (k : ℚ) + flRound 53 (s : ℚ))) c (m.start r)

/-- The positions of `generate_uniform_particle_grid(shift, dtype)` in `f8`, pmesh/pm.py:1733-1737. -/
def PMesh.uniformTyped (junk : ℚ → ℤ) (m : PMesh ℚ) (dtype : Option DType) (shift : List ℚ) (r : ℕ) : List (List ℚ) :=
  (m.sourceTyped junk dtype r).map fun i =>
    List.zipWith (fun a b => flRound 53 (a * b)) (List.zipWith (fun a s => flRound 53 (a + s)) i shift)
      (List.zipWith (fun b (n : ℕ) => flRound 53 (b / (n : ℚ))) m.box m.nmesh)

end Pmesh
