import Mathlib.Data.Nat.Notation

/-!
# Model of the arguments of `ParticleMesh.__init__`, and of `reshape`, `resize` and `respawn`

pmesh/pm.py:1293-1362, 1371-1397, 1476-1477 and 1537-1599.  A mesh is described by what the constructor keeps of its arguments.  The plans, the
partition and the domain made from them are in `Buffers`, `Cache` and `Mesh`.

Of the library pfft two things are left open: `split`, which is `pfft.split_size_2d`, and `accepts np nmesh size`, whether
`ProcMesh`, `Partition` and `Plan` take the process mesh `np` for the mesh `nmesh` on `size` ranks.  A refusal is the error `pfft`.
-/

namespace Pmesh

/-- `dtype` after `numpy.dtype(dtype)`; `other` is any type that is none of the four, pmesh/pm.py:1336-1352. -/
inductive PmDtype | f4 | f8 | c8 | c16 | other
deriving DecidableEq, Repr

/-- `plan_method`, pmesh/pm.py:1393-1397; `unknown` is any other string. -/
inductive PlanMethod | estimate | measure | exhaustive | unknown
deriving DecidableEq, Repr

/-- `resampler`: the name of a window or a window object (here both a number), or something else; pmesh/window.py:223-228. -/
inductive WindowArg | window (id : ℕ) | other
deriving DecidableEq, Repr

/-- A number for all axes, or a sequence. -/
inductive PerAxis (A : Type) | scalar (a : A) | array (l : List A)
deriving DecidableEq, Repr

/-- A communicator: which one and its size. -/
structure CommDesc where
  id : ℕ
  size : ℕ
deriving DecidableEq, Repr

/-- The exceptions. -/
inductive PmErr | value | type | key | pfft
deriving DecidableEq, Repr

/-- What a `ParticleMesh` keeps: `self.Nmesh`, `self.BoxSize`, `self.comm`, `self.np`, `self.dtype`, `self.resampler`,
`self._use_padded` and the method its plans were made with. -/
structure MeshDesc (K : Type) where
  nmesh : List ℕ
  box : List K
  comm : CommDesc
  np : List ℕ
  dtype : PmDtype
  resampler : ℕ
  padded : Bool
  plan : PlanMethod
deriving DecidableEq, Repr

section
variable {K : Type} (split : ℕ → List ℕ) (accepts : List ℕ → List ℕ → ℕ → Bool)

/-- `self.BoxSize[:] = BoxSize` for `n` axes: one number, or a sequence of one or of `n` numbers; pmesh/pm.py:1356-1357. -/
def fillBox (n : ℕ) : PerAxis K → Except PmErr (List K)
  | .scalar a => .ok (List.replicate n a)
  | .array l =>
    match l with
    | [a] => .ok (List.replicate n a)
    | l => if l.length = n then .ok l else .error .value

/-- The default process mesh, pmesh/pm.py:1318-1324. For no axes `np` stays `None`, whose length is a TypeError. -/
def defaultNp (comm : CommDesc) (n : ℕ) : Except PmErr (List ℕ) :=
  if 3 ≤ n then .ok (split comm.size) else if n = 2 then .ok [comm.size] else if n = 1 then .ok [] else .error .type

/-- `np` given, or the default. -/
def chooseNp (comm : CommDesc) (n : ℕ) : Option (List ℕ) → Except PmErr (List ℕ)
  | some np => .ok np
  | none => defaultNp split comm n

/-- `ParticleMesh(Nmesh, BoxSize, comm, np, dtype, plan_method, resampler)` in the order in which it fails: pmesh/pm.py:1315-1316
(1-d on several ranks), 1318-1328, 1336-1352, 1357, 1388-1397 with 1407-1442, and 1476.
All refusals by pfft count as one before line 1393; `Partition` and `Plan` in fact come after it. -/
def newMesh (nmesh : List ℕ) (box : PerAxis K) (comm : CommDesc) (np : Option (List ℕ)) (dtype : PmDtype) (plan : PlanMethod)
    (resampler : WindowArg) : Except PmErr (MeshDesc K) :=
  if nmesh.length = 1 ∧ comm.size ≠ 1 then .error .value
  else match chooseNp split comm nmesh.length np with
  | .error e => .error e
  | .ok np =>
    if dtype = .other then .error .value
    else match fillBox nmesh.length box with
    | .error e => .error e
    | .ok box =>
      if !accepts np nmesh comm.size then .error .pfft
      else if plan = .unknown then .error .key
      else match resampler with
      | .other => .error .type
      | .window w => .ok ⟨nmesh, box, comm, np, dtype, w, decide (np.length ≠ nmesh.length), plan⟩

/-- `pm.reshape(Nmesh, BoxSize)`, pmesh/pm.py:1541-1574. `BoxSize[:len(Nmesh)]` is `take`; `plan_method` is not passed on, so it
is the default. -/
def MeshDesc.reshape (p : MeshDesc K) (nmesh : Option (PerAxis ℕ)) (box : Option (PerAxis K)) : Except PmErr (MeshDesc K) :=
  let nmesh := match nmesh with
    | none => p.nmesh
    | some (.scalar n) => List.replicate p.nmesh.length n
    | some (.array l) => l
  let box := match box with
    | none => p.box.take nmesh.length
    | some (.scalar b) => List.replicate nmesh.length b
    | some (.array l) => l
  if box.length ≠ nmesh.length then .error .value
  else newMesh split accepts nmesh (.array box) p.comm (some p.np) p.dtype .estimate (.window p.resampler)

/-- `pm.resize(Nmesh)`, pmesh/pm.py:1537-1539. -/
def MeshDesc.resize (p : MeshDesc K) (nmesh : PerAxis ℕ) : Except PmErr (MeshDesc K) := p.reshape split accepts (some nmesh) none

/-- `pm.respawn(comm, np)`, pmesh/pm.py:1576-1599. -/
def MeshDesc.respawn (p : MeshDesc K) (comm : CommDesc) (np : Option (List ℕ)) : Except PmErr (MeshDesc K) :=
  newMesh split accepts p.nmesh (.array p.box) comm np p.dtype .estimate (.window p.resampler)

end
end Pmesh
