import Verif.Model.Preview

/-!
# Model of collective sums in floating point: `csum`, `RealField.cdot`, `cnorm`, `cgetitem`, pmesh/pm.py

Numpy and MPI do not say in which order they add; `np` stands for `numpy.sum` and `mpi` for the sum of `comm.allreduce`, which
gives the same result to all ranks.
-/

namespace Pmesh

/-- Repeated `sum1.sum(axis=-1, dtype=dtype)`, pmesh/pm.py:736-737, of an array given as a function of the index. -/
def sumLastF (np : List ℚ → ℚ) : List ℕ → (List ℕ → ℚ) → ℚ
  | [], f => f []
  | n :: ns, f => sumLastF np (n :: ns).dropLast fun i => np ((List.range ((n :: ns).getLastD 0)).map fun j => f (i ++ [j]))
termination_by shape => shape.length

/-- `csum`, pmesh/pm.py:725-739, on rank `r`; `order` is `argsort(strides)[::-1]`, by which the axes are transposed. -/
def csumF (np mpi : List ℚ → ℚ) (t : Tiling) (order : List ℕ) (f : List ℕ → ℚ) (r : ℕ) : Prog ℚ ℚ :=
  let sum1 := sumLastF np (order.map fun d => (t.lshape r).getD d 0) fun i => f (untranspose order i)
  .coll .allreduce sum1 fun vs => .ret (mpi vs)

/-- `RealField.cdot`, pmesh/pm.py:897-899, on rank `r`: the products are rounded by `fl`. -/
def cdotF (fl : ℚ → ℚ) (np mpi : List ℚ → ℚ) (t : Tiling) (f g : List ℕ → ℚ) (r : ℕ) : Prog ℚ ℚ :=
  .coll .allreduce (np ((ndindex (t.lshape r)).map fun c => fl (f c * g c))) fun vs => .ret (mpi vs)

/-- `RealField.cnorm`, pmesh/pm.py:901-902. -/
def cnormF (fl : ℚ → ℚ) (np mpi : List ℚ → ℚ) (t : Tiling) (f : List ℕ → ℚ) (r : ℕ) : Prog ℚ ℚ := cdotF fl np mpi t f f r

/-- `cgetitem` of a real field, pmesh/pm.py:287-296, on rank `r`. -/
def cgetitemF (mpi : List ℚ → ℚ) (t : Tiling) (index : List ℤ) (f : List ℕ → ℚ) (r : ℕ) : Prog ℚ (Option ℚ) :=
  if index.length = t.nmesh.length then
    let ret := match t.ctol r index with
      | some c => f c
      | none => 0
    .coll .allreduce ret fun vs => .ret (some (mpi vs))
  else .ret none

end Pmesh
