import Verif.Model.Spmd
import Verif.Model.Domain

/-!
# Model of `Layout`, pmesh/domain.py:26-318

Payload rows are elements of a type `α` (one row of an array of any trailing shape); dtype conversion
(`promote`, `astype`) is not modelled, only the trailing shape is, as a tag `shp` compared among ranks.
-/

namespace Pmesh

/-- Exceptions. `mpi` is an error return of the MPI library (truncated message). -/
inductive LayErr where
  | valueError | indexError | assertion | mpi | notImplemented
  deriving DecidableEq, Repr

/-- What a rank contributes to a collective. -/
inductive Msg (α : Type) where
  | none : Msg α
  | shape (s : List ℕ) : Msg α
  | flag (b : Bool) : Msg α
  | counts (c : List ℕ) : Msg α
  | block (buf : List α) (counts offsets : List ℕ) : Msg α

/-- `Layout`, the attributes of one rank, pmesh/domain.py:101-123. -/
structure Lay where
  sendlength : ℕ
  sendcounts : List ℕ
  recvcounts : List ℕ
  sendoffsets : List ℕ
  recvoffsets : List ℕ
  recvlength : ℕ
  indices : List ℕ
  deriving DecidableEq, Repr

/-- `offsets[1:] = counts.cumsum()[:-1]` on zeros, pmesh/domain.py:106-107 and 117-118. -/
def offsetsOf (counts : List ℕ) : List ℕ :=
  match counts with
  | [] => []
  | _ => 0 :: (cumsum counts).dropLast

section
variable {α : Type} {R : Type}

/-- `Alltoall` of one integer per rank: rank `rank` receives entry `rank` of every rank's array. -/
def recvAlltoall (rank : ℕ) (ms : List (Msg α)) : List ℕ :=
  ms.map fun
    | .counts c => c.getD rank 0
    | _ => 0

/-- `Layout.__init__` with `recvcounts=None`, pmesh/domain.py:92-123, on rank `rank` of `size`. -/
def layoutInit (size rank sendlength : ℕ) (sendcounts indices : List ℕ)
    (k : Except LayErr Lay → Prog (Msg α) R) : Prog (Msg α) R :=
  if size ≠ sendcounts.length then k (.error .assertion)
  else
    .coll .barrier .none fun _ =>
    .coll .alltoall (.counts sendcounts) fun ms =>
    .coll .barrier .none fun _ =>
      let recvcounts := recvAlltoall rank ms
      k (.ok ⟨sendlength, sendcounts, recvcounts, offsetsOf sendcounts, offsetsOf recvcounts,
        recvcounts.sum, indices⟩)

/-- `numpy.take(data, indices)` (mode 'raise', no negative indices): `none` is IndexError. -/
def takeRows (data : List α) (indices : List ℕ) : Option (List α) := indices.mapM fun i => data[i]?

/-- Write a block into a receive buffer at an offset; `none` when it does not fit. -/
def writeBlock (buf : List (Option α)) (off : ℕ) (blk : List α) : Option (List (Option α)) :=
  if off + blk.length ≤ buf.length then
    some (buf.take off ++ blk.map some ++ buf.drop (off + blk.length))
  else none

/-- `Alltoallv` on the receiving rank: from each source `q` in turn, the `counts_q[rank]` items at
`offsets_q[rank]` of its buffer arrive at `recvoffsets[q]`; it is an error if the number of items is not
the announced `recvcounts[q]` or if source or destination range is outside its buffer. -/
def recvAlltoallv (rank : ℕ) (recvcounts recvoffsets : List ℕ) (buf : List (Option α))
    (ms : List (Msg α)) : Option (List (Option α)) :=
  ms.zipIdx.foldlM
    (fun acc mq =>
      match mq.1 with
      | .block b c o =>
        let blk := (b.drop (o.getD rank 0)).take (c.getD rank 0)
        if blk.length = recvcounts.getD mq.2 0 ∧ blk.length = c.getD rank 0
        then writeBlock acc (recvoffsets.getD mq.2 0) blk
        else none
      | _ => none) buf

/-- `promote`, pmesh/domain.py:50-57: two broadcasts from rank 0, then a *local* comparison of the trailing
shape. -/
def promote (shp : List ℕ) (k : Except LayErr Unit → Prog (Msg α) R) : Prog (Msg α) R :=
  .coll .bcast .none fun _ =>
  .coll .bcast (.shape shp) fun ms =>
    match ms.head? with
    | some (.shape root) => if root ≠ shp then k (.error .valueError) else k (.ok ())
    | _ => k (.error .mpi)

/-- `any(comm.allgather(flag))`. -/
def anyFlag (ms : List (Msg α)) : Bool :=
  ms.any fun
    | .flag b => b
    | _ => false

/-- `Layout._exchange`, pmesh/domain.py:173-206. -/
def exchangeOne (rank : ℕ) (lay : Lay) (shp : List ℕ) (data : List α)
    (k : Except LayErr (List (Option α)) → Prog (Msg α) R) : Prog (Msg α) R :=
  promote shp fun
  | .error e => k (.error e)
  | .ok _ =>
    .coll .allgather (.flag (data.length != lay.sendlength)) fun ms =>
    if anyFlag ms then k (.error .valueError)
    else
      match takeRows data lay.indices with
      | none => k (.error .indexError)
      | some buffer =>
        .coll .barrier .none fun _ =>
        .coll .alltoallv (.block buffer lay.sendcounts lay.sendoffsets) fun ms =>
          match recvAlltoallv rank lay.recvcounts lay.recvoffsets (List.replicate lay.recvlength none) ms with
          | none => k (.error .mpi)
          | some out => .coll .barrier .none fun _ => k (.ok out)

/-- `exchange(*args, pack=False)`, pmesh/domain.py:165-166: one `_exchange` per argument. -/
def exchangeUnpacked (rank : ℕ) (lay : Lay) (k : Except LayErr (List (List (Option α))) → Prog (Msg α) R) :
    List (List ℕ × List α) → List (List (Option α)) → Prog (Msg α) R
  | [], acc => k (.ok acc)
  | (shp, data) :: rest, acc =>
    exchangeOne rank lay shp data fun
    | .error e => k (.error e)
    | .ok out => exchangeUnpacked rank lay k rest (acc ++ [out])

end

/-- `pack_arrays`, pmesh/domain.py:59-80: one row per particle holding one element per column. No arguments gives
IndexError at `N[0]`; columns of different lengths give ValueError, without any communication. -/
def packArrays {α : Type} (seq : List (List α)) : Except LayErr (List (List α)) :=
  match seq with
  | [] => .error .indexError
  | a :: rest =>
    if (a :: rest).all (fun d => d.length == a.length) then
      .ok ((List.range a.length).map fun i => (a :: rest).filterMap fun d => d[i]?)
    else .error .valueError

/-- `exchange(*args, pack=True)`, pmesh/domain.py:161-164. The trailing shape of a structured array is `()`. -/
def exchangePacked {α R : Type} (rank : ℕ) (lay : Lay)
    (k : Except LayErr (List (List (Option α))) → Prog (Msg (List α)) R) (args : List (List α)) :
    Prog (Msg (List α)) R :=
  match packArrays args with
  | .error e => k (.error e)
  | .ok data =>
    exchangeOne rank lay [] data fun
    | .error e => k (.error e)
    | .ok out => k (.ok ((List.range args.length).map fun c => out.map fun row => row.bind (·[c]?)))

/-- The reductions of `gather`, pmesh/domain.py:218-226. -/
inductive GatherMode (α : Type) where
  | all | sum | any | mean | local
  | ufunc (f : α → α → α) (arg : List ℕ)   -- `arg` is the result of `self.indices.argsort()`
  | other

/-- `reduceat`: entry `i` reduces `buf[off_i : off_{i+1}]` (to the end for the last); if the range is empty it is
`buf[off_i]`; an offset outside the buffer is IndexError (numpy documentation of `ufunc.reduceat`). -/
def reduceat {α : Type} (f : α → α → α) (buf : List α) (offs : List ℕ) : Option (List α) :=
  (offs.zip (offs.drop 1 ++ [buf.length])).mapM fun ab =>
    match (buf.drop ab.1).take (ab.2 - ab.1) with
    | x :: xs => some (xs.foldl f x)
    | [] => buf[ab.1]?

section
variable {K : Type} [Field K] [DecidableEq K]

/-- `numpy.bincount(x, weights, minlength=n)` for `x < n`: one `+=` per entry (`bincountv`, pmesh/domain.py:26-48,
applies it to every component). -/
def bincountw (x : List ℕ) (w : List K) (n : ℕ) : List K :=
  (x.zip w).foldl (fun acc p => acc.modify p.1 (· + p.2)) (List.replicate n 0)

/-- The local part of `gather` after the communication, pmesh/domain.py:279-318 (`out=None`). An entry `none` is
an undefined number (`0/0` of the mean). -/
def gatherReduce (lay : Lay) (mode : GatherMode K) (recv : List K) : Except LayErr (List (Option K)) :=
  if lay.sendlength = 0 then .ok []
  else
    match mode with
    | .all => .ok (recv.map some)
    | .sum => .ok ((bincountw lay.indices recv lay.sendlength).map some)
    | .ufunc f arg =>
      match takeRows recv arg with
      | none => .error .indexError
      | some sorted =>
        let offset := offsetsOf (bincount lay.indices lay.sendlength)
        match reduceat f sorted offset with
        | none => .error .indexError
        | some out => .ok (out.map some)
    | .mean =>
      .ok (List.zipWith (fun (s : K) (n : ℕ) => if n = 0 then none else some (s / n))
        (bincountw lay.indices recv lay.sendlength) (bincount lay.indices lay.sendlength))
    | .any =>
      .ok ((lay.indices.zip recv).foldl (fun acc p => acc.set p.1 (some p.2))
        (List.replicate lay.sendlength (some 0)))
    | .local => .error .notImplemented
    | .other => .error .notImplemented

/-- The result of the reverse Alltoallv must not contain unset slots to be reduced; an unset slot makes the result
undefined. -/
def defined {α : Type} (l : List (Option α)) : Option (List α) := l.mapM id

/-- `Layout.gather`, pmesh/domain.py:208-318, with `out=None`; `none` entries are unset memory or undefined
numbers. -/
def gatherProg {R : Type} (rank : ℕ) (lay : Lay) (shp : List ℕ) (mode : GatherMode K) (data : List K)
    (k : Except LayErr (List (Option K)) → Prog (Msg K) R) : Prog (Msg K) R :=
  promote shp fun
  | .error e => k (.error e)
  | .ok _ =>
    .coll .allgather (.flag (data.length != lay.recvlength)) fun ms =>
    if anyFlag ms then k (.error .valueError)
    else
      match mode with
      | .local =>
        .coll .barrier .none fun _ =>
          let ind := (lay.indices.drop (lay.sendoffsets.getD rank 0)).take (lay.sendcounts.getD rank 0)
          let src := (data.drop (lay.recvoffsets.getD rank 0)).take (lay.recvcounts.getD rank 0)
          k (.ok ((ind.zip src).foldl (fun acc p => acc.set p.1 (some p.2))
            (List.replicate lay.sendlength none)))
      | mode =>
        .coll .barrier .none fun _ =>
        .coll .alltoallv (.block data lay.recvcounts lay.recvoffsets) fun ms =>
          match recvAlltoallv rank lay.sendcounts lay.sendoffsets
              (List.replicate lay.indices.length none) ms with
          | none => k (.error .mpi)
          | some out =>
            .coll .barrier .none fun _ =>
              match defined out with
              | none => k (.error .mpi)
              | some recv => k (gatherReduce lay mode recv)

end
end Pmesh
