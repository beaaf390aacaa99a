import Mathlib.Data.List.Range
import Mathlib.Data.List.Basic

/-!
# Model of `coarray.sync`, pmesh/coarray.py

The local array of a rank has any content (a type `M`); what an index selects is read by `get` and assigned by `put`.  A chain of
indices `proxy.indices` is one index here.  The two calls of `alltoall` in `_solve` are one atomic step before the others.

MPI: messages from one rank to another are received in the order in which they were sent, by the receives in the order in
which they were posted (all have the same tag).  The data of a message is read at any time between the start of the send and the transfer; a
send may complete before its message is received (eager), or not (rendezvous).

Not modelled: a proxy of another coarray than the one that is synchronised (the other rank then reads `self`, as the comment at
the head of the file says), groups of images (`Scatter` does not exist), `coarray.__new__` (uses an undefined name; the arrays are made by
`fromarray` and `zeros`), buffers of a wrong size.
-/

namespace Pmesh

/-- What is pushed: an array that nobody changes, or a view of the local array, such as `coa[1]`; `Push` keeps the object,
pmesh/coarray.py:135-137. -/
inductive CoBuf (I B : Type) where
  | val (b : B)
  | view (i : I)
  deriving DecidableEq

/-- `Pull`: `coa[loc] = coa(src)[rem]`; `Push`: `coa(dst)[rem] = buf`; pmesh/coarray.py:116-146. -/
inductive CoOp (I B : Type) where
  | pull (loc : I) (src : ℕ) (rem : I)
  | push (dst : ℕ) (rem : I) (buf : CoBuf I B)

/-- What a rank does in `sync` after `_solve`. -/
inductive CoInstr (I B : Type) where
  /-- `comm.Isend` -/
  | isend (dst : ℕ) (buf : CoBuf I B)
  /-- `comm.Irecv` -/
  | irecv (src : ℕ)
  /-- `comm.Send` of what the index selects: start -/
  | sendPost (dst : ℕ) (i : I)
  /-- and return -/
  | sendWait (dst : ℕ)
  /-- `comm.Recv`: start -/
  | recvPost (src : ℕ)
  /-- return, and store at the index -/
  | recvWait (src : ℕ) (i : I)
  /-- `waitall` and `op.finish()` -/
  | finish

section
variable {I B M : Type}

/-- The rank of the other side, `op.proxy.coindex`. -/
def CoOp.image : CoOp I B → ℕ
  | .pull _ src _ => src
  | .push dst _ _ => dst

/-- The operations that `sync(images)` handles, pmesh/coarray.py:165, 187; the others stay pending (lines 294-296). -/
def coActive (images : List ℕ) (ops : List (CoOp I B)) : List (CoOp I B) := ops.filter fun op => decide (op.image ∈ images)

/-- The operations that are left for another `sync`, pmesh/coarray.py:294-296. -/
def coKept (images : List ℕ) (ops : List (CoOp I B)) : List (CoOp I B) := ops.filter fun op => !decide (op.image ∈ images)

/-- The pushes to `d`: index and buffer. -/
def pushesTo (ops : List (CoOp I B)) (d : ℕ) : List (I × CoBuf I B) := ops.filterMap fun
  | .push dst rem buf => if dst = d then some (rem, buf) else none
  | .pull .. => none

/-- The remote indices of the pulls from `s`. -/
def pullsFrom (ops : List (CoOp I B)) (s : ℕ) : List I := ops.filterMap fun
  | .pull _ src rem => if src = s then some rem else none
  | .push .. => none

/-- The pulls in order: local index and source. -/
def pullSlots (ops : List (CoOp I B)) : List (I × ℕ) := ops.filterMap fun
  | .pull loc src _ => some (loc, src)
  | .push .. => none

/-- `sendactions` of rank `r` after `alltoall`, pmesh/coarray.py:167-168, 173: destination and index. -/
def sendActions (n : ℕ) (ops : ℕ → List (CoOp I B)) (r : ℕ) : List (ℕ × I) :=
  (List.range n).flatMap fun d => (pullsFrom (ops d) r).map fun i => (d, i)

/-- `recvactions` of rank `r`, pmesh/coarray.py:170-171, 174: source and index. -/
def recvActions (n : ℕ) (ops : ℕ → List (CoOp I B)) (r : ℕ) : List (ℕ × I) :=
  (List.range n).flatMap fun s => (pushesTo (ops s) r).map fun p => (s, p.1)

/-- `op.start()`, pmesh/coarray.py:124-127, 140-143. -/
def CoOp.start : CoOp I B → CoInstr I B
  | .pull _ src _ => .irecv src
  | .push dst _ buf => .isend dst buf

/-- `sync` on rank `r` after `_solve`, pmesh/coarray.py:266-292. -/
def coProg (n : ℕ) (ops : ℕ → List (CoOp I B)) (r : ℕ) : List (CoInstr I B) :=
  (ops r).map CoOp.start ++
  ((sendActions n ops r).flatMap fun a => [.sendPost a.1 a.2, .sendWait a.1]) ++
  ((recvActions n ops r).flatMap fun a => [.recvPost a.1, .recvWait a.1 a.2]) ++ [.finish]

/-- State of all ranks.  `chan a b` are the messages from `a` to `b` in the order of sending, `slot a b` the receives posted by
`a` for messages from `b` in the order of posting, with the data once it is transferred. -/
structure CoState (I B M : Type) where
  todo : ℕ → List (CoInstr I B)
  mem : ℕ → M
  chan : ℕ → ℕ → List (CoBuf I B)
  slot : ℕ → ℕ → List (Option B)

def upd {α : Type} (f : ℕ → α) (r : ℕ) (v : α) : ℕ → α := fun x => if x = r then v else f x

/-- The data of a buffer of rank `a`, read now. -/
def CoState.read (get : I → M → B) (st : CoState I B M) (a : ℕ) : CoBuf I B → B
  | .val b => b
  | .view i => get i (st.mem a)

/-- Message `k` from `a` to `b` is transferred: it fills receive `k` of `b` from `a`. -/
def CoState.delivered (st : CoState I B M) (a b k : ℕ) : Bool :=
  match (st.slot b a)[k]? with
  | some (some _) => true
  | _ => false

/-- `op.finish()` of the pulls, pmesh/coarray.py:129-132, 292; `q s` are the buffers of the receives from `s` that are left. -/
def finishPulls (put : I → B → M → M) : List (I × ℕ) → (ℕ → List (Option B)) → M → M
  | [], _, m => m
  | (loc, s) :: t, q, m =>
    finishPulls put t (upd q s (q s).tail) (match (q s).headD none with
      | some b => put loc b m
      | none => m)

/-- What can happen next. -/
inductive CoChoice where
  /-- rank `r` goes on; `eager` allows a send to complete before its message is transferred -/
  | run (r : ℕ) (eager : Bool)
  /-- MPI copies the data of message `k` from `a` to `b` to a buffer of its own -/
  | capture (a b k : ℕ)
  /-- transfer of message `k` from `a` to `b` -/
  | transfer (a b k : ℕ)

/-- Next instruction of rank `r`. -/
def coRun (get : I → M → B) (put : I → B → M → M) (n : ℕ) (ops : ℕ → List (CoOp I B)) (st : CoState I B M) (r : ℕ) (eager : Bool) :
    Option (CoState I B M) :=
  match st.todo r with
  | [] => none
  | .isend d buf :: rest => some { st with
      todo := upd st.todo r rest, chan := upd st.chan r (upd (st.chan r) d (st.chan r d ++ [buf])) }
  | .irecv s :: rest => some { st with
      todo := upd st.todo r rest, slot := upd st.slot r (upd (st.slot r) s (st.slot r s ++ [none])) }
  | .sendPost d i :: rest => some { st with
      todo := upd st.todo r rest, chan := upd st.chan r (upd (st.chan r) d (st.chan r d ++ [.val (get i (st.mem r))])) }
  | .sendWait d :: rest =>
    if eager || st.delivered r d ((st.chan r d).length - 1) then some { st with todo := upd st.todo r rest } else none
  | .recvPost s :: rest => some { st with
      todo := upd st.todo r rest, slot := upd st.slot r (upd (st.slot r) s (st.slot r s ++ [none])) }
  | .recvWait s i :: rest =>
    match (st.slot r s).getLast? with
    | some (some b) => some { st with todo := upd st.todo r rest, mem := upd st.mem r (put i b (st.mem r)) }
    | _ => none
  | .finish :: rest =>
    if ((List.range n).all fun s => (st.slot r s).all Option.isSome) &&
      ((List.range n).all fun d => (List.range (st.chan r d).length).all fun k => st.delivered r d k ||
        (eager && match (st.chan r d)[k]? with
          | some (.val _) => true
          | _ => false))
    then some { st with todo := upd st.todo r rest, mem := upd st.mem r (finishPulls put (pullSlots (ops r)) (st.slot r) (st.mem r)) }
    else none

/-- One step. -/
def coExec (get : I → M → B) (put : I → B → M → M) (n : ℕ) (ops : ℕ → List (CoOp I B)) (st : CoState I B M) : CoChoice → Option (CoState I B M)
  | .run r eager => if r < n then coRun get put n ops st r eager else none
  | .capture a b k =>
    if a < n ∧ b < n then
      match (st.chan a b)[k]? with
      | some (.view i) => some { st with chan := upd st.chan a (upd (st.chan a) b ((st.chan a b).set k (.val (get i (st.mem a))))) }
      | _ => none
    else none
  | .transfer a b k =>
    if a < n ∧ b < n then
      match (st.chan a b)[k]?, (st.slot b a)[k]? with
      | some buf, some none => some { st with slot := upd st.slot b (upd (st.slot b) a ((st.slot b a).set k (some (st.read get a buf)))) }
      | _, _ => none
    else none

/-- All ranks are in `sync`, after `_solve`; `mem` are the local arrays. -/
def coInit (n : ℕ) (ops : ℕ → List (CoOp I B)) (mem : ℕ → M) : CoState I B M :=
  ⟨coProg n ops, mem, fun _ _ => [], fun _ _ => []⟩

/-- States that can be reached. -/
inductive CoReach (get : I → M → B) (put : I → B → M → M) (n : ℕ) (ops : ℕ → List (CoOp I B)) (mem : ℕ → M) : CoState I B M → Prop where
  | init : CoReach get put n ops mem (coInit n ops mem)
  | step {st st' : CoState I B M} (c : CoChoice) (h : CoReach get put n ops mem st) (hs : coExec get put n ops st c = some st') :
      CoReach get put n ops mem st'

end
end Pmesh
