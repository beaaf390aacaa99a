import Mathlib.Data.List.Basic

/-!
# A small semantics of MPI programs made of collectives

Every rank runs a sequential program.  A collective completes only if **all** ranks are inside the same
collective; each rank then continues with the list of all contributions (a rank uses the part that the MPI
standard gives to it, which is spelled out where the operation is used).  If the ranks are at different collectives,
or some rank has ended while others wait, nothing can happen any more: `Runs` has no derivation, which is the
deadlock.
-/

namespace Pmesh

/-- The collectives used by pmesh. -/
inductive Coll where
  | bcast | allgather | allreduce | barrier | alltoall | alltoallv
  /-- a call of the `mpsort` library, which is collective -/
  | mpsort
  deriving DecidableEq, Repr

/-- Program of one rank: ended with a result, or in a collective with a contribution and a continuation. -/
inductive Prog (V R : Type) where
  | ret (r : R) : Prog V R
  | coll (op : Coll) (v : V) (k : List V → Prog V R) : Prog V R

/-- First `p`, then `k` with its result; an exception (an `.error`) of `p` ends the program. -/
def Prog.andThen {V E A B : Type} (p : Prog V (Except E A)) (k : A → Prog V (Except E B)) : Prog V (Except E B) :=
  match p with
  | .ret (.ok a) => k a
  | .ret (.error e) => .ret (.error e)
  | .coll op v k' => .coll op v fun vs => (k' vs).andThen k

/-- The same program with its contributions written in another type: `f` encodes, `g` decodes. -/
def Prog.embed {V W R : Type} (f : V → W) (g : W → V) : Prog V R → Prog W R
  | .ret r => .ret r
  | .coll op v k => .coll op (f v) fun ws => (k (ws.map g)).embed f g

/-- A loop over the elements of a list, carrying a state. -/
def forProg {V E S I : Type} (body : I → S → Prog V (Except E S)) : List I → S → Prog V (Except E S)
  | [], s => .ret (.ok s)
  | i :: is, s => (body i s).andThen (forProg body is)

/-- `Runs ps rs`: the programs `ps` of the ranks run to the end with results `rs`. -/
inductive Runs {V R : Type} : List (Prog V R) → List R → Prop where
  | done (rs : List R) : Runs (rs.map Prog.ret) rs
  | step (op : Coll) (vs : List V) (ks : List (List V → Prog V R)) (rs : List R)
      (hlen : ks.length = vs.length) (hne : vs ≠ [])
      (h : Runs (ks.map fun k => k vs) rs) : Runs (List.zipWith (Prog.coll op) vs ks) rs

end Pmesh
