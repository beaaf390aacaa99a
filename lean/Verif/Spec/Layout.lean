import Verif.Model.Layout

/-! # Vocabulary for exchange and gather -/

namespace Pmesh

/-- Particle numbers that this rank sends to rank `r`, in order. -/
def Lay.sentIdx (lay : Lay) (r : ℕ) : List ℕ :=
  (lay.indices.drop (lay.sendcounts.take r).sum).take (lay.sendcounts.getD r 0)

/-- Consistent layouts on `n` ranks: what `Layout.__init__` builds from send lists without overrun. -/
structure LayOK (n : ℕ) (L : ℕ → Lay) : Prop where
  counts_length : ∀ r < n, (L r).sendcounts.length = n
  recvcounts : ∀ r < n, (L r).recvcounts = (List.range n).map fun q => (L q).sendcounts.getD r 0
  sendoffsets : ∀ r < n, (L r).sendoffsets = offsetsOf (L r).sendcounts
  recvoffsets : ∀ r < n, (L r).recvoffsets = offsetsOf (L r).recvcounts
  recvlength : ∀ r < n, (L r).recvlength = (L r).recvcounts.sum
  indices_length : ∀ r < n, (L r).indices.length = (L r).sendcounts.sum
  indices_lt : ∀ r < n, ∀ i ∈ (L r).indices, i < (L r).sendlength

/-- Part of an array on rank `r` (as returned by `exchange`) that came from rank `q`. -/
def Lay.segment {α : Type} (lay : Lay) (q : ℕ) (v : List α) : List α :=
  (v.drop (lay.recvcounts.take q).sum).take (lay.recvcounts.getD q 0)

/-- Inner product of two arrays. -/
def dot {K : Type} [Field K] (a b : List K) : K := (List.zipWith (· * ·) a b).sum

/-- All ranks end, all with results `f r`. -/
def AllReturn {V R : Type} (n : ℕ) (p : ℕ → Prog V R) (f : ℕ → R) : Prop :=
  Runs ((List.range n).map p) ((List.range n).map f)

/-- The programs of the `n` ranks can never all end: some rank waits forever. -/
def Deadlocks {V R : Type} (n : ℕ) (p : ℕ → Prog V R) : Prop :=
  ∀ rs, ¬ Runs ((List.range n).map p) rs

end Pmesh
