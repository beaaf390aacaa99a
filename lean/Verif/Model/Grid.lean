import Verif.Model.Domain
import Mathlib.Algebra.Order.BigOperators.Group.List
import Mathlib.Algebra.Order.Round

/-!
# Model of the other methods of `GridND`, pmesh/domain.py

`isprimary`, `load`, `loadbalance`, `uniform`.
-/

namespace Pmesh

section
variable {K : Type*} [Field K] [LinearOrder K] [IsStrictOrderedRing K] [FloorRing K]

/-- `numpy.unravel_index(i, shape, order='C')` by contract: entry `i` of the C-order enumeration. -/
def unravelIndex (shape : List ℕ) (i : ℕ) : List ℕ := (ndindex shape).getD i []

/-- `_update_primary_regions`, pmesh/domain.py:501-517: `(start, end)` of the domains of the rank.
(`None` for no domain is the empty list, for which `isprimary` returns all-false.) -/
def primaryRegions (g : Grid K) (rank : ℕ) : List (List K × List K) :=
  let mine := (List.range g.assign.length).filter fun i => g.assign[i]? = some rank
  mine.map fun i =>
    let idx := unravelIndex g.shape i
    (List.zipWith (fun (e : List K) r => e.getD r 0) g.edges idx,
     List.zipWith (fun (e : List K) r => e.getD (r + 1) 0) g.edges idx)

/-- `isprimary` for one position on one rank, pmesh/domain.py:536-559. -/
def isPrimary (g : Grid K) (rank : ℕ) (pos : List K) : Bool :=
  let box := g.edges.map fun e => e.getLastD 0
  let chunk := pos.take g.edges.length
  let chunk := if g.periodic then List.zipWith pyMod chunk box else chunk
  (primaryRegions g rank).foldl
    (fun r (x0, x1) => r ||
      ((List.zipWith (fun c a => decide (a ≤ c)) chunk x0).and
        && (List.zipWith (fun c b => decide (c < b)) chunk x1).and)) false

/-- `numpy.ravel_multi_index(idx, shape, mode)`: `none` is the ValueError of mode 'raise'. -/
def ravelMultiIndex (clip : Bool) : List ℕ → List ℤ → Option ℕ
  | [], [] => some 0
  | n :: ns, i :: is =>
    let i := if clip then clipInt i 0 (n - 1) else i
    if 0 ≤ i ∧ i < n then (ravelMultiIndex clip ns is).map (i.toNat * ns.prod + ·) else none
  | _, _ => none

/-- Domain number of one particle in `load`, pmesh/domain.py:438-456. -/
def loadDomain (g : Grid K) (x : List K) : Option ℕ :=
  let sil := List.zipWith (fun (e : List K) (x : K) =>
      let tmp := if g.periodic then pyMod x (e.getLastD 0) else x
      (digitize tmp e : ℤ) - 1) g.edges x
  ravelMultiIndex (!g.periodic) g.shape sil

/-- `load` on one rank before the reduction, pmesh/domain.py:432-459, for the domain number `ld` of a particle (lines
438-455) and `self.size = size`. -/
def loadLocalOf (ld : List K → Option ℕ) (size : ℕ) (pos : List (List K)) : Option (List ℕ) :=
  if pos.length ≠ 0 then do
    let d ← pos.mapM ld
    pure (bincount d size)
  else some (List.replicate size 0)

/-- `load` after the local part, pmesh/domain.py:461-465, for an integer `gamma`; `pos` lists the particles of each rank; the
`allreduce(SUM)` adds the arrays of all ranks. -/
def loadOf (ld : List K → Option ℕ) (size gamma : ℕ) (pos : List (List (List K))) : Option (List ℕ) := do
  let locs ← pos.mapM (loadLocalOf ld size)
  let tot := locs.foldl (fun acc l => List.zipWith (· + ·) acc l) (List.replicate size 0)
  pure (tot.map (· ^ gamma))

/-- `GridND.load`, pmesh/domain.py:409-465. -/
def load (g : Grid K) (gamma : ℕ) (pos : List (List (List K))) : Option (List ℕ) :=
  loadOf (loadDomain g) g.size gamma pos

end

section
variable {M : Type*} [AddCommMonoid M] [LinearOrder M]

/-- `a ≤ b` of python tuples `(load, index)`. -/
def pairLe (a b : M × ℕ) : Bool := decide (a.1 < b.1) || (decide (a.1 = b.1) && decide (a.2 ≤ b.2))

/-- `heapq.heappop` by contract: remove the smallest pair. Returns it and the other pairs. -/
def heapPop : List (M × ℕ) → Option ((M × ℕ) × List (M × ℕ))
  | [] => none
  | a :: l =>
    match heapPop l with
    | none => some (a, [])
    | some (m, rest) => if pairLe a m then some (a, m :: rest) else some (m, a :: rest)

/-- `sorted(..., reverse=True)` of `(load, index)` pairs by contract: insertion into descending order. -/
def insertDesc (a : M × ℕ) : List (M × ℕ) → List (M × ℕ)
  | [] => [a]
  | b :: l => if pairLe b a then a :: b :: l else b :: insertDesc a l

/-- `domains = sorted([(domainload[i], i) ...], reverse=True)`, pmesh/domain.py:483-485. -/
def sortedDomains (loads : List M) : List (M × ℕ) := (loads.zipIdx).foldr insertDesc []

/-- The loop body of `loadbalance`, pmesh/domain.py:492-496. -/
def balanceStep (st : List ℕ × List (M × ℕ)) (d : M × ℕ) : List ℕ × List (M × ℕ) :=
  match heapPop st.2 with
  | none => st
  | some ((pload, rank), rest) => (st.1.set d.2 rank, (pload + d.1, rank) :: rest)

/-- `GridND.loadbalance`, pmesh/domain.py:468-499: the new `DomainAssign`.
`heappop` of an empty heap cannot happen because `comm.size ≥ 1`. -/
def loadbalance (assign : List ℕ) (nrank : ℕ) (loads : List M) : List ℕ :=
  if assign.length ≤ nrank then assign
  else ((sortedDomains loads).foldl balanceStep
    (assign, (List.range nrank).map fun i => ((0 : M), i))).1

end

section
variable {K : Type*} [Field K] [LinearOrder K] [IsStrictOrderedRing K] [FloorRing K]

/-- `ndarray.argmax()` by contract: the first index of the largest entry. -/
def argmax : List K → ℕ
  | [] => 0
  | [_] => 0
  | a :: b :: l =>
    let k := argmax (b :: l)
    if (b :: l).getD k 0 ≤ a then 0 else k + 1

/-- The integer part of `GridND.uniform`, pmesh/domain.py:355-363, for the real root
`r = (size / prod(BoxSize) * min(BoxSize)) ** (1/ndim)` of line 355 given as an argument.
`numpy.int32` truncates towards zero; the entries are non-negative. -/
def uniformShape (r : K) (box : List K) (size : ℕ) : List ℕ :=
  let shape := box.map fun b => r * (b / box.foldr min (box.getD 0 0))
  let imax := argmax shape
  let shape := shape.map fun x => ⌊x⌋.toNat
  let shape := shape.map fun n => if n < 1 then 1 else n
  let shape := shape.set imax 1
  shape.set imax (size / shape.prod)

end
end Pmesh
