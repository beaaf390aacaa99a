import Verif.Model.Numpy

/-!
# Model of pmesh/domain.py `GridND` and pmesh/_domain.pyx `gridnd_fill`

Simplifications: exact arithmetic instead of doubles, unbounded integers instead of int16/int32,
no chunking of the particle array (pmesh/domain.py:606-608 only bounds temporary memory).
-/

namespace Pmesh

/-- What can go wrong in `gridnd_fill`.  With `boundscheck(False)` (pmesh/_domain.pyx:5) an out-of-range
access is undefined behaviour; the model makes it an error value. `unsorted` is the
`raise Exception("failed ...")` of pmesh/_domain.pyx:115. -/
inductive FillErr where
  | outOfBounds
  | unsorted
  deriving DecidableEq, Repr

/-- Array read without wrap-around; out of range is an error value. -/
def readAt {α : Type*} (l : List α) (i : ℤ) : Except FillErr α :=
  if 0 ≤ i then
    match l[i.toNat]? with
    | some a => .ok a
    | none => .error .outOfBounds
  else .error .outOfBounds

/-- `GridND` (pmesh/domain.py:370-407): `edges`, `periodic`, `DomainAssign` and `comm.size`. -/
structure Grid (K : Type*) where
  edges : List (List K)
  periodic : Bool
  assign : List ℕ
  nrank : ℕ

section
variable {K : Type*} [Field K] [LinearOrder K] [IsStrictOrderedRing K] [FloorRing K]

/-- `self.shape`, pmesh/domain.py:378. -/
def Grid.shape (g : Grid K) : List ℕ := g.edges.map fun e => e.length - 1

/-- `self.size = product(self.shape)`, pmesh/domain.py:383. -/
def Grid.size (g : Grid K) : ℕ := g.shape.prod

/-- Default `DomainAssign`, pmesh/domain.py:385-393.  The array starts as `numpy.empty` (`junk`);
slice `[start:end]` is set to `i` for each rank in turn. -/
def defaultAssign (size nrank : ℕ) (junk : ℕ → ℕ) : List ℕ :=
  if nrank ≥ size then List.range size
  else
    (List.range nrank).foldl
      (fun acc i =>
        let start := i * size / nrank
        let stop := (i + 1) * size / nrank
        acc.mapIdx fun k a => if start ≤ k ∧ k < stop then i else a)
      ((List.range size).map junk)

/-- One axis of the degenerate test, `edge[1:] == edge[:-1]`, pmesh/domain.py:400-401. -/
def axisDegenerate (e : List K) (d : ℕ) : Bool :=
  match e[d]?, e[d + 1]? with
  | some a, some b => decide (b = a)
  | _, _ => false

/-- `self.DomainDegenerate = dd.ravel()`, pmesh/domain.py:397-405: the or over the axes, broadcast to
the full shape, in C order. -/
def Grid.degenerate (g : Grid K) : List Bool :=
  (ndindex g.shape).map fun D => (List.zipWith axisDegenerate g.edges D).any id

/-- Range of domains touched along one axis, `(sil, sir)` of pmesh/domain.py:614-632. -/
def axisRange (periodic : Bool) (e : List K) (s x : K) : ℤ × ℤ :=
  let n : ℤ := ((e.length - 1 : ℕ) : ℤ)
  if periodic then
    let boxsize := e.getLastD 0
    let c := pyMod x boxsize
    let l : ℤ := digitize (pyMod (c - s) boxsize) e
    let r : ℤ := digitize (pyMod (c + s) boxsize) e
    let p : ℤ := digitize c e
    (p - (p - l) % n - 1, p + (r - p) % n)
  else
    let l : ℤ := digitize (x - s) e
    let r : ℤ := digitize (x + s) e
    (clipInt (l - 1) 0 n, clipInt r 0 n)

/-- `strides[]`, pmesh/_domain.pyx:56-58. -/
def stridesOf : List ℕ → List ℕ
  | [] => []
  | [_] => [1]
  | _ :: d :: ds =>
    let rest := stridesOf (d :: ds)
    (rest.headD 1 * d) :: rest

/-- The flat domain number of a patch point, pmesh/_domain.pyx:72-80. -/
def flatTarget (periodic : Bool) (dims : List ℕ) (p : List ℤ) : ℤ :=
  (List.zipWith (fun (t : ℤ) (ds : ℕ × ℕ) =>
      (if periodic then wrapLoop t ds.1 else t) * (ds.2 : ℤ))
    p (dims.zip (stridesOf dims))).sum

/-- Advance the patch point, pmesh/_domain.pyx:99-106, on lists with the **last axis first**:
the last axis is incremented, an axis that reaches `sir` is reset to `sil` and carries, axis 0 is
never reset. -/
def advanceRev : List ℤ → List ℤ → List ℤ → List ℤ
  | s :: s' :: ss, r :: rs, p :: ps =>
    if p + 1 = r then s :: advanceRev (s' :: ss) rs ps else (p + 1) :: ps
  | _, _, p :: ps => (p + 1) :: ps
  | _, _, [] => []

/-- The patch point in natural axis order. -/
def advance (sil sir p : List ℤ) : List ℤ :=
  (advanceRev sil.reverse sir.reverse p.reverse).reverse

/-- The patch points visited by `for kkk in range(patchsize)`, pmesh/_domain.pyx:71. -/
def patchPoints (sil sir : List ℤ) : ℕ → List ℤ → List (List ℤ)
  | 0, _ => []
  | k + 1, p => p :: patchPoints sil sir k (advance sil sir p)

/-- `patchsize`, pmesh/_domain.pyx:63-66. -/
def patchSize (sil sir : List ℤ) : ℤ := (List.zipWith (fun l r => r - l) sil sir).prod

/-- Insert `t` at the end of the sorted `target_list` and bubble it down, pmesh/_domain.pyx:86-97.
The list is held with the **last element first**. -/
def bubble (t : ℕ) : List ℕ → List ℕ
  | [] => [t]
  | a :: rest => if a > t then a :: bubble t rest else t :: a :: rest

/-- One iteration of the patch loop, pmesh/_domain.pyx:72-97.  Note that the degenerate flag is read
at the *rank* `target` (line 83), as in the code. -/
def patchStep (g : Grid K) (acc : List ℕ) (p : List ℤ) : Except FillErr (List ℕ) := do
  let target ← readAt g.assign (flatTarget g.periodic g.shape p)
  let deg ← readAt g.degenerate (target : ℤ)
  if deg then pure acc else pure (bubble target acc)

/-- The unique pass, pmesh/_domain.pyx:110-116; `prev` is the variable `target` that starts as `-1`. -/
def uniquePass (prev : ℤ) : List ℕ → Except FillErr (List ℕ)
  | [] => .ok []
  | a :: rest =>
    if prev = a then uniquePass prev rest
    else if (a : ℤ) < prev then .error .unsorted
    else do
      let r ← uniquePass a rest
      pure (a :: r)

/-- Ranks that one particle is sent to: body of `for i in range(Npoint)`, pmesh/_domain.pyx:62-116. -/
def particleTargets (g : Grid K) (sil sir : List ℤ) : Except FillErr (List ℕ) := do
  let lst ← (patchPoints sil sir (patchSize sil sir).toNat sil).foldlM (patchStep g) []
  uniquePass (-1) lst.reverse

/-- `counts[target] += 1` for all pushed targets, pmesh/_domain.pyx:117-118. -/
def countTargets (counts : List ℕ) (targets : List (List ℕ)) : Except FillErr (List ℕ) :=
  targets.flatten.foldlM
    (fun acc t => if t < acc.length then .ok (acc.modify t (· + 1)) else .error .outOfBounds) counts

/-- `offset[]`, pmesh/_domain.pyx:45-50 (the entry `Nrank` is `totalsize`). -/
def fillOffsets (counts : List ℕ) : List ℕ := 0 :: cumsum counts

/-- One `indices[offset[target]] = i; offset[target] += 1`, pmesh/_domain.pyx:120-121.
`none` is a slot of `numpy.empty` that was not written yet. -/
def pushIndex (i : ℕ) (st : List (Option ℕ) × List ℕ) (t : ℕ) :
    Except FillErr (List (Option ℕ) × List ℕ) :=
  match st.2[t]? with
  | none => .error .outOfBounds
  | some o =>
    if o < st.1.length then .ok (st.1.set o (some i), st.2.set t (o + 1))
    else .error .outOfBounds

/-- Mode 1 of `gridnd_fill`: pmesh/_domain.pyx:45-51 and 108-122. -/
def fillIndices (counts : List ℕ) (targets : List (List ℕ)) :
    Except FillErr (List (Option ℕ)) := do
  let offset := fillOffsets counts
  let total := offset.getLastD 0
  let st ← targets.zipIdx.foldlM
    (fun st ti => ti.1.foldlM (pushIndex ti.2) st) (List.replicate total none, offset)
  pure st.1

/-- The data a rank keeps about its own sends: `sendlength`, `sendcounts`, `indices`
(arguments of `Layout`, pmesh/domain.py:645-650). -/
structure Sends where
  sendlength : ℕ
  sendcounts : List ℕ
  indices : List (Option ℕ)
  deriving DecidableEq, Repr

/-- `(sil, sir)` of one particle, pmesh/domain.py:609-632; `zipWith` stops at `ndim` axes, so extra
position columns are ignored as in the code. -/
def particleRange (g : Grid K) (s x : List K) : List (ℤ × ℤ) :=
  List.zipWith (fun (e : List K) (sx : K × K) => axisRange g.periodic e sx.1 sx.2) g.edges (s.zip x)

/-- `GridND.decompose` on one rank, pmesh/domain.py:586-652, for the ranges `(sil, sir)` of each particle (lines 609-632). -/
def decomposeBy (g : Grid K) (range : List K → List (ℤ × ℤ)) (pos : List (List K)) : Except FillErr Sends := do
  if pos.length ≠ 0 then
    let targets ← pos.mapM fun x =>
      let rg := range x
      particleTargets g (rg.map (·.1)) (rg.map (·.2))
    let counts ← countTargets (List.replicate g.nrank 0) targets
    let indices ← fillIndices counts targets
    pure ⟨pos.length, counts, indices⟩
  else
    pure ⟨0, List.replicate g.nrank 0, []⟩

/-- `GridND.decompose` on one rank, after broadcasting `smoothing` to one value per axis and applying `transform` to the
positions. -/
def decompose (g : Grid K) (s : List K) (pos : List (List K)) : Except FillErr Sends := decomposeBy g (particleRange g s) pos

end
end Pmesh
