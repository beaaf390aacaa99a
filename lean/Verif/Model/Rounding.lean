import Verif.Model.Grid
import Verif.Model.Spmd

/-!
# `GridND` in floating point

The other models use exact arithmetic.  Here the arithmetic of pmesh/domain.py:409-652 is done with an arbitrary rounding after each
addition, subtraction and remainder; comparisons and `digitize` are exact, as in IEEE 754.
-/

namespace Pmesh

section
variable {K : Type*} [Field K] [LinearOrder K] [IsStrictOrderedRing K] [FloorRing K]

/-- C `fmod(x, b)`: `x` minus `b` times the quotient rounded towards zero. -/
def cFmod (x b : K) : K := x - b * ((if 0 ≤ x / b then ⌊x / b⌋ else ⌈x / b⌉ : ℤ) : K)

/-- A floating point format and rounding mode: `rnd` is the result of an operation with the given exact result; the numbers with
`rnd x = x` are the ones of the format.  The fields hold in IEEE 754 as long as there is no overflow (`Lemmas/FloatRound` has the
proof for binary formats of any precision). -/
structure Rounding (K : Type*) [Field K] [LinearOrder K] [IsStrictOrderedRing K] [FloorRing K] where
  rnd : K → K
  mono : Monotone rnd
  idem : ∀ x, rnd (rnd x) = rnd x
  zero : rnd 0 = 0
  /-- `fmod` is exact. -/
  fmod : ∀ x b, rnd x = x → rnd b = b → rnd (cFmod x b) = cFmod x b

/-- `numpy.remainder(x, b)` and `x % b` of float arrays (`npy_divmod`/`npy_remainder`): `mod = fmod(x, b)`; if it is not zero and
has the other sign than `b`, `mod += b`. -/
def fpMod (R : Rounding K) (x b : K) : K :=
  let m := cFmod x b
  if m ≠ 0 then (if (decide (b < 0)) != (decide (m < 0)) then R.rnd (m + b) else m) else 0

/-- `(sil, sir)` along one axis, pmesh/domain.py:614-632. -/
def axisRangeR (R : Rounding K) (periodic : Bool) (e : List K) (s x : K) : ℤ × ℤ :=
  let n : ℤ := ((e.length - 1 : ℕ) : ℤ)
  if periodic then
    let boxsize := e.getLastD 0
    let c := fpMod R x boxsize
    let l : ℤ := digitize (fpMod R (R.rnd (c - s)) boxsize) e
    let r : ℤ := digitize (fpMod R (R.rnd (c + s)) boxsize) e
    let p : ℤ := digitize c e
    (p - (p - l) % n - 1, p + (r - p) % n)
  else
    let l : ℤ := digitize (R.rnd (x - s)) e
    let r : ℤ := digitize (R.rnd (x + s)) e
    (clipInt (l - 1) 0 n, clipInt r 0 n)

/-- `(sil, sir)` of one particle. -/
def particleRangeR (R : Rounding K) (g : Grid K) (s x : List K) : List (ℤ × ℤ) :=
  List.zipWith (fun (e : List K) (sx : K × K) => axisRangeR R g.periodic e sx.1 sx.2) g.edges (s.zip x)

/-- `GridND.decompose`, pmesh/domain.py:561-652. -/
def decomposeR (R : Rounding K) (g : Grid K) (s : List K) (pos : List (List K)) : Except FillErr Sends :=
  decomposeBy g (particleRangeR R g s) pos

/-- `isprimary` for one position on one rank, pmesh/domain.py:536-559. -/
def isPrimaryR (R : Rounding K) (g : Grid K) (rank : ℕ) (pos : List K) : Bool :=
  let box := g.edges.map fun e => e.getLastD 0
  let chunk := pos.take g.edges.length
  let chunk := if g.periodic then List.zipWith (fpMod R) chunk box else chunk
  (primaryRegions g rank).foldl
    (fun r (x0, x1) => r ||
      ((List.zipWith (fun c a => decide (a ≤ c)) chunk x0).and
        && (List.zipWith (fun c b => decide (c < b)) chunk x1).and)) false

/-- Domain number of one particle in `load`, pmesh/domain.py:438-456. -/
def loadDomainR (R : Rounding K) (g : Grid K) (x : List K) : Option ℕ :=
  let sil := List.zipWith (fun (e : List K) (x : K) =>
      let tmp := if g.periodic then fpMod R x (e.getLastD 0) else x
      (digitize tmp e : ℤ) - 1) g.edges x
  ravelMultiIndex (!g.periodic) g.shape sil

/-- `GridND.load`, pmesh/domain.py:409-465. -/
def loadR (R : Rounding K) (g : Grid K) (gamma : ℕ) (pos : List (List (List K))) : Option (List ℕ) :=
  loadOf (loadDomainR R g) g.size gamma pos

end

/-- `GridND.load` as a program of one rank with particles `pos`: a `ValueError` of `ravel_multi_index` (`.error`) ends it before
the `allreduce`, pmesh/domain.py:455-465. -/
def loadProg {K : Type} [Field K] [LinearOrder K] [IsStrictOrderedRing K] [FloorRing K] (R : Rounding K) (g : Grid K) (gamma : ℕ)
    (pos : List (List K)) : Prog (List ℕ) (Except Unit (List ℕ)) :=
  match loadLocalOf (loadDomainR R g) g.size pos with
  | none => .ret (.error ())
  | some l => .coll .allreduce l fun ls =>
    .ret (.ok ((ls.foldl (fun acc l => List.zipWith (· + ·) acc l) (List.replicate g.size 0)).map (· ^ gamma)))

end Pmesh
