import Mathlib.Algebra.Order.Floor.Ring
import Mathlib.Algebra.Order.Field.Basic
import Mathlib.Algebra.BigOperators.Group.List.Basic

/-!
# Contracts of the numpy / C primitives used by several models

These are not part of pmesh; they fix the meaning of the library calls and C loops that the
modelled code makes.  Arithmetic is exact (see DESIGN.md).
-/

namespace Pmesh

section Real
variable {K : Type*} [Field K] [LinearOrder K] [IsStrictOrderedRing K] [FloorRing K]

/-- `numpy.remainder(x, b)` / python `x % b` for floats, in exact arithmetic: the floor remainder.
Used by pmesh/domain.py:444, 555, 616-618. -/
def pyMod (x b : K) : K := x - b * (⌊x / b⌋ : K)

/-- `numpy.digitize(x, bins, right=False)` for non-decreasing `bins`: the number of edges `≤ x`
(`searchsorted(bins, x, side='right')`).  Used through `GridND._digitize`, pmesh/domain.py:342-347. -/
def digitize (x : K) (edges : List K) : ℕ := edges.countP (fun e => decide (e ≤ x))

end Real

/-- `numpy.ndarray.clip(lo, hi)` on integers: `minimum(maximum(x, lo), hi)`.
Used by pmesh/domain.py:629-630. -/
def clipInt (x lo hi : ℤ) : ℤ := min (max x lo) hi

/-- The C loop `while (t >= n) t -= n;`.  For `n ≤ 0` the C loop does not terminate (or does not run);
the model stops at once in that case, and every theorem assumes `0 < n`. -/
def wrapDown (t n : ℤ) : ℤ :=
  if _h : 0 < n ∧ n ≤ t then wrapDown (t - n) n else t
termination_by t.toNat
decreasing_by omega

/-- The C loop `while (t < 0) t += n;` (same remark about `n ≤ 0`). -/
def wrapUp (t n : ℤ) : ℤ :=
  if _h : 0 < n ∧ t < 0 then wrapUp (t + n) n else t
termination_by (-t).toNat
decreasing_by omega

/-- The pair of loops `while (t >= n) t -= n; while (t < 0) t += n;`
pmesh/_domain.pyx:76-79, pmesh/_window_generics.h:45-50 and 117-122. -/
def wrapLoop (t n : ℤ) : ℤ := wrapUp (wrapDown t n) n

/-- `numpy.ndindex(*shape)`: all multi-indices of an array in C order. -/
def ndindex : List ℕ → List (List ℕ)
  | [] => [[]]
  | n :: ns => (List.range n).flatMap fun a => (ndindex ns).map fun t => a :: t

/-- `numpy.cumsum`. -/
def cumsumFrom (acc : ℕ) : List ℕ → List ℕ
  | [] => []
  | x :: xs => (acc + x) :: cumsumFrom (acc + x) xs

/-- `numpy.cumsum(a)`. -/
def cumsum (l : List ℕ) : List ℕ := cumsumFrom 0 l

/-- `numpy.bincount(x, minlength=n)` for entries below `n`: one `+= 1` per entry. -/
def bincount (x : List ℕ) (n : ℕ) : List ℕ :=
  x.foldl (fun acc i => acc.modify i (· + 1)) (List.replicate n 0)

end Pmesh
