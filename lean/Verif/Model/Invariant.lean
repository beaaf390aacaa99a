import Mathlib.Data.Nat.Bitwise
import Mathlib.Algebra.Order.Group.Unbundled.Int

/-!
# Model of the scale invariant index, pmesh/_invariant_imp.c and pmesh/_invariant.pyx

The integers are unbounded.  Bit masks are natural numbers; bit `d` stands for axis `d`.
-/

namespace Pmesh

/-- `get_nbits`, _invariant_imp.c:7-18, on 32 bit unsigned integers. -/
def swarBits (v : ℕ) : ℕ :=
  let v := (v + (2 ^ 32 - ((v >>> 1) &&& 0x55555555))) % 2 ^ 32
  let v := ((v &&& 0x33333333) + ((v >>> 2) &&& 0x33333333)) % 2 ^ 32
  let v := ((v + (v >>> 4)) % 2 ^ 32) &&& 0x0f0f0f0f
  (v * 0x01010101 % 2 ^ 32) >>> 24

/-- `absmax`, _invariant_imp.c:30-42. -/
def absmax (x : List ℤ) : ℕ := x.foldl (fun s xd => if xd.natAbs > s then xd.natAbs else s) (x.headD 0).natAbs

/-- The variables of the loop over the axes, _invariant_imp.c:126-139.  `ndim1` is the length of `x1`. -/
structure CapState where
  icapset : ℕ
  icap : ℕ
  x1 : List ℤ
  cmask1 : ℕ
deriving Repr, DecidableEq

/-- The loop over the axes from `d` on, _invariant_imp.c:141-150.  Setting a bit that is not set is an addition. -/
def capSplit (shell cmask : ℕ) : ℕ → List ℤ → CapState → CapState
  | _, [], st => st
  | d, xd :: x, st => capSplit shell cmask (d + 1) x
      (if xd.natAbs = shell then { st with icapset := st.icapset + 2 ^ d, icap := st.icap + if xd < 0 then 2 ^ d else 0 }
       else { st with x1 := st.x1 ++ [xd], cmask1 := st.cmask1 + 2 ^ st.x1.length * ((cmask >>> d) % 2) })

/-- `size[icapset]`, _invariant_imp.c:187-192.  The cache is left out. -/
def capSize (ndim shell cmask icapset : ℕ) : ℕ :=
  let n := swarBits icapset
  let nhalf := swarBits (cmask.ldiff icapset)
  (shell * 2 + 1 - 2) ^ (ndim - n - nhalf) * shell ^ nhalf

/-- The two loops over the caps, _invariant_imp.c:162-199: `ps` are the remaining pairs of `icap` and `icapset`, `sub` is the call
for the hosting cap with its `max_length`. -/
def capLoop (ndim shell cmask icapX icapsetX : ℕ) (maxLength : ℤ) (sub : ℤ → ℤ) : List (ℕ × ℕ) → ℤ → ℤ
  | [], _ => -1
  | (icap, icapset) :: ps, ind =>
    if icap.ldiff icapset ≠ 0 then capLoop ndim shell cmask icapX icapsetX maxLength sub ps ind
    else if icap &&& cmask ≠ 0 then capLoop ndim shell cmask icapX icapsetX maxLength sub ps ind
    else if icap = icapX ∧ icapset = icapsetX then
      let subind := sub (if maxLength ≥ 0 then maxLength - ind else -1)
      if subind = -1 then -1
      else if maxLength ≥ 0 ∧ ind + subind ≥ maxLength then -1
      else ind + subind
    else
      let ind := ind + capSize ndim shell cmask icapset
      if maxLength ≥ 0 ∧ ind ≥ maxLength then -1
      else capLoop ndim shell cmask icapX icapsetX maxLength sub ps ind

/-- `for(icap …) for(icapset …)`, _invariant_imp.c:162-163. -/
def capPairs (ndim : ℕ) : List (ℕ × ℕ) := (List.range (2 ^ ndim)).flatMap fun icap => (List.range (2 ^ ndim)).map fun icapset => (icap, icapset)

/-- `pmesh_get_invariant_index(ndim, x, cmask, max_length)`, _invariant_imp.c:60-200.  Each call has fewer axes; `fuel` is the
number of axes of the first call. -/
def invariantIndex : ℕ → List ℤ → ℕ → ℤ → ℤ
  | 0, _, _, _ => 0
  | fuel + 1, x, cmask, maxLength =>
    let shell := absmax x
    if shell = 0 then 0
    else if (List.range x.length).any fun d => cmask.testBit d && decide (x.getD d 0 < 0) then -1
    else
      let st := capSplit shell cmask 0 x ⟨0, 0, [], 0⟩
      capLoop x.length shell cmask st.icap st.icapset maxLength (fun ml => invariantIndex fuel st.x1 st.cmask1 ml) (capPairs x.length) 0

/-- `get_index` for one point, _invariant.pyx:35-51. -/
def getIndex (x : List ℤ) (nmesh : List ℕ) (compressed : Bool) (maxlength : Option ℤ) : ℤ :=
  let cmask := if compressed then 2 ^ (x.length - 1) else 0
  let xi := List.zipWith (fun (xd : ℤ) (n : ℕ) => if xd = (-(n : ℤ)) / 2 then (n : ℤ) / 2 else xd) x nmesh
  if (List.zipWith (fun (xd : ℤ) (n : ℕ) => decide (xd > (n : ℤ) / 2) || decide (xd < (-(n : ℤ)) / 2)) xi nmesh).any id then -1
  else invariantIndex x.length xi cmask (maxlength.getD (-1))

end Pmesh
