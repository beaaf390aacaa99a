import Verif.Model.Invariant

/-!
# The scale invariant index with the integers of C

pmesh/_invariant_imp.c again, now with `ptrdiff_t` of 64 bits, `int` of 32 bits and the cache `size[]`.  A result that does not fit is
undefined (or up to the compiler, for `abs` of a number that is not an `int`), here `none`.  The masks are those of
`Verif.Model.Invariant`; they fit if `1 << ndim` is an `int`.  The memory for `size` and `x1` on the stack is not modelled.
-/

namespace Pmesh

/-- `2 ^ 63`. -/
def ptrEnd : ℤ := 9223372036854775808

/-- A number assigned to a variable of type `ptrdiff_t`: at least `-2 ^ 63` and less than `2 ^ 63`. -/
def cPtr (z : ℤ) : Option ℤ := if -ptrEnd ≤ z ∧ z < ptrEnd then some z else none

/-- `abs(x)`: the argument is converted to `int`, and `abs` of the smallest `int` is undefined. -/
def cAbs (z : ℤ) : Option ℕ := if -2147483647 ≤ z ∧ z ≤ 2147483647 then some z.natAbs else none

/-- `absmax`, _invariant_imp.c:30-42. -/
def absmaxC : List ℤ → Option ℕ
  | [] => some 0
  | x0 :: x => do
    let shell ← cAbs x0
    (x0 :: x).foldlM (fun s xd => do
      let a ← cAbs xd
      return if a > s then a else s) shell

/-- `while(p) { r *= n; p--; }`, _invariant_imp.c:23-27. -/
def ipowLoopC (n : ℤ) : ℕ → ℤ → Option ℤ
  | 0, r => some r
  | p + 1, r => do
    let r ← cPtr (r * n)
    ipowLoopC n p r

/-- `ipow(n, p)`, _invariant_imp.c:20-28. -/
def ipowC (n : ℤ) (p : ℕ) : Option ℤ := ipowLoopC n p 1

/-- The value stored in `size[icapset]`, _invariant_imp.c:189-191, with `side = shell * 2 + 1`. -/
def capSizeC (ndim shell cmask icapset : ℕ) : Option ℤ := do
  let n := swarBits icapset
  let nhalf := swarBits (cmask.ldiff icapset)
  let a ← ipowC ((shell : ℤ) * 2 + 1 - 2) (ndim - n - nhalf)
  let b ← ipowC shell nhalf
  cPtr (a * b)

/-- The two loops over the caps, _invariant_imp.c:160-199, with the cache `size`. -/
def capLoopC (ndim shell cmask icapX icapsetX : ℕ) (maxLength : ℤ) (sub : ℤ → Option ℤ) : List (ℕ × ℕ) → (ℕ → ℤ) → ℤ → Option ℤ
  | [], _, _ => some (-1)
  | (icap, icapset) :: ps, size, ind =>
    if icap.ldiff icapset ≠ 0 then capLoopC ndim shell cmask icapX icapsetX maxLength sub ps size ind
    else if icap &&& cmask ≠ 0 then capLoopC ndim shell cmask icapX icapsetX maxLength sub ps size ind
    else if icap = icapX ∧ icapset = icapsetX then do
      let maxLength1 ← (if maxLength ≥ 0 then cPtr (maxLength - ind) else some (-1))
      let subind ← sub maxLength1
      if subind = -1 then some (-1)
      else do
        let ind ← cPtr (ind + subind)
        if maxLength ≥ 0 ∧ ind ≥ maxLength then some (-1) else some ind
    else do
      let s ← (if size icapset = 0 then capSizeC ndim shell cmask icapset else some (size icapset))
      let ind ← cPtr (ind + s)
      if maxLength ≥ 0 ∧ ind ≥ maxLength then some (-1)
      else capLoopC ndim shell cmask icapX icapsetX maxLength sub ps (fun b => if b = icapset then s else size b) ind

/-- `pmesh_get_invariant_index(ndim, x, cmask, max_length)`, _invariant_imp.c:60-200.  `1 << ndim` must be an `int`. -/
def invariantIndexC : ℕ → List ℤ → ℕ → ℤ → Option ℤ
  | 0, _, _, _ => some 0
  | fuel + 1, x, cmask, maxLength => do
    let shell ← absmaxC x
    if shell = 0 then some 0
    else if 30 < x.length then none
    else if (List.range x.length).any fun d => cmask.testBit d && decide (x.getD d 0 < 0) then some (-1)
    else
      let st := capSplit shell cmask 0 x ⟨0, 0, [], 0⟩
      capLoopC x.length shell cmask st.icap st.icapset maxLength (fun ml => invariantIndexC fuel st.x1 st.cmask1 ml)
        (capPairs x.length) (fun _ => 0) 0

/-- `get_index` for one point, _invariant.pyx:35-51. -/
def getIndexC (x : List ℤ) (nmesh : List ℕ) (compressed : Bool) (maxlength : Option ℤ) : Option ℤ :=
  let cmask := if compressed then 2 ^ (x.length - 1) else 0
  let xi := List.zipWith (fun (xd : ℤ) (n : ℕ) => if xd = (-(n : ℤ)) / 2 then (n : ℤ) / 2 else xd) x nmesh
  if (List.zipWith (fun (xd : ℤ) (n : ℕ) => decide (xd > (n : ℤ) / 2) || decide (xd < (-(n : ℤ)) / 2)) xi nmesh).any id then some (-1)
  else invariantIndexC x.length xi cmask (maxlength.getD (-1))

end Pmesh
