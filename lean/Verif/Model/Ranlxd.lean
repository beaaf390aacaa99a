import Mathlib.Data.Rat.Floor
import Mathlib.Algebra.Order.Field.Rat

/-!
# Model of the random generator, pmesh/gsl/ranlxd.c

Every arithmetic operation on `double` is exact rational arithmetic followed by the rounding function `rnd`.
-/

namespace Pmesh

/-- `static const int next[12]`, ranlxd.c:38. -/
def rlNext (i : ℕ) : ℕ := [1, 2, 3, 4, 5, 6, 7, 8, 9, 10, 11, 0].getD i 0

/-- `one_bit`, ranlxd.c:40. -/
def oneBit : ℚ := 1 / 281474976710656

/-- The variables of `increment_state`. -/
structure RlVars where
  xdbl : List ℚ
  carry : ℚ
  ir : ℕ
  jr : ℕ
deriving Repr, DecidableEq

/-- `ranlxd_state_t`, ranlxd.c:51-60. -/
structure RlState extends RlVars where
  irOld : ℕ
  pr : ℕ
deriving Repr, DecidableEq

section
variable (rnd : ℚ → ℚ)

/-- The body of the first and last loop of `increment_state`, ranlxd.c:77-90 and 131-144. -/
def rlStep (v : RlVars) : RlVars :=
  let y1 := rnd (v.xdbl.getD v.jr 0 - v.xdbl.getD v.ir 0)
  let y2 := rnd (y1 - v.carry)
  if y2 < 0 then ⟨v.xdbl.set v.ir (rnd (y2 + 1)), oneBit, rlNext v.ir, rlNext v.jr⟩
  else ⟨v.xdbl.set v.ir y2, 0, rlNext v.ir, rlNext v.jr⟩

/-- `RANLUX_STEP(x1,x2,i1,i2,i3)`, ranlxd.c:42-49: the new `xdbl` and `x1`. -/
def ranluxStep (x2 : ℚ) (i1 i2 i3 : ℕ) (xdbl : List ℚ) : List ℚ × ℚ :=
  let x1 := rnd (xdbl.getD i1 0 - xdbl.getD i2 0)
  if x2 < 0 then (xdbl.set i3 (rnd (x2 + 1)), rnd (x1 - oneBit)) else (xdbl.set i3 x2, x1)

/-- The body of the middle loop, ranlxd.c:96-121. -/
def rlBlock (v : RlVars) : RlVars :=
  let y1 := rnd (v.xdbl.getD 7 0 - v.xdbl.getD 0 0)
  let y1 := rnd (y1 - v.carry)
  let (x, y2) := ranluxStep rnd y1 8 1 0 v.xdbl
  let (x, y3) := ranluxStep rnd y2 9 2 1 x
  let (x, y1) := ranluxStep rnd y3 10 3 2 x
  let (x, y2) := ranluxStep rnd y1 11 4 3 x
  let (x, y3) := ranluxStep rnd y2 0 5 4 x
  let (x, y1) := ranluxStep rnd y3 1 6 5 x
  let (x, y2) := ranluxStep rnd y1 2 7 6 x
  let (x, y3) := ranluxStep rnd y2 3 8 7 x
  let (x, y1) := ranluxStep rnd y3 4 9 8 x
  let (x, y2) := ranluxStep rnd y1 5 10 9 x
  let (x, y3) := ranluxStep rnd y2 6 11 10 x
  if y3 < 0 then ⟨x.set 11 (rnd (y3 + 1)), oneBit, v.ir, v.jr⟩ else ⟨x.set 11 y3, 0, v.ir, v.jr⟩

/-- `for (k = 0; ir > 0; ++k)`, ranlxd.c:75: variables and `k` at the end.  At most twelve rounds are possible, since `ir` is
below twelve and `next` counts up to eleven and then gives zero. -/
def rlLoop1 : ℕ → ℕ → RlVars → RlVars × ℕ
  | 0, k, v => (v, k)
  | fuel + 1, k, v => if 0 < v.ir then rlLoop1 fuel (k + 1) (rlStep rnd v) else (v, k)

/-- `for (; k <= kmax; k += 12)` with `kmax = pr - 12`, ranlxd.c:92-121. -/
def rlLoop2 (pr : ℕ) : ℕ → ℕ → RlVars → RlVars × ℕ
  | 0, k, v => (v, k)
  | fuel + 1, k, v => if (k : ℤ) ≤ (pr : ℤ) - 12 then rlLoop2 pr fuel (k + 12) (rlBlock rnd v) else (v, k)

/-- `for (; k < kmax; ++k)` with `kmax = pr`, ranlxd.c:123-144. -/
def rlLoop3 (pr : ℕ) : ℕ → ℕ → RlVars → RlVars × ℕ
  | 0, k, v => (v, k)
  | fuel + 1, k, v => if k < pr then rlLoop3 pr fuel (k + 1) (rlStep rnd v) else (v, k)

/-- `increment_state`, ranlxd.c:64-147. -/
def incrementState (s : RlState) : RlState :=
  let (v, k) := rlLoop1 rnd 12 0 s.toRlVars
  let (v, k) := rlLoop2 rnd s.pr (s.pr + 1) k v
  let (v, _) := rlLoop3 rnd s.pr (s.pr + 1) k v
  { v with irOld := v.ir, pr := s.pr }

/-- `ranlxd_get_double`, ranlxd.c:155-168. -/
def rlGetDouble (s : RlState) : ℚ × RlState :=
  let s := { s with ir := rlNext s.ir }
  let s := if s.ir = s.irOld then incrementState rnd s else s
  (s.xdbl.getD s.ir 0, s)

/-- `for (k = 0; k < 31; ++k) { xbit[k] = i % 2; i /= 2; }`, ranlxd.c:187-191. -/
def rlBits : ℕ → ℤ → List ℤ
  | 0, _ => []
  | n + 1, i => i.tmod 2 :: rlBits n (i.tdiv 2)

/-- One round of the inner loop, ranlxd.c:202-207, on `xbit`, `ibit`, `jbit` and `x`. -/
def rlBitStep : List ℤ × ℕ × ℕ × ℚ → List ℤ × ℕ × ℕ × ℚ
  | (xbit, ibit, jbit, x) =>
    let y : ℚ := ((xbit.getD ibit 0 + 1).tmod 2 : ℤ)
    (xbit.set ibit ((xbit.getD ibit 0 + xbit.getD jbit 0).tmod 2), (ibit + 1) % 31, (jbit + 1) % 31, rnd (x + rnd (x + y)))

/-- The words of the state, ranlxd.c:196-210: `n` words, each of 48 bits. -/
def rlWords : ℕ → List ℤ × ℕ × ℕ → List ℚ
  | 0, _ => []
  | n + 1, (xbit, ibit, jbit) =>
    let (xbit, ibit, jbit, x) := (rlBitStep rnd)^[48] (xbit, ibit, jbit, 0)
    rnd (oneBit * x) :: rlWords n (xbit, ibit, jbit)

/-- The `int` with the low 32 bits of a nonnegative number. -/
def toInt32 (s : ℕ) : ℤ := if s % 4294967296 < 2147483648 then (s % 4294967296 : ℕ) else ((s % 4294967296 : ℕ) : ℤ) - 4294967296

/-- `ranlxd_set_lux`, ranlxd.c:170-216. -/
def rlSetLux (s luxury : ℕ) : RlState :=
  let s := if s = 0 then 1 else s
  ⟨⟨rlWords rnd 12 (rlBits 31 (toInt32 s), 0, 18), 0, 11, 7⟩, 0, luxury⟩

/-- `gsl_rng_set` of `gsl_rng_ranlxd1`, ranlxd.c:218-222. -/
def ranlxd1Set (s : ℕ) : RlState := rlSetLux rnd s 202

/-- Number `n` (from zero) that `gsl_rng_uniform` returns after `gsl_rng_set(rng, seed)`. -/
def ranlxd1 (seed n : ℕ) : ℚ := (rlGetDouble rnd ((fun s => (rlGetDouble rnd s).2)^[n] (ranlxd1Set rnd seed))).1

end
end Pmesh
