import Mathlib.Data.Rat.Floor
import Mathlib.Algebra.Order.Floor.Defs
import Mathlib.Algebra.Order.Field.Rat
import Mathlib.Algebra.Group.Prod

/-!
# Model of the white noise generator, pmesh/_whitenoise_imp.c and pmesh/_whitenoise_generics.h

The C integers are unbounded.  The random generator is any machine `Rng`; `Model/Ranlxd.lean` has the one that is used.  `rnd` is
the rounding of `0x7fffffff * u` and `polar` stands for `ampl * cos(phase)`, `ampl * sin(phase)` with
`ampl = unitary ? 1 : sqrt(-log(ampl))`, computed from the two uniform numbers and converted to `FLOAT`.
-/

namespace Pmesh

/-- `gsl_rng`: `gsl_rng_set` and `gsl_rng_uniform`.  The numbers are rational; they are taken from another field `D` (the reals)
only where the generator is idealised, Props/NoiseLaw.lean. -/
structure Rng (σ : Type) (D : Type := ℚ) where
  set : ℕ → σ
  next : σ → D × σ

/-- Number `n` (from zero) after `gsl_rng_set(rng, seed)`. -/
def Rng.uniform {σ D : Type} (r : Rng σ D) (seed n : ℕ) : D := (r.next ((fun s => (r.next s).2)^[n] (r.set seed))).1

/-- `PMeshWhiteNoiseGenerator`, _whitenoise_imp.h: mesh, and start, shape and strides of the local array. -/
structure NoiseGen where
  nmesh : Fin 3 → ℤ
  start : Fin 3 → ℤ
  size : Fin 3 → ℤ
  strides : Fin 3 → ℤ
  unitary : Bool

/-- `for(i = lo; i < hi; i ++)`. -/
def intRange (lo hi : ℤ) : List ℤ := (List.range (hi - lo).toNat).map fun n : ℕ => lo + n

/-- The arguments of the calls of `SETSEED`, in order, _whitenoise_generics.h:76-93. -/
def seedVisits (n0 n1 : ℤ) : List (ℤ × ℤ) :=
  (intRange 0 (n0.tdiv 2)).flatMap fun i =>
    (intRange 0 i).map (fun j => (i, j)) ++
    (intRange 0 (i + 1)).map (fun j => (j, i)) ++
    (intRange 0 i).map (fun j => (n0 - 1 - i, j)) ++
    (intRange 0 (i + 1)).map (fun j => (n1 - 1 - j, i)) ++
    (intRange 0 i).map (fun j => (i, n1 - 1 - j)) ++
    (intRange 0 (i + 1)).map (fun j => (j, n0 - 1 - i)) ++
    (intRange 0 i).map (fun j => (n0 - 1 - i, n1 - 1 - j)) ++
    (intRange 0 (i + 1)).map (fun j => (n1 - 1 - j, n0 - 1 - i))

/-- `seedtable[d1][d2][address]`. -/
abbrev SeedTables := ℕ → ℕ → ℤ → ℕ

/-- `ii[d]` and `jj[d]` before the start is subtracted, _whitenoise_imp.c:34-35. -/
def conjIndex (n i : ℤ) (d : ℕ) : ℤ := if d = 0 then i else (n - i).tmod n

/-- `SETSEED` without the draw, _whitenoise_imp.c:34-50. -/
def setSeed (g : NoiseGen) (i j : ℤ) (seed : ℕ) (t : SeedTables) : SeedTables :=
  [(0, 0), (0, 1), (1, 0), (1, 1)].foldl (fun t (d : ℕ × ℕ) =>
    let ii := conjIndex (g.nmesh 0) i d.1 - g.start 0
    let jj := conjIndex (g.nmesh 1) j d.2 - g.start 1
    if 0 ≤ ii ∧ ii < g.size 0 ∧ 0 ≤ jj ∧ jj < g.size 1 then
      fun e1 e2 a => if e1 = d.1 ∧ e2 = d.2 ∧ a = ii * g.size 1 + jj then seed else t e1 e2 a
    else t) t

/-- `GETSEED`, _whitenoise_imp.c:53-66.  The aborts cannot happen: `i` and `j` run over the local box. -/
def getSeed (g : NoiseGen) (t : SeedTables) (i j : ℤ) (d1 d2 : ℕ) : ℕ :=
  t d1 d2 ((i - g.start 0) * g.size 1 + (j - g.start 1))

/-- `_has_mode`, _whitenoise_generics.h:1-9: only the last coordinate is looked at. -/
def hasMode (g : NoiseGen) (k : ℤ) : Bool := decide (0 ≤ k - g.start 2) && decide (k - g.start 2 < g.size 2)

/-- Place of mode `i, j, k` in the local array, _whitenoise_generics.h:17-20. -/
def noiseAddr (g : NoiseGen) (i j k : ℤ) : ℤ :=
  g.strides 0 * (i - g.start 0) + g.strides 1 * (j - g.start 1) + g.strides 2 * (k - g.start 2)

/-- `signs`, _whitenoise_generics.h:44-71. -/
def noiseSigns (g : NoiseGen) : List ℤ :=
  if (intRange ((g.nmesh 2).tdiv 2 + 1) (g.nmesh 2)).any (hasMode g) then [-1, 1] else [1]

section
variable {σ D R : Type} [Field D] [LinearOrder D] [FloorRing D] (r : Rng σ D)

/-- `do *ampl = gsl_rng_uniform(rng); while(*ampl == 0);`, _whitenoise_imp.c:25, cut off after `fuel` rounds. -/
def waitNonzero : ℕ → σ → D × σ
  | 0, s => (0, s)
  | fuel + 1, s => let (u, s) := r.next s; if u = 0 then waitNonzero fuel s else (u, s)

/-- `SAMPLE`, _whitenoise_imp.c:20-26: the numbers for amplitude and phase (`phase` is `2 π` times its number).  The loop is cut
off after 23 rounds, which never happens (`C43_sample`). -/
def noiseSample (s : σ) : (D × D) × σ :=
  let (p, s) := r.next s
  let (a, s) := waitNonzero r 23 s
  ((a, p), s)

/-- `unsigned int seed = 0x7fffffff * gsl_rng_uniform(rng)`, _whitenoise_imp.c:32. -/
def toSeed (rnd : D → D) (u : D) : ℕ := ⌊rnd (2147483647 * u)⌋.toNat

/-- The seed tables after line 93 of _whitenoise_generics.h.  `calloc` makes them zero. -/
def seedTables (rnd : D → D) (g : NoiseGen) (seed : ℕ) : SeedTables :=
  ((seedVisits (g.nmesh 0) (g.nmesh 1)).foldl (fun (st : σ × SeedTables) (v : ℤ × ℤ) =>
    let (u, s) := r.next st.1
    (s, setSeed g v.1 v.2 (toSeed rnd u) st.2)) (r.set seed, fun _ _ _ => 0)).2

variable [Ring R] (polar : Bool → D → D → R × R)

/-- The numbers written for a sample, _whitenoise_generics.h:176-216.  `z` is `iabs[2]`. -/
def modeValue (g : NoiseGen) (x : D × D) (sign : ℤ) (useConj : Bool) (i j z : ℤ) : R × R :=
  let (re, im) := polar g.unitary x.1 x.2
  let im := if sign = -1 then -im else im
  let im := if useConj then -im else im
  let (re, im) :=
    if (g.nmesh 0 - i).tmod (g.nmesh 0) = i ∧ (g.nmesh 1 - j).tmod (g.nmesh 1) = j ∧ (g.nmesh 2 - z).tmod (g.nmesh 2) = z then
      (if g.unitary then 1 else re, 0)
    else (re, im)
  if i = 0 ∧ j = 0 ∧ z = 0 then (0, 0) else (re, im)

/-- `ci`, `cj`: the index of the conjugate, _whitenoise_generics.h:113-114 and 122-123. -/
def mirrorIndex (n i : ℤ) : ℤ := if n - i ≥ n then n - i - n else n - i

/-- `d1 = d2 = 1`: the mode is in the upper half plane, _whitenoise_generics.h:126-131. -/
def upperHalf (g : NoiseGen) (i j : ℤ) : Bool :=
  let ci := mirrorIndex (g.nmesh 0) i
  let cj := mirrorIndex (g.nmesh 1) j
  (decide (ci = i) && decide (cj < j)) || (decide (ci < i) && decide (cj ≠ j)) || (decide (ci < i) && decide (cj = j))

/-- `iabs[2]`, _whitenoise_generics.h:165 and 196. -/
def signedZ (g : NoiseGen) (sign k : ℤ) : ℤ := if sign = -1 then g.nmesh 2 - k else k

/-- The body of the loop over `k`, _whitenoise_generics.h:151-220, on `lower_rng`, `this_rng` and the array. -/
def noiseStep (g : NoiseGen) (i j sign : ℤ) (st : σ × σ × (ℤ → R × R)) (k : ℤ) : σ × σ × (ℤ → R × R) :=
  let useConj := upperHalf g i j && (decide (k = 0) || decide (k = (g.nmesh 2).tdiv 2))
  let (xl, lower) := noiseSample r st.1
  let (xt, this) := noiseSample r st.2.1
  let x := if useConj then xl else xt
  let mem := st.2.2
  if !hasMode g k then (lower, this, mem)
  else
    let z := signedZ g sign k
    let v := modeValue polar g x sign useConj i j z
    -- `_set_mode`, _whitenoise_generics.h:11-27
    (lower, this, if hasMode g z then fun a => if a = noiseAddr g i j z then v else mem a else mem)

/-- The loop over the signs, _whitenoise_generics.h:134-221. -/
def noiseColumn (g : NoiseGen) (t : SeedTables) (mem : ℤ → R × R) (i j : ℤ) : ℤ → R × R :=
  (noiseSigns g).foldl (fun mem sign =>
    let d := if upperHalf g i j then 1 else 0
    let lower := r.set (getSeed g t i j d d)
    let this := r.set (if sign = 1 then getSeed g t i j 0 0 else getSeed g t i j 1 1)
    ((intRange 0 ((g.nmesh 2).tdiv 2 + 1)).foldl (noiseStep r polar g i j sign) (lower, this, mem)).2.2) mem

/-- `_generic_fill`, _whitenoise_generics.h:29-232. -/
def genericFill (rnd : D → D) (g : NoiseGen) (seed : ℕ) (mem : ℤ → R × R) : ℤ → R × R :=
  let t := seedTables r rnd g seed
  (intRange (g.start 0) (g.start 0 + g.size 0)).foldl (fun mem i =>
    (intRange (g.start 1) (g.start 1 + g.size 1)).foldl (fun mem j => noiseColumn r polar g t mem i j) mem) mem

end
end Pmesh
