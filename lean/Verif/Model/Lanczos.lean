import Verif.Model.OldCic

/-!
# Model of pmesh/lanczos.py: painting with any window

A window is a function of the distance, with the attributes `support` and `integral`.  `linear` and `cubic` are transcribed; `lanczos` and
`kaiser` are functions over the reals with an integral that is computed numerically, and are covered as arbitrary windows, apart from `kaiser(1, 0)`.  As in
`Model/OldCic.lean`, a scalar weight is one weight per particle, positions are what `transform` returns, arithmetic is exact.
-/

namespace Pmesh

section
variable {K : Type*} [Field K] [LinearOrder K] [IsStrictOrderedRing K] [FloorRing K]

/-- A function with the attributes `support` and `integral`. -/
structure OldWindow (K : Type*) where
  f : K → K
  support : ℕ
  integral : K

/-- `linear`, lanczos.py:11-17. -/
def oldLinear : OldWindow K := ⟨fun dx => if |dx| > 1 then 0 else 1 - |dx|, 1, 1⟩

/-- `cubic`, lanczos.py:19-31. -/
def oldCubic (alpha : K) : OldWindow K :=
  ⟨fun dx =>
    let dx := |dx|
    let v1 := (alpha + 2) * dx ^ 3 - (alpha + 3) * dx ^ 2 + 1
    let v2 := alpha * dx ^ 3 - 5 * alpha * dx ^ 2 + 8 * alpha * dx - 4 * alpha
    if dx > 2 then 0 else if dx ≥ 1 then v2 else v1, 2, 1⟩

/-- `kaiser(1, 0)`, lanczos.py:49-61: `beta` is 0, so that the ratio of Bessel functions is 1; the trapezoidal rule gives the integral 2. -/
def oldKaiserFlat : OldWindow K := ⟨fun dx => if dx > 1 then 0 else if dx < -1 then 0 else 1, 1, 2⟩

/-- `neighbours`, lanczos.py:97-102. -/
def lzNeighbour (support ndim i : ℕ) : List ℤ :=
  (List.range ndim).map fun d => ((i / (2 * support) ^ d % (2 * support) : ℕ) : ℤ) - ((support : ℤ) - 1)

/-- `targetpos = intpos + neighbour`, lanczos.py:113-121. -/
def lzTarget (pos : List K) (nb : List ℤ) : List ℤ := List.zipWith (fun x r => ⌊x⌋ + r) pos nb

/-- `window(gridpos - targetpos).prod(axis=-1)`, lanczos.py:122. -/
def lzKernel (W : OldWindow K) (pos : List K) (t : List ℤ) : K := (List.zipWith (fun (x : K) (t : ℤ) => W.f (x - t)) pos t).prod

/-- The loop over neighbours for one chunk, lanczos.py:119-142; `none` if `ravel_multi_index` raises. -/
def lzPaintChunk (W : OldWindow K) (raise : Bool) (shape : List ℕ) (period : Option (List ℕ)) (flat : ℤ → K) (ps : List (OldPart K)) :
    Option (ℤ → K) :=
  (List.range ((2 * W.support) ^ shape.length)).foldlM (fun flat i =>
    let pts := ps.map fun p =>
      let t := lzTarget p.pos (lzNeighbour W.support shape.length i)
      (pyWrap period t, p.w * (lzKernel W p.pos t / W.integral))
    let pts := if raise then pts else pts.filter fun q => pyInside shape q.1
    (pts.mapM fun q => (pyRavel shape q.1).map fun ind => (ind, q.2)).map (uniqueAdd flat)) flat

/-- `paint`, lanczos.py:63-144; `none` if it raises. -/
def lzPaint (W : OldWindow K) (chunksize : ℕ) (raise : Bool) (mesh : FlatMesh K) (period : Option (List ℕ)) (ps : List (OldPart K)) :
    Option (ℤ → K) :=
  let r := chunkLoop chunksize (fun (flat : Option (ℤ → K)) chunk =>
    let r := flat.bind fun flat => lzPaintChunk W raise mesh.shape period flat chunk
    (r, r.isNone)) ps.length (some mesh.flat) ps
  r.1

end
end Pmesh
