import Verif.Model.Numpy
import Verif.Model.TunedTables

/-!
# Model of painting and readout with a window

pmesh/_window_imp.c, _window_generics.h, _window_tuned_*.h, _window.pyx, window.py.

Numbers are elements of an ordered field with floor (exact arithmetic), C `int`/`ptrdiff_t` are unbounded.
Memory is a total map from element addresses (byte address / element size) to numbers; what matters is *which*
addresses are touched.  `#pragma omp atomic` plays no role for the sequential loop over particles of _window.pyx.
-/

namespace Pmesh

section
variable {K : Type*} [Field K] [LinearOrder K] [IsStrictOrderedRing K] [FloorRing K]

/-! ### kernels -/

/-- `nativesupport`, `kernel`, `diff` of a painter, set in `pmesh_painter_init`, pmesh/_window_imp.c:246-459. -/
structure Kern (K : Type*) where
  native : ℕ
  kernel : K → K
  diff : K → K

/-- pmesh/_window_imp.c:108-114 -/
def nearestKernel (x : K) : K := if x < 1 / 2 ∧ x ≥ -(1 / 2) then 1 else 0

/-- pmesh/_window_imp.c:116-119 -/
def nearestDiff (_x : K) : K := 0

/-- pmesh/_window_imp.c:128-135 -/
def linearKernel (x : K) : K := if |x| < 1 then 1 - |x| else 0

/-- pmesh/_window_imp.c:137-150 -/
def linearDiff (x : K) : K :=
  let fx : K × K := if x < 0 then (1, -x) else if x > 0 then (-1, x) else (0, x)
  if fx.2 < 1 then fx.1 else 0

/-- pmesh/_window_imp.c:160-174 -/
def quadraticKernel (x : K) : K :=
  let x := |x|
  if x ≤ 1 / 2 then 3 / 4 - x * x
  else if x < 3 / 2 then (3 / 2 - x) * (3 / 2 - x) * (1 / 2) else 0

/-- pmesh/_window_imp.c:176-193 -/
def quadraticDiff (x : K) : K :=
  let fx : K × K := if x < 0 then (-1, -x) else (1, x)
  if fx.2 ≤ 1 / 2 then fx.1 * (-2 * fx.2)
  else if fx.2 < 3 / 2 then fx.1 * (-(3 / 2 - fx.2)) else 0

/-- pmesh/_window_imp.c:203-215 -/
def cubicKernel (x : K) : K :=
  let x := |x|
  let xx := x * x
  if x < 1 then 1 / 6 * (4 - 6 * xx + 3 * xx * x)
  else if x < 2 then 1 / 6 * (2 - x) * (2 - x) * (2 - x) else 0

/-- pmesh/_window_imp.c:217-236 -/
def cubicDiff (x : K) : K :=
  let fx : K × K := if x < 0 then (-1, -x) else (1, x)
  let xx := fx.2 * fx.2
  if fx.2 < 1 then fx.1 * (1 / 6) * (-12 * fx.2 + 9 * xx)
  else if fx.2 < 2 then fx.1 * (-1 / 2) * (2 - fx.2) * (2 - fx.2) else 0

/-- C conversion `(int) f`: truncation towards zero. -/
def truncInt (f : K) : ℤ := if 0 ≤ f then ⌊f⌋ else -⌊-f⌋

/-- The tabulated symmetric kernels (lanczos, acg): linear interpolation in a table of `n` entries with spacing `h`,
for example pmesh/_window_lanczos.h:2058-2068, pmesh/_window_acg.h:2058-2068.  The table itself is a parameter. -/
def symTableKernel (tab : ℕ → K) (n : ℕ) (h : K) (x : K) : K :=
  let f := |x| / h
  let i := truncInt f
  if i < 0 then 0 else if i ≥ (n : ℤ) - 1 then 0
  else tab i.toNat * (1 - (f - i)) + tab (i.toNat + 1) * (f - i)

/-- pmesh/_window_lanczos.h:2069-2084 and the like. -/
def symTableDiff (tab : ℕ → K) (n : ℕ) (h : K) (x : K) : K :=
  let fx : K × K := if x ≥ 0 then (1, x) else (-1, -x)
  let i := truncInt (fx.2 / h)
  if i < 0 then 0 else if i ≥ (n : ℤ) - 1 then 0
  else fx.1 * (tab (i.toNat + 1) - tab i.toNat) / h

/-- The wavelet tables (sym, db), for example pmesh/_window_wavelets.h:458-468. -/
def waveTableKernel (tab : ℕ → K) (n : ℕ) (h off : K) (x : K) : K :=
  let f := (x + off) / h
  if f < 0 then 0
  else
    let i := truncInt f
    if i ≥ (n : ℤ) - 1 then 0
    else tab i.toNat * (1 - (f - i)) + tab (i.toNat + 1) * (f - i)

/-- pmesh/_window_wavelets.h:469-479 and the like. -/
def waveTableDiff (tab : ℕ → K) (n : ℕ) (h off : K) (x : K) : K :=
  let i := truncInt ((x + off) / h)
  if i < 0 then 0 else if i ≥ (n : ℤ) - 1 then 0
  else (tab (i.toNat + 1) - tab i.toNat) / h

/-- pmesh/_window_imp.c:260-283: the analytic windows with their native supports. -/
def nearestK : Kern K := ⟨1, nearestKernel, nearestDiff⟩
/-- pmesh/_window_imp.c:266-271 -/
def linearK : Kern K := ⟨2, linearKernel, linearDiff⟩
/-- pmesh/_window_imp.c:272-277 -/
def quadraticK : Kern K := ⟨3, quadraticKernel, quadraticDiff⟩
/-- pmesh/_window_imp.c:278-283 -/
def cubicK : Kern K := ⟨4, cubicKernel, cubicDiff⟩

/-! ### window size -/

/-- `PMeshWindowInfo`, pmesh/_window_imp.h:30-36. -/
structure Win (K : Type*) where
  support : ℕ
  vfactor : K
  shift : K
  left : ℤ

/-- `pmesh_window_info_init`, pmesh/_window_imp.c:24-47. -/
def windowInfo (native : ℕ) (support : K) : Win K :=
  let s : K := if support ≤ 0 then native else support
  let S : ℕ :=
    if support ≤ 0 then native
    else ⌊support⌋.toNat + (if support ≠ (⌊support⌋.toNat : K) then 1 else 0)
  ⟨S, native / s, s / 2 - ((S / 2 : ℕ) : K), ((S : ℤ) - 1) / 2⟩

/-- One axis of a painter: derivative order, position-to-grid transform, period (0 = none), local array size and
stride, pmesh/_window_imp.h:48-60, filled in pmesh/_window.pyx:145-153. -/
structure PAxis (K : Type*) where
  order : ℕ
  scale : K
  translate : K
  period : ℕ
  size : ℕ
  stride : ℤ

/-- `gpos[d] = pos[d] * scale[d] + translate[d]`, pmesh/_window_imp.c:58. -/
def PAxis.grid (ax : PAxis K) (x : K) : K := x * ax.scale + ax.translate

/-- `_fill_k` for one axis, pmesh/_window_imp.c:55-69: first cell and kernel values. -/
def fillAxis (k : Kern K) (w : Win K) (ax : PAxis K) (x : K) : ℤ × List K :=
  let g := ax.grid x
  let ipos := ⌊g + w.shift⌋ - w.left
  let dx := g - ipos
  (ipos, (List.range w.support).map fun (i : ℕ) =>
    let x := (dx - (i : K)) * w.vfactor
    if ax.order = 0 then k.kernel x * w.vfactor
    else k.diff x * ax.scale * w.vfactor * w.vfactor)

/-! ### generic painter -/

/-- The carry pass `for(d = ndim - 1; d > 0; d--) if(rel[d] == s2) { rel[d - 1]++; rel[d] = 0; }`,
pmesh/_window_generics.h:64-69, on the reversed list. -/
def relCarry (s2 : ℕ) : List ℕ → List ℕ
  | a :: b :: rest => if a = s2 then 0 :: relCarry s2 ((b + 1) :: rest) else a :: relCarry s2 (b :: rest)
  | l => l
termination_by l => l.length

/-- `rel[ndim - 1]++` and the carries, pmesh/_window_generics.h:63-69. -/
def relNext (s2 : ℕ) (rel : List ℕ) : List ℕ :=
  match rel.reverse with
  | [] => []
  | a :: rest => (relCarry s2 ((a + 1) :: rest)).reverse

/-- `while(rel[0] != s2) { body; next }`, pmesh/_window_generics.h:36-70 and 107-139: the list of the `rel` with which
the body runs; `none` if the loop has not ended after `fuel` rounds. -/
def relLoop (s2 : ℕ) : ℕ → List ℕ → Option (List (List ℕ))
  | 0, _ => none
  | fuel + 1, rel =>
    if rel.head? = some s2 then some [] else (relLoop s2 fuel (relNext s2 rel)).map (rel :: ·)

/-- The loop over axes inside the body, pmesh/_window_generics.h:40-57: address and product of kernels of one point of
the stencil, `none` for `goto outside`. -/
def pointLoop : List (PAxis K) → List (ℤ × List K) → List ℕ → ℤ → K → Option (ℤ × K)
  | ax :: axs, (ipos, kd) :: ks, r :: rs, ind, kernel =>
    let kernel := kernel * kd.getD r 0
    let t := ipos + r
    let t := if 0 < ax.period then wrapLoop t ax.period else t
    if t ≥ ax.size then none
    else if t < 0 then none
    else pointLoop axs ks rs (ind + ax.stride * t) kernel
  | _, _, _, ind, kernel => some (ind, kernel)

/-- `*(canvas + ind) += v`. -/
def memAdd (mem : ℤ → K) (a : ℤ) (v : K) : ℤ → K := Function.update mem a (mem a + v)

/-- The accesses of `_generic_paint` and `_generic_readout` without the fast path: the pairs `(ind, kernel)` for which
line 62 (129 for readout) runs, in order; pmesh/_window_generics.h:21-71 and 91-141.  `none` if the loop does not end. -/
def genericAccess (k : Kern K) (w : Win K) (axes : List (PAxis K)) (pos : List K) : Option (List (ℤ × K)) :=
  let ks := List.zipWith (fillAxis k w) axes pos
  (relLoop w.support (w.support ^ axes.length + 1) (List.replicate axes.length 0)).map
    fun rels => rels.filterMap fun rel => pointLoop axes ks rel 0 1

/-! ### tuned painters -/

/-- The tuned window types. -/
inductive Tuned where
  | nnb | cic | tsc | pcs
  deriving DecidableEq, Repr

/-- Fall-back kernels of the tuned types, pmesh/_window_imp.c:380-453. -/
def Tuned.kern : Tuned → Kern K
  | .nnb => nearestK
  | .cic => linearK
  | .tsc => quadraticK
  | .pcs => cubicK

/-- `if(Nmesh == 0) continue; while(I < 0) I += Nmesh; while(I >= Nmesh) I -= Nmesh;`,
pmesh/_window_tuned_cic.h:26-32 and the like. -/
def tunedWrap (period : ℕ) (t : ℤ) : ℤ := if period = 0 then t else wrapDown (wrapUp t period) period

/-- `SETUP_KERNEL_*` for one axis: the cells `IJK0, IJK1, ..` before wrapping and the values `V0, V1, ..`;
pmesh/_window_tuned_nnb.h:1-18, _cic.h:1-23, _tsc.h:1-25, _pcs.h:1-38. -/
def tunedSetup (t : Tuned) (ax : PAxis K) (x : K) : List ℤ × List K :=
  let X := ax.grid x
  match t with
  | .nnb =>
    let i0 := ⌊X + 1 / 2⌋
    ([i0], if ax.order = 0 then [1] else [0])
  | .cic =>
    let i0 := ⌊X⌋
    let i1 := i0 + 1
    ([i0, i1],
      if ax.order = 0 then
        let v1 := X - i0
        [1 - v1, v1]
      else [-ax.scale, ax.scale])
  | .tsc =>
    let i1 := ⌊X + 1 / 2⌋
    let i0 := i1 - 1
    let i2 := i1 + 1
    ([i0, i1, i2],
      if ax.order = 0 then
        [(3 / 2 - (X - i0)) * (3 / 2 - (X - i0)) * (1 / 2),
         3 / 4 - (X - i1) * (X - i1),
         (3 / 2 + (X - i2)) * (3 / 2 + (X - i2)) * (1 / 2)]
      else
        [-(3 / 2 - (X - i0)) * ax.scale,
         -2 * (X - i1) * ax.scale,
         (3 / 2 + (X - i2)) * ax.scale])
  | .pcs =>
    let i1 := ⌊X⌋
    let i0 := i1 - 1
    let i2 := i1 + 1
    let i3 := i2 + 1
    ([i0, i1, i2, i3],
      if ax.order = 0 then
        [1 / 6 * (2 - (X - i0)) * (2 - (X - i0)) * (2 - (X - i0)),
         1 / 6 * (4 - 6 * (X - i1) * (X - i1) + 3 * (X - i1) * (X - i1) * (X - i1)),
         1 / 6 * (4 - 6 * (X - i2) * (X - i2) - 3 * (X - i2) * (X - i2) * (X - i2)),
         1 / 6 * (2 + (X - i3)) * (2 + (X - i3)) * (2 + (X - i3))]
      else
        [-1 / 2 * (2 - (X - i0)) * (2 - (X - i0)),
         1 / 6 * (-12 * (X - i1) + 9 * (X - i1) * (X - i1)),
         -1 / 6 * (12 * (X - i2) + 9 * (X - i2) * (X - i2)),
         1 / 2 * (2 + (X - i3)) * (2 + (X - i3))])

/-- The unrolled list of stencil points of the paint functions, by dimension. -/
def Tuned.paintTable : Tuned → ℕ → List (List ℕ)
  | .nnb, 1 => Tuned.nnbPaint1 | .nnb, 2 => Tuned.nnbPaint2 | .nnb, _ => Tuned.nnbPaint3
  | .cic, 1 => Tuned.cicPaint1 | .cic, 2 => Tuned.cicPaint2 | .cic, _ => Tuned.cicPaint3
  | .tsc, 1 => Tuned.tscPaint1 | .tsc, 2 => Tuned.tscPaint2 | .tsc, _ => Tuned.tscPaint3
  | .pcs, 1 => Tuned.pcsPaint1 | .pcs, 2 => Tuned.pcsPaint2 | .pcs, _ => Tuned.pcsPaint3

/-- The unrolled list of stencil points of the readout functions. -/
def Tuned.readTable : Tuned → ℕ → List (List ℕ)
  | .nnb, 1 => Tuned.nnbReadout1 | .nnb, 2 => Tuned.nnbReadout2 | .nnb, _ => Tuned.nnbReadout3
  | .cic, 1 => Tuned.cicReadout1 | .cic, 2 => Tuned.cicReadout2 | .cic, _ => Tuned.cicReadout3
  | .tsc, 1 => Tuned.tscReadout1 | .tsc, 2 => Tuned.tscReadout2 | .tsc, _ => Tuned.tscReadout3
  | .pcs, 1 => Tuned.pcsReadout1 | .pcs, 2 => Tuned.pcsReadout2 | .pcs, _ => Tuned.pcsReadout3

/-- `_WRtPlus1/2/3` and `_REd1/2/3`, pmesh/_window_generics.h:144-211: bounds check axis by axis, address. -/
def tunedAddr : List (PAxis K) → List ℤ → Option ℤ
  | ax :: axs, t :: ts =>
    if 0 > t ∨ (ax.size : ℤ) ≤ t then none else (tunedAddr axs ts).map fun a => t * ax.stride + a
  | _, _ => some 0

/-- The cells of the stencil after the periodic wrapping, one list per axis. -/
def tunedCells (t : Tuned) (axes : List (PAxis K)) (pos : List K) : List (List ℤ) :=
  List.zipWith (fun (ax : PAxis K) x => (tunedSetup t ax x).1.map (tunedWrap ax.period)) axes pos

/-- The values `V` of the stencil, one list per axis. -/
def tunedVals (t : Tuned) (axes : List (PAxis K)) (pos : List K) : List (List K) :=
  List.zipWith (fun ax x => (tunedSetup t ax x).2) axes pos

/-- One line `ACCESS3(_WRtPlus3, a, b, c)`: the address and the value `V_a[0] * V_b[1] * V_c[2]`, nothing if outside,
pmesh/_window_generics.h:213-220. -/
def tunedAccess (axes : List (PAxis K)) (ijk : List (List ℤ)) (v : List (List K)) (abc : List ℕ) : Option (ℤ × K) :=
  (tunedAddr axes (List.zipWith (fun (l : List ℤ) a => l.getD a 0) ijk abc)).map fun ind =>
    (ind, (List.zipWith (fun (l : List K) a => l.getD a 0) v abc).prod)

/-- The writes `(ind, f)` of the tuned paint functions, for example pmesh/_window_tuned_cic.h:34-52: `V[0] *= weight`
for all entries of axis 0, then one guarded `+=` per line of the table. -/
def tunedWrites (t : Tuned) (axes : List (PAxis K)) (pos : List K) (weight : K) : List (ℤ × K) :=
  let v := match tunedVals t axes pos with
    | v0 :: vs => v0.map (· * weight) :: vs
    | [] => []
  (t.paintTable axes.length).filterMap (tunedAccess axes (tunedCells t axes pos) v)

/-- The reads `(ind, w)` of the tuned readout functions, for example pmesh/_window_tuned_cic.h:54-72. -/
def tunedReads (t : Tuned) (axes : List (PAxis K)) (pos : List K) : List (ℤ × K) :=
  (t.readTable axes.length).filterMap (tunedAccess axes (tunedCells t axes pos) (tunedVals t axes pos))

/-! ### the painter -/

/-- A painter after `pmesh_painter_init`: kernel, tuned type if any, support (an int), axes. -/
structure Painter (K : Type*) where
  kern : Kern K
  tuned : Option Tuned
  support : ℕ
  axes : List (PAxis K)

/-- `pmesh_painter_init` for a tuned or untuned type and the `support` argument of `ResampleWindow`,
pmesh/_window_imp.c:246-459, pmesh/_window.pyx:71-113. -/
def painterInit (kern : Kern K) (tuned : Option Tuned) (support : ℤ) (axes : List (PAxis K)) : Painter K :=
  ⟨kern, tuned, (windowInfo kern.native (support : K)).support, axes⟩

/-- Whether the fast method is used: pmesh/_window_imp.c:385-388 (order and dimension) and `_getfastmethod_*`, for
example pmesh/_window_tuned_cic.h:135-155 (window size equal to the native one and ndim 1, 2 or 3). -/
def fastMethod (P : Painter K) (w : Win K) : Option Tuned :=
  match P.tuned with
  | none => none
  | some t =>
    if (P.axes.take 3).any (fun ax => ax.order > 1) then none
    else if P.axes.length > 3 then none
    else if w.support ≠ (Tuned.kern t : Kern K).native then none
    else if P.axes.length = 1 ∨ P.axes.length = 2 ∨ P.axes.length = 3 then some t
    else none

/-- The writes `(ind, f)` of `pmesh_painter_paint`, pmesh/_window_generics.h:4-73. -/
def paintWrites (P : Painter K) (pos : List K) (weight hsml : K) : Option (List (ℤ × K)) :=
  let w := windowInfo P.kern.native (P.support * hsml)
  match fastMethod P w with
  | some t => some (tunedWrites t P.axes pos weight)
  | none => (genericAccess P.kern w P.axes pos).map fun acc => acc.map fun a => (a.1, weight * a.2)

/-- The reads `(ind, kernel)` of `pmesh_painter_readout`, pmesh/_window_generics.h:75-142. -/
def readoutReads (P : Painter K) (pos : List K) (hsml : K) : Option (List (ℤ × K)) :=
  let w := windowInfo P.kern.native (P.support * hsml)
  match fastMethod P w with
  | some t => some (tunedReads t P.axes pos)
  | none => genericAccess P.kern w P.axes pos

/-- `pmesh_painter_paint` on the memory: `*(canvas + ind) += f` for each write. -/
def paintOne (P : Painter K) (mem : ℤ → K) (pos : List K) (weight hsml : K) : Option (ℤ → K) :=
  (paintWrites P pos weight hsml).map fun ws => ws.foldl (fun mem a => memAdd mem a.1 a.2) mem

/-- `pmesh_painter_readout`: `value += kernel * *(canvas + ind)` for each read. -/
def readoutOne (P : Painter K) (mem : ℤ → K) (pos : List K) (hsml : K) : Option K :=
  (readoutReads P pos hsml).map fun rs => rs.foldl (fun value a => value + a.2 * mem a.1) 0

/-- A particle: position, mass, hsml (1 if not given). -/
structure Particle (K : Type*) where
  pos : List K
  mass : K
  hsml : K

/-- `ResampleWindow.paint`, the loop over particles, pmesh/_window.pyx:156-165. -/
def paint (P : Painter K) (mem : ℤ → K) (ps : List (Particle K)) : Option (ℤ → K) :=
  ps.foldlM (fun mem p => paintOne P mem p.pos p.mass p.hsml) mem

/-- `ResampleWindow.readout`, pmesh/_window.pyx:197-205. -/
def readout (P : Painter K) (mem : ℤ → K) (ps : List (Particle K)) : Option (List K) :=
  ps.mapM fun p => readoutOne P mem p.pos p.hsml

end
end Pmesh
