import Verif.Model.Window

/-!
# Painting and readout with the `int` of C

pmesh/_window_imp.c, _window_generics.h and _window_tuned_*.h with every variable of type `int` (32 bits): a conversion or a sum
whose result is not an `int` is undefined in C, here `none`.  Positions and weights are exact numbers.  `Nmesh`, `size` and
`strides` are of type `ptrdiff_t` and unbounded; what is stored to an `int` after a calculation with them must fit as well.
Counters that only run up to `support` or the number of axes and the index into the tables of the kernels are left out.
-/

namespace Pmesh

/-- A number assigned to a variable of type `int`. -/
def cInt (z : ℤ) : Option ℤ := if -2147483648 ≤ z ∧ z ≤ 2147483647 then some z else none

/-- `while(t >= Nmesh) t -= Nmesh;` with an `int t`; as `wrapDown` it stops at once for `n ≤ 0`. -/
def wrapDownC (t n : ℤ) : Option ℤ :=
  if _h : 0 < n ∧ n ≤ t then
    match cInt (t - n) with
    | none => none
    | some _ => wrapDownC (t - n) n
  else some t
termination_by t.toNat
decreasing_by omega

/-- `while(t < 0) t += Nmesh;` with an `int t`. -/
def wrapUpC (t n : ℤ) : Option ℤ :=
  if _h : 0 < n ∧ t < 0 then
    match cInt (t + n) with
    | none => none
    | some _ => wrapUpC (t + n) n
  else some t
termination_by (-t).toNat
decreasing_by omega

section
variable {K : Type} [Field K] [LinearOrder K] [IsStrictOrderedRing K] [FloorRing K]

/-- `pmesh_window_info_init`, pmesh/_window_imp.c:24-47: `support`, its power `Npoints` and the rest. -/
def windowInfoC (ndim native : ℕ) (support : K) : Option (Win K) := do
  let S ← if support ≤ 0 then some (native : ℤ)
    else do
      let s ← cInt ⌊support⌋
      cInt (s + if support ≠ (s : K) then 1 else 0)
  let _ ← (List.range ndim).foldlM (fun nmax _ => cInt (nmax * S)) 1
  let s : K := if support ≤ 0 then native else support
  some ⟨S.toNat, native / s, s / 2 - ((S.toNat / 2 : ℕ) : K), (S - 1) / 2⟩

/-- `_fill_k` for one axis, pmesh/_window_imp.c:55-69. -/
def fillAxisC (k : Kern K) (w : Win K) (ax : PAxis K) (x : K) : Option (ℤ × List K) := do
  let g := ax.grid x
  let ipos ← cInt (⌊g + w.shift⌋ - w.left)
  let dx := g - ipos
  some (ipos, (List.range w.support).map fun (i : ℕ) =>
    let x := (dx - (i : K)) * w.vfactor
    if ax.order = 0 then k.kernel x * w.vfactor
    else k.diff x * ax.scale * w.vfactor * w.vfactor)

/-- The loop over axes inside the body, pmesh/_window_generics.h:40-57 and 111-128; the inner `none` is `goto outside`. -/
def pointLoopC : List (PAxis K) → List (ℤ × List K) → List ℕ → ℤ → K → Option (Option (ℤ × K))
  | ax :: axs, (ipos, kd) :: ks, r :: rs, ind, kernel => do
    let kernel := kernel * kd.getD r 0
    let t ← cInt (ipos + r)
    let t ← if 0 < ax.period then (wrapDownC t ax.period).bind fun t => wrapUpC t ax.period else some t
    if t ≥ ax.size then some none
    else if t < 0 then some none
    else pointLoopC axs ks rs (ind + ax.stride * t) kernel
  | _, _, _, ind, kernel => some (some (ind, kernel))

/-- The accesses of `_generic_paint` and `_generic_readout`, pmesh/_window_generics.h:21-71 and 91-141. -/
def genericAccessC (k : Kern K) (w : Win K) (axes : List (PAxis K)) (pos : List K) : Option (List (ℤ × K)) := do
  let ks ← (axes.zip pos).mapM fun a => fillAxisC k w a.1 a.2
  let rels ← relLoop w.support (w.support ^ axes.length + 1) (List.replicate axes.length 0)
  let points ← rels.mapM fun rel => pointLoopC axes ks rel 0 1
  some (points.filterMap id)

/-- The cells `IJK0, IJK1, ..` of `SETUP_KERNEL_*` for one axis before wrapping, pmesh/_window_tuned_nnb.h:8-10,
_cic.h:7-12, _tsc.h:7-13, _pcs.h:8-15. -/
def tunedIntsC (t : Tuned) (ax : PAxis K) (x : K) : Option (List ℤ) :=
  let X := ax.grid x
  match t with
  | .nnb => do
    let i0 ← cInt ⌊X + 1 / 2⌋
    some [i0]
  | .cic => do
    let i0 ← cInt ⌊X⌋
    let i1 ← cInt (i0 + 1)
    some [i0, i1]
  | .tsc => do
    let i1 ← cInt ⌊X + 1 / 2⌋
    let i0 ← cInt (i1 - 1)
    let i2 ← cInt (i1 + 1)
    some [i0, i1, i2]
  | .pcs => do
    let i1 ← cInt ⌊X⌋
    let i0 ← cInt (i1 - 1)
    let i2 ← cInt (i1 + 1)
    let i3 ← cInt (i2 + 1)
    some [i0, i1, i2, i3]

/-- The wrapping of the tuned functions, pmesh/_window_tuned_cic.h:26-32 and the like. -/
def tunedWrapC (period : ℕ) (t : ℤ) : Option ℤ :=
  if period = 0 then some t else (wrapUpC t period).bind fun t => wrapDownC t period

/-- The cells of the stencil after the periodic wrapping, one list per axis. -/
def tunedCellsC (t : Tuned) (axes : List (PAxis K)) (pos : List K) : Option (List (List ℤ)) :=
  (axes.zip pos).mapM fun a => (tunedIntsC t a.1 a.2).bind fun l => l.mapM (tunedWrapC a.1.period)

/-- The writes of the tuned paint functions.  The values `V` are floating point numbers. -/
def tunedWritesC (t : Tuned) (axes : List (PAxis K)) (pos : List K) (weight : K) : Option (List (ℤ × K)) := do
  let cells ← tunedCellsC t axes pos
  let v := match tunedVals t axes pos with
    | v0 :: vs => v0.map (· * weight) :: vs
    | [] => []
  some ((t.paintTable axes.length).filterMap (tunedAccess axes cells v))

/-- The reads of the tuned readout functions. -/
def tunedReadsC (t : Tuned) (axes : List (PAxis K)) (pos : List K) : Option (List (ℤ × K)) := do
  let cells ← tunedCellsC t axes pos
  some ((t.readTable axes.length).filterMap (tunedAccess axes cells (tunedVals t axes pos)))

/-- `pmesh_painter_paint`, pmesh/_window_generics.h:4-73. -/
def paintWritesC (P : Painter K) (pos : List K) (weight hsml : K) : Option (List (ℤ × K)) := do
  let w ← windowInfoC P.axes.length P.kern.native (P.support * hsml)
  match fastMethod P w with
  | some t => tunedWritesC t P.axes pos weight
  | none => (genericAccessC P.kern w P.axes pos).map fun acc => acc.map fun a => (a.1, weight * a.2)

/-- `pmesh_painter_readout`, pmesh/_window_generics.h:75-142. -/
def readoutReadsC (P : Painter K) (pos : List K) (hsml : K) : Option (List (ℤ × K)) := do
  let w ← windowInfoC P.axes.length P.kern.native (P.support * hsml)
  match fastMethod P w with
  | some t => tunedReadsC t P.axes pos
  | none => genericAccessC P.kern w P.axes pos

/-- `ResampleWindow.paint`, pmesh/_window.pyx:156-165. -/
def paintC (P : Painter K) (mem : ℤ → K) (ps : List (Particle K)) : Option (ℤ → K) :=
  ps.foldlM (fun mem p => (paintWritesC P p.pos p.mass p.hsml).map fun ws => ws.foldl (fun mem a => memAdd mem a.1 a.2) mem) mem

/-- `ResampleWindow.readout`, pmesh/_window.pyx:197-205. -/
def readoutC (P : Painter K) (mem : ℤ → K) (ps : List (Particle K)) : Option (List K) :=
  ps.mapM fun p => (readoutReadsC P p.pos p.hsml).map fun rs => rs.foldl (fun value a => value + a.2 * mem a.1) 0

end
end Pmesh
