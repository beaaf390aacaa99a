import Verif.Model.Regrid

/-!
# Model of line integral convolution, pmesh/lic.py

The normalisation of the vectors (lic.py:45-49) is in Model/LicNormalize.lean; the default texture (white noise, lic.py:51-52) is
not modelled: the vectors and the texture are given. The kernel is any function. The loop `while s < length * 0.5` does
not end for `ds ≤ 0 < length`; the number of steps is that of a positive `ds`, see `C63_steps`.
-/

namespace Pmesh

section
variable {K : Type} [Field K] [LinearOrder K] [IsStrictOrderedRing K] [FloorRing K]

/-- The window 'nearest', pmesh/window.py:231 (not a tuned one). -/
def nearestWindow : Resampler K := ⟨nearestK, none, 1⟩

/-- Python's `max` and numpy's `max()` of a sequence; `none` is the ValueError for an empty one. -/
def maxOf : List K → Option K
  | [] => none
  | a :: l => some (l.foldl max a)

/-- `vmax = max(abs(v[...]).max() for v in vectors)` on rank `r`, pmesh/lic.py:61: only of the local arrays. -/
def licVmax (m : PMesh K) (r : ℕ) (vectors : List (ℤ → K)) : Option K := do
  let ms ← vectors.mapM fun v => maxOf ((ndindex (m.localShape r)).map fun c =>
    |v (List.zipWith (fun (i : ℕ) (s : ℤ) => (i : ℤ) * s) c (m.strides r)).sum|)
  maxOf ms

/-- Number of steps of the loop, pmesh/lic.py:66. -/
def licSteps (length ds : K) : ℕ := ⌈length * (1 / 2) / ds⌉₊

/-- The smoothing given to `decompose`, pmesh/lic.py:69. -/
def licSmoothing (m : PMesh K) (w : Resampler K) (vmax ds : K) : List K :=
  List.replicate m.nmesh.length (vmax * ds * (1 / 2) + (w.support : K) * (1 / 2))

/-- `x + dx * 0.5 * sign`, pmesh/lic.py:72, 74; `cols` are the columns of `dx`, the columns without a vector are 0. -/
def licMove (sign : K) (x cols : List (List K)) : List (List K) :=
  x.mapIdx fun i row => row.mapIdx fun d a => a + (cols.getD d []).getD i 0 * (1 / 2) * sign

/-- One pass of the loop, pmesh/lic.py:67-76; the state is `x` and `f`. More vectors than dimensions give an
IndexError. -/
def licStep (m : PMesh K) (w : Resampler K) (vectors : List (ℤ → K)) (texture : ℤ → K) (kernel : K → K) (length ds vmax sign : K)
    (r i : ℕ) (st : List (List K) × List K) : Prog (Msg (List K)) (Except MeshErr (List (List K) × List K)) :=
  let k := kernel ((i : K) * ds * sign / (length * (1 / 2)))
  (pmDecompose m (licSmoothing m w vmax ds) r st.1).andThen fun layout =>
  (forProg (fun v cols => (pmReadout m w none r (some layout) st.1 .none v).andThen fun vals =>
      if cols.length < m.nmesh.length then .ret (.ok (cols ++ [vals.map (· * ds)])) else .ret (.error .value)) vectors []).andThen
    fun cols =>
  (pmReadout m w none r (some layout) (licMove sign st.1 cols) .none texture).andThen fun t =>
  .ret (.ok (licMove sign (licMove sign st.1 cols) cols, List.zipWith (fun f t => f + t * k * ds) st.2 t))

/-- The particles and the values of `f` before the final `paint`, pmesh/lic.py:54-76. -/
def licIntegral (m : PMesh K) (w : Resampler K) (vectors : List (ℤ → K)) (texture : ℤ → K) (kernel : K → K) (length ds : K) (r : ℕ) :
    Prog (Msg (List K)) (Except MeshErr (List K)) :=
  let q := m.uniformGrid (List.replicate m.nmesh.length 0) r
  (pmReadout m nearestWindow none r none q .none texture).andThen fun f =>
  match licVmax m r vectors with
  | none => .ret (.error .value)
  | some vmax =>
    forProg (fun sign f => (forProg (licStep m w vectors texture kernel length ds vmax sign r)
      (List.range (licSteps length ds)) (q, f)).andThen fun st => .ret (.ok st.2)) [-1, 1] f

/-- `lic(vectors, kernel, length, ds, resampler, texture, normalize=False)` on rank `r`, pmesh/lic.py:4-78. The second
argument of `pm.paint(Q, f, resampler='nearest')` is `hsml`, pmesh/pm.py:1794; the mass is 1. -/
def lic (m : PMesh K) (w : Resampler K) (vectors : List (ℤ → K)) (texture : ℤ → K) (kernel : K → K) (length ds : K) (r : ℕ) :
    Prog (Msg (List K)) (Except MeshErr (ℤ → K)) :=
  (licIntegral m w vectors texture kernel length ds r).andThen fun f =>
    pmPaint m nearestWindow none false r none (m.uniformGrid (List.replicate m.nmesh.length 0) r) .none (.array f) fun _ => 0

end
end Pmesh
