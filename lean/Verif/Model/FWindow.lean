import Verif.Model.Window
import Mathlib.Analysis.SpecialFunctions.Trigonometric.Basic

/-!
# Model of `get_fwindow`, `get_compensation` and `Affine`, pmesh/window.py:18-104, pmesh/_window_imp.c:11-21, 121-126, 152-158, 195-201, 238-244, 473-485

Over the reals: `sin` is the exact function.
-/

namespace Pmesh

/-- `sinc_unnormed`, pmesh/_window_imp.c:11-21. -/
noncomputable def sincUnnormed (x : ℝ) : ℝ :=
  if x < 1 / 100000 ∧ x > -(1 / 100000) then
    let x2 := x * x
    1 - x2 / 6 + x2 * x2 / 120
  else Real.sin x / x

/-- `_nearest_fwindow`, pmesh/_window_imp.c:121-126. -/
noncomputable def nearestFwindow (w : ℝ) : ℝ := sincUnnormed (1 / 2 * w)

/-- `_linear_fwindow`, pmesh/_window_imp.c:152-158. -/
noncomputable def linearFwindow (w : ℝ) : ℝ :=
  let t := sincUnnormed (1 / 2 * w)
  t * t

/-- `_quadratic_fwindow`, pmesh/_window_imp.c:195-201. -/
noncomputable def quadraticFwindow (w : ℝ) : ℝ :=
  let t := sincUnnormed (1 / 2 * w)
  t * t * t

/-- `_cubic_fwindow`, pmesh/_window_imp.c:238-244. -/
noncomputable def cubicFwindow (w : ℝ) : ℝ :=
  let t := sincUnnormed (1 / 2 * w)
  t * t * t * t

/-- The kinds of window that have a kernel in closed form, tuned or not, pmesh/_window_imp.c:260-283 and 380-453: `kern` and `fwindow`
of `PMESH_PAINTER_NEAREST` and `PMESH_PAINTER_TUNED_NNB` are the same, and so on. -/
noncomputable def Tuned.fwindow : Tuned → ℝ → ℝ
  | .nnb => nearestFwindow
  | .cic => linearFwindow
  | .tsc => quadraticFwindow
  | .pcs => cubicFwindow

/-- `ResampleWindow(kind, support).get_fwindow(w)` for one frequency, pmesh/window.py:82-104, pmesh/_window.pyx:118-126,
pmesh/_window_imp.c:473-485.  `fwindow` is `none` for the tabulated windows (`painter->fwindow = NULL`). -/
noncomputable def getFwindow (native : ℕ) (fwindow : Option (ℝ → ℝ)) (support : ℤ) (w : ℝ) : ℝ :=
  match fwindow with
  | some f => f (w / (windowInfo native (support : ℝ)).vfactor)
  | none => 1

/-- `get_compensation`, pmesh/window.py:65-80: the function that `ComplexField.apply` calls, on one mode `v` with circular
frequencies `w`.  The loop is `tf = tf * self.get_fwindow(wi)`. -/
noncomputable def compensation (native : ℕ) (fwindow : Option (ℝ → ℝ)) (support : ℤ) (w : List ℝ) (v : ℂ) : ℂ :=
  v / ((w.foldl (fun tf wi => tf * getFwindow native fwindow support wi) 1 : ℝ) : ℂ)

/-- `Affine`, pmesh/window.py:18-43; scalars are repeated to one number per axis (`_mkarr`). -/
structure Affine (K : Type*) where
  scale : List K
  translate : List K
  period : List ℕ

section
variable {K : Type*} [Field K]

/-- `Affine.rescale(amount)`, pmesh/window.py:45-49, with `amount` repeated to one number per axis. -/
def Affine.rescale (a : Affine K) (amount : List K) : Affine K :=
  ⟨List.zipWith (· * ·) a.scale amount, a.translate, a.period⟩

/-- `Affine.shift(amount)`, pmesh/window.py:51-55. -/
def Affine.shift (a : Affine K) (amount : List K) : Affine K :=
  ⟨a.scale, List.zipWith (· + ·) a.translate amount, a.period⟩

/-- The axes of the painter for an array of the given shape and strides, pmesh/_window.pyx:145-153; `order` is one along `diffdir`,
pmesh/window.py:136-138. -/
def Affine.axes (a : Affine K) (diffdir : Option ℕ) (shape : List ℕ) (strides : List ℤ) : List (PAxis K) :=
  (List.range shape.length).map fun d =>
    ⟨if diffdir = some d then 1 else 0, a.scale.getD d 0, a.translate.getD d 0, a.period.getD d 0, shape.getD d 0, strides.getD d 0⟩

end
end Pmesh
