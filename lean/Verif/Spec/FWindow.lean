import Verif.Model.FWindow
import Verif.Spec.Window
import Mathlib.MeasureTheory.Integral.Bochner.Basic
import Mathlib.MeasureTheory.Measure.Lebesgue.Basic
import Mathlib.MeasureTheory.Integral.IntervalIntegral.Basic

/-! # The Fourier transform of a window -/

namespace Pmesh

open Complex MeasureTheory

/-- The Fourier transform at circular frequency `w` of the window of size `s`, as a function of the distance to the cell. -/
noncomputable def windowFourier (k : Kern ℝ) (s : ℝ) (w : ℝ) : ℂ :=
  ∫ x : ℝ, ((windowAt k s 0 1 x : ℝ) : ℂ) * exp (-(I * w * x))

/-- Size of the window of `ResampleWindow(kind, support)`: the native size unless a positive one is asked for. -/
def sizeOf (native : ℕ) (support : ℤ) : ℝ := if support ≤ 0 then native else support

/-- Average over all shifts of the grid by less than a cell: `n` iterated integrals over the unit interval, one per axis. -/
noncomputable def shiftAverage : ℕ → (List ℝ → ℂ) → ℂ
  | 0, f => f []
  | n + 1, f => ∫ u in (0 : ℝ)..1, shiftAverage n fun us => f (u :: us)

/-- `Σ_d w_d g_d` -/
def dotList (w g : List ℝ) : ℝ := (List.zipWith (· * ·) w g).sum

/-- The circular frequencies `2π κ_d / N_d`. -/
noncomputable def circularFreq (κ : List ℤ) (shape : List ℕ) : List ℝ :=
  List.zipWith (fun (q : ℤ) (n : ℕ) => 2 * Real.pi * q / n) κ shape

/-- Grid coordinates of a position under an affine transform: `pos * scale + translate`. -/
def Affine.apply (a : Affine ℝ) (pos : List ℝ) : List ℝ :=
  List.zipWith (· + ·) (List.zipWith (· * ·) pos a.scale) a.translate

end Pmesh
