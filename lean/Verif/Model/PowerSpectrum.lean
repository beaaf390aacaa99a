import Mathlib.Analysis.SpecialFunctions.Pow.Real
import Mathlib.Analysis.SpecialFunctions.Log.Base
import Mathlib.Analysis.SpecialFunctions.Trigonometric.Basic
import Mathlib.MeasureTheory.Integral.Bochner.Set
import Mathlib.MeasureTheory.Measure.Lebesgue.Basic

/-!
# The power spectrum, nbody/powerspectrum.py

Over the real numbers.  Simplification: `scipy.integrate.quad(f, 0, inf)` is the exact integral.
-/

namespace Pmesh

/-- `numpy.interp(x, xp, fp)` for increasing `xp`: constant outside of the table, the segment `xp[j] <= x < xp[j+1]` inside.  (For an empty table numpy raises
`ValueError`.) -/
noncomputable def npInterp : List (ℝ × ℝ) → ℝ → ℝ
  | [], _ => 0
  | [(_, f)], _ => f
  | (x0, f0) :: (x1, f1) :: l, x =>
    if x < x0 then f0 else if x < x1 then (f1 - f0) / (x1 - x0) * (x - x0) + f0 else npInterp ((x1, f1) :: l) x

/-- The attributes of `PowerSpectrum`, nbody/powerspectrum.py:6-15: the table of `(logK, logP)`, `Norm` and `sigma8`. -/
structure PowerSpec where
  table : List (ℝ × ℝ)
  norm : ℝ
  sigma8 : ℝ

/-- `PofK`, nbody/powerspectrum.py:16-23. -/
noncomputable def PowerSpec.PofK (s : PowerSpec) (k : ℝ) : ℝ :=
  s.norm * (10 : ℝ) ^ npInterp s.table (Real.logb 10 k)

/-- `WofK`, nbody/powerspectrum.py:25-33. -/
noncomputable def WofK (x : ℝ) : ℝ :=
  if x < 1e-2 then 1 / 3 - x ^ 2 / 30 + x ^ 4 / 840 else 3 * (Real.sin x - x * Real.cos x) / x ^ 3

/-- `sigma_squared_integrand`, nbody/powerspectrum.py:35-43. -/
noncomputable def PowerSpec.integrand (s : PowerSpec) (k R : ℝ) : ℝ :=
  k ^ 2 * s.PofK k * 4 * Real.pi * WofK (R * k) ^ 2

/-- `sigma_squared_of_R`, nbody/powerspectrum.py:44-57. -/
noncomputable def PowerSpec.sigmaSq (s : PowerSpec) (R : ℝ) : ℝ := ∫ k in Set.Ioi 0, s.integrand k R

/-- `PowerSpectrum(k, p, sigma8)`, nbody/powerspectrum.py:6-15, of a table of `(k, p)`. -/
noncomputable def powerSpectrum (kp : List (ℝ × ℝ)) (sigma8 : Option ℝ) : PowerSpec :=
  let t := kp.map fun q => (Real.logb 10 q.1, Real.logb 10 q.2)
  let one : PowerSpec := ⟨t, 1, 0⟩
  match sigma8 with
  | some s => ⟨t, s ^ 2 / one.sigmaSq 8, s⟩
  | none => ⟨t, 1, one.sigmaSq 8 ^ (0.5 : ℝ)⟩

end Pmesh
