import Mathlib.Analysis.SpecialFunctions.Pow.Real
import Mathlib.Analysis.SpecialFunctions.Log.Basic
import Mathlib.MeasureTheory.Integral.IntervalIntegral.Basic
import Verif.Model.Qpm

/-!
# The background cosmology, nbody/cosmology.py

Over the real numbers.  Simplifications: `romberg` is the exact integral; the splines (`interp1d`) through the tabulated values are replaced by
the function that is tabulated; `logamin = -20` as in the code.
Not modelled: `Pk` (needs `pycamb`), `Vrec`, `FOmega2`, `redshift_dist`; the class `Lazy` (`func_name` exists in Python 2 only).
-/

namespace Pmesh

/-- `Cosmology.__init__`, nbody/cosmology.py:54-58; only the parameters that the functions below use. -/
structure Cosmology where
  M : ℝ
  L : ℝ

/-- `Ea`, nbody/cosmology.py:154-163. -/
noncomputable def Cosmology.Ea (c : Cosmology) (a : ℝ) : ℝ :=
  a ^ (-1.5 : ℝ) * (c.M + (1 - c.M - c.L) * a + c.L * a ^ 3) ^ (0.5 : ℝ)

/-- `logamin`, nbody/cosmology.py:48. -/
def logamin : ℝ := -20

/-- The values that `Dplus` tabulates, nbody/cosmology.py:135-141. -/
noncomputable def Cosmology.Dplus (c : Cosmology) (a : ℝ) : ℝ :=
  c.Ea a * ∫ loga in logamin..Real.log a, (Real.exp loga * c.Ea (Real.exp loga)) ^ (-3 : ℤ) * Real.exp loga

/-- `D`, nbody/cosmology.py:126-128. -/
noncomputable def Cosmology.D (c : Cosmology) (a : ℝ) : ℝ := c.Dplus a / c.Dplus 1

/-- The values that `Dc` tabulates, nbody/cosmology.py:63-67. -/
noncomputable def Cosmology.Dc (c : Cosmology) (a : ℝ) : ℝ :=
  ∫ loga in Real.log a..0, 1 / c.Ea (Real.exp loga) * (Real.exp loga)⁻¹

/-- `FOmega`, nbody/cosmology.py:168-170. -/
noncomputable def Cosmology.FOmega (c : Cosmology) (a : ℝ) : ℝ :=
  (c.M / (c.M + (1 - c.M - c.L) * a + c.L * a ^ 3)) ^ (4 / 7 : ℝ)

/-- `disp_to_vel`, nbody/cosmology.py:213-224. -/
noncomputable def Cosmology.dispToVel (c : Cosmology) (disp a : ℝ) : ℝ :=
  a * (c.Dplus a / c.Dplus 1) * c.FOmega a * c.Ea a * disp

/-- The integrand of `dt_kick`, nbody/qpm.py:46-48. -/
noncomputable def kickIntegrand (c : Cosmology) (H0 l : ℝ) : ℝ :=
  let a1 := Real.exp l
  let E1 := c.Ea a1 * H0
  1 / (a1 * E1)

/-- The integrand of `dt_drift`, nbody/qpm.py:66-68. -/
noncomputable def driftIntegrand (c : Cosmology) (H0 l : ℝ) : ℝ :=
  let a1 := Real.exp l
  let E1 := c.Ea a1 * H0
  1 / (a1 * a1 * E1)

/-- `dt_kick`, nbody/qpm.py:43-48. -/
noncomputable def dtKick (c : Cosmology) (H0 l0 l1 : ℝ) : ℝ := qFactor (kickIntegrand c H0) l0 l1

/-- `dt_drift`, nbody/qpm.py:61-68. -/
noncomputable def dtDrift (c : Cosmology) (H0 l0 l1 : ℝ) : ℝ := qFactor (driftIntegrand c H0) l0 l1

end Pmesh
