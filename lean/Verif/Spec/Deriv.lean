import Verif.Spec.Window
import Mathlib.Analysis.Calculus.Deriv.Basic

/-!
# What a gradient means

Vocabulary of C21: the painter used with `gradient=d`, and positions at which the kernel has a derivative.
-/

namespace Pmesh

/-- The axis with derivative order 1. -/
def PAxis.grad {K : Type*} (ax : PAxis K) : PAxis K := { ax with order := 1 }

/-- The painter of `paint(.., diffdir=d)` and `readout(.., diffdir=d)`: `order[diffdir] = 1`,
pmesh/window.py:141-143, 193-195. -/
def Painter.grad {K : Type*} (P : Painter K) (d : ℕ) : Painter K :=
  if h : d < P.axes.length then { P with axes := P.axes.set d P.axes[d].grad } else P

/-- The kernel of window size `s` has its declared derivative at the distances from grid coordinate `g` to all cells. -/
def SmoothAt (k : Kern ℝ) (s : ℝ) (g : ℝ) : Prop :=
  ∀ n : ℤ, HasDerivAt k.kernel (k.diff ((g - n) * (k.native / s))) ((g - n) * (k.native / s))

end Pmesh
