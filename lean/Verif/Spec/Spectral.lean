import Mathlib.Analysis.SpecialFunctions.Complex.Circle
import Verif.Spec.Index

/-! # Sums of plane waves in a periodic box -/

namespace Pmesh
open Complex

/-- The wavevector of the wave with `m_j` periods along axis `j` of the box: `2π m_j / L_j`. -/
noncomputable def waveOf (box : List ℝ) (m : List ℤ) : List ℝ := List.zipWith (fun (L : ℝ) (z : ℤ) => 2 * Real.pi * z / L) box m

/-- `Σ_j a_j b_j`. -/
def dotL (a b : List ℝ) : ℝ := (List.zipWith (· * ·) a b).sum

/-- The function `x ↦ Σ Re(A exp(i k·x))` of waves with `m` periods and complex amplitude `A`. -/
noncomputable def planeWaves (box : List ℝ) (waves : List (List ℤ × ℂ)) (x : List ℝ) : ℝ :=
  (waves.map fun p => (p.2 * exp (I * dotL (waveOf box p.1) x)).re).sum

/-- The waves, with each amplitude multiplied by the value of `T` at the wavevector. -/
noncomputable def filtered (box : List ℝ) (T : List ℝ → ℂ) (waves : List (List ℤ × ℂ)) : List (List ℤ × ℂ) :=
  waves.map fun p => (p.1, T (waveOf box p.1) * p.2)

/-- The position of mesh point `g`: `g_j L_j / N_j`. -/
noncomputable def pointPos : List ℕ → List ℝ → List ℕ → List ℝ
  | n :: ns, L :: Ls, g :: gs => (g : ℝ) * (L / n) :: pointPos ns Ls gs
  | _, _, _ => []

/-- Fewer periods along each axis than half the number of mesh points, rounded down. -/
def BelowNyquist (nmesh : List ℕ) (m : List ℤ) : Prop := List.Forall₂ (fun (n : ℕ) (z : ℤ) => |z| < ((n / 2 : ℕ) : ℤ)) nmesh m

end Pmesh
