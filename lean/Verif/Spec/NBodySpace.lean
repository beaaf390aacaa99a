import Verif.Spec.NBody
import Verif.Spec.Translate

/-! # Vocabulary for the forces of the N-body program -/

namespace Pmesh

/-- `z` cells along axis `d`. -/
def axisShift (n d : ℕ) (z : ℤ) : List ℤ := (List.replicate n 0).set d z

/-- The derivative along axis `d` by the four nearest cells, with cells of size `C`. -/
noncomputable def diff4 (nmesh : List ℕ) (C : ℝ) (d : ℕ) (φ : List ℕ → ℝ) (g : List ℕ) : ℝ :=
  let at' (z : ℤ) := φ (movedCell nmesh (axisShift nmesh.length d z) g)
  (8 * (at' 1 - at' (-1)) - (at' 2 - at' (-2))) / (12 * C)

/-- `|k|²`. -/
noncomputable def waveSq (nmesh : List ℕ) (box : List ℝ) (k : List ℕ) : ℝ := ((waveVector Real.pi nmesh box k).map (· ^ 2)).sum

/-- `φ` is a potential of `rho`: `|k|² φ_k = rho_k` for all modes but that of the mean, i.e. `-∇² φ = rho`. -/
def Potential (nmesh : List ℕ) (box : List ℝ) (rho φ : List ℕ → ℝ) : Prop :=
  ∀ k, ValidIndex nmesh k → waveSq nmesh box k ≠ 0 → (waveSq nmesh box k : ℂ) * r2c nmesh φ k = r2c nmesh rho k

end Pmesh
