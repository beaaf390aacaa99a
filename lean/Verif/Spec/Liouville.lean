import Verif.Spec.NBodyTime

/-! # Vocabulary for phase space -/

namespace Pmesh

/-- Displacements and velocities of `N` particles in `D` dimensions. -/
abbrev Phase (N D : ℕ) := (Fin N → Fin D → ℝ) × (Fin N → Fin D → ℝ)

/-- Particle `i` at the point `z` of phase space, when `Q` are the places on the grid. -/
def Phase.body {N D : ℕ} (Q : Fin N → Fin D → ℝ) (z : Phase N D) (i : Fin N) : NBody := ⟨List.ofFn (Q i), List.ofFn (z.1 i), List.ofFn (z.2 i), []⟩

/-- The symplectic form: `Σ s_i v'_i - v_i s'_i`. -/
def sympForm {n : ℕ} (u u' : (Fin n → ℝ) × (Fin n → ℝ)) : ℝ := ∑ i, (u.1 i * u'.2 i - u.2 i * u'.1 i)

/-- The symplectic form on the phase space of `N` particles. -/
def phaseForm {N D : ℕ} (u u' : Phase N D) : ℝ := ∑ i, ∑ d, (u.1 i d * u'.2 i d - u.2 i d * u'.1 i d)

end Pmesh
