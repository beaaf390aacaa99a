import Verif.Spec.Liouville
import Verif.Spec.NBodySpace
import Verif.Lemmas.Translate
import Mathlib.Analysis.Normed.Module.Basic

/-! # Vocabulary for the convergence of the N-body program -/

namespace Pmesh

/-- The equations of motion between the times `a0` and `a1`: `dS/da = V / (a³ E)`, `dV/da = F(S) / (a² E)`. -/
structure MovesOn {X : Type*} [NormedAddCommGroup X] [NormedSpace ℝ X] (E : ℝ → ℝ) (F : X → X) (a0 a1 : ℝ) (S V : ℝ → X) : Prop where
  dS : ∀ a ∈ Set.Icc a0 a1, HasDerivWithinAt S ((1 / (a ^ 3 * E a)) • V a) (Set.Icc a0 a1) a
  dV : ∀ a ∈ Set.Icc a0 a1, HasDerivWithinAt V ((1 / (a ^ 2 * E a)) • F (S a)) (Set.Icc a0 a1) a

/-- Times from `a0` to `a1` in steps of at most `h`. -/
structure TimeSteps (a0 a1 h : ℝ) (times : List ℝ) : Prop where
  first : times.head? = some a0
  last : times.getLast? = some a1
  steps : times.IsChain fun a b => a ≤ b ∧ b - a ≤ h

/-- Values that are close do not differ much. -/
def LipschitzKernel (k : Kern ℝ) : Prop := ∃ c, ∀ x y, |k.kernel x - k.kernel y| ≤ c * |x - y|

/-- `F` gives the forces of the particle-mesh method on `N` particles that are displaced by `S` from the places `Q`: 3/2 `om` times the gradient,
by differences of four cells, read with the window, of a potential of the density contrast that the window makes of the particles. -/
def IsMeshForce {N D : ℕ} (m : PMesh ℝ) (w : Resampler ℝ) (om : ℝ) (Q : Fin N → Fin D → ℝ) (F : (Fin N → Fin D → ℝ) → Fin N → Fin D → ℝ) : Prop :=
  ∀ S rho φ, (∀ g, rho g = (∑ j, m.weightAt w (List.ofFn fun d => S j d + Q j d) g) * (m.nmesh.prod / N)) → Potential m.nmesh m.box rho φ →
    ∀ i (d : Fin D), F S i d = 3 / 2 * om * ((ndindex m.nmesh).map fun g => m.weightAt w (List.ofFn fun d => S i d + Q i d) g *
      diff4 m.nmesh (m.box.getD d 0 / (m.nmesh.getD d 0 : ℝ)) d φ g).sum

end Pmesh
