import Verif.Spec.Mesh
import Verif.Spec.Deriv

/-! # Vocabulary for the derivatives of `paint` and `readout` -/

namespace Pmesh

/-- Numbers moved by `t` times a tangent. -/
def along (t : ℝ) (a v : List ℝ) : List ℝ := List.zipWith (fun a v => a + t * v) a v

/-- Positions moved by `t` times tangents, if given. -/
def alongRows (t : ℝ) (x : List (List ℝ)) (v : Option (List (List ℝ))) : List (List ℝ) :=
  v.elim x fun v => List.zipWith (along t) x v

/-- The masses of `len` particles changed by `t` times tangents, if given. -/
noncomputable def Quant.along (t : ℝ) (len : ℕ) (q : Quant ℝ) (v : Option (List ℝ)) : Quant ℝ :=
  v.elim q fun v => .array ((List.range len).map fun i => q.at i + t * v.getD i 0)

/-- A field changed by `t` times a tangent, if given. -/
noncomputable def alongField (t : ℝ) (f : ℤ → ℝ) (v : Option (ℤ → ℝ)) : ℤ → ℝ := v.elim f fun v a => f a + t * v a

/-- The size of the window in cells. -/
noncomputable def Resampler.size (w : Resampler ℝ) : ℝ := if w.support = 0 then w.kern.native else w.support

/-- The window has its declared derivative at a particle: the kernel at the distances to all cells; a particle of the tuned cic
window is not on a grid point; the tuned pcs window is only used with cells of unit size (`C21_violated_pcs`). -/
structure PMesh.SmoothPoint (m : PMesh ℝ) (w : Resampler ℝ) (x : List ℝ) : Prop where
  smooth : ∀ j < m.nmesh.length, SmoothAt w.kern w.size (x.getD j 0 * m.scale.getD j 0)
  cic : w.tuned = some .cic → ∀ j < m.nmesh.length, ∀ n : ℤ, x.getD j 0 * m.scale.getD j 0 ≠ n
  pcs : w.tuned = some .pcs → ∀ j < m.nmesh.length, m.scale.getD j 0 = 1

end Pmesh
