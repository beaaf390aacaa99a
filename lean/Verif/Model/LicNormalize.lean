import Verif.Model.Lic
import Mathlib.Analysis.SpecialFunctions.Pow.Real

/-!
# Model of the normalisation of the vectors in `lic`, pmesh/lic.py:44-48

Over the real numbers, with the exact square root.  The new fields have fresh memory; the arrays of the caller are not written.
-/

namespace Pmesh

/-- `vabs` after the zeros are replaced, pmesh/lic.py:45-47: `sum(vi**2 for vi in vectors) ** 0.5`, then `vabs[vabs == 0] = 1`. -/
noncomputable def licAbs (vectors : List (ℤ → ℝ)) (a : ℤ) : ℝ :=
  let vabs := (vectors.foldl (fun acc v => acc + v a ^ 2) 0) ^ (1 / 2 : ℝ)
  if vabs = 0 then 1 else vabs

/-- `vectors = [vi / vabs for vi in vectors]`, pmesh/lic.py:48. -/
noncomputable def licNormalized (vectors : List (ℤ → ℝ)) : List (ℤ → ℝ) := vectors.map fun v a => v a / licAbs vectors a

/-- The particles and values before the final `paint`, with `normalize`, pmesh/lic.py:44-76. -/
noncomputable def licIntegralN (normalize : Bool) (m : PMesh ℝ) (w : Resampler ℝ) (vectors : List (ℤ → ℝ)) (texture : ℤ → ℝ) (kernel : ℝ → ℝ)
    (length ds : ℝ) (r : ℕ) : Prog (Msg (List ℝ)) (Except MeshErr (List ℝ)) :=
  licIntegral m w (if normalize then licNormalized vectors else vectors) texture kernel length ds r

/-- `lic(vectors, kernel, length, ds, resampler, texture, normalize)`, pmesh/lic.py:4-78. -/
noncomputable def licN (normalize : Bool) (m : PMesh ℝ) (w : Resampler ℝ) (vectors : List (ℤ → ℝ)) (texture : ℤ → ℝ) (kernel : ℝ → ℝ)
    (length ds : ℝ) (r : ℕ) : Prog (Msg (List ℝ)) (Except MeshErr (ℤ → ℝ)) :=
  lic m w (if normalize then licNormalized vectors else vectors) texture kernel length ds r

end Pmesh
