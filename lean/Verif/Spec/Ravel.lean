import Mathlib.Data.Int.Basic
import Mathlib.Data.List.Zip

/-! # Frequencies of modes -/

namespace Pmesh

/-- The frequency (in units of the fundamental one) of the mode with index `j` of a mesh of `n` cells. -/
def freqOf (n j : ℕ) : ℤ := if 2 * j < n then j else (j : ℤ) - n

/-- The mode `j` of the mesh `nd` is strictly below the Nyquist frequency of both meshes along every axis. -/
def CommonMode : List ℕ → List ℕ → List ℕ → Prop
  | n :: ns, m :: ms, j :: js =>
    (2 * (freqOf m j).natAbs < n ∧ 2 * (freqOf m j).natAbs < m) ∧ CommonMode ns ms js
  | _, _, _ => True

instance commonMode_decidable : ∀ ns nd j, Decidable (CommonMode ns nd j)
  | n :: ns, m :: ms, j :: js => by
    unfold CommonMode
    have := commonMode_decidable ns ms js
    infer_instance
  | [], _, _ => by unfold CommonMode; infer_instance
  | _ :: _, [], _ => by unfold CommonMode; infer_instance
  | _ :: _, _ :: _, [] => by unfold CommonMode; infer_instance

/-- The index in the mesh `ns` of the mode that has the frequency of mode `j` of the mesh `nd`. -/
def sameFreq : List ℕ → List ℕ → List ℕ → List ℕ
  | n :: ns, m :: ms, j :: js => (freqOf m j % n).toNat :: sameFreq ns ms js
  | _, _, _ => []

end Pmesh
