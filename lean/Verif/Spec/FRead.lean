import Verif.Spec.Domain

/-!
# Vocabulary for readout in floating point
-/

namespace Pmesh

/-- The number of ranks that particle `i` is sent to. -/
def Sends.copies (L : Sends) (n i : ℕ) : ℕ := ((List.range n).filter fun r => decide (some i ∈ L.sentTo r)).length

end Pmesh
