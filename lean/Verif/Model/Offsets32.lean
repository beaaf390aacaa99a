import Verif.Model.Int16
import Verif.Model.Layout

/-!
# The offsets of `Layout` in 32 bits

`sendcounts` comes from `numpy.zeros(self.comm.size, dtype='int32')` (pmesh/domain.py:602).  `cumsum` of numpy adds in 64 bits, but its result is assigned to
an array made by `zeros_like`, which has 32 bits.
-/

namespace Pmesh

/-- `sendoffsets` and `recvoffsets` as stored, pmesh/domain.py:106-107 and 117-118. -/
def offsets32 (counts : List ℕ) : List ℤ := (offsetsOf counts).map fun n : ℕ => wrapInt32 (n : ℤ)

end Pmesh
