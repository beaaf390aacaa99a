import Verif.Model.IntWindow

/-! # When 32 bits are enough to paint -/

namespace Pmesh

section
variable {K : Type} [Field K] [LinearOrder K] [IsStrictOrderedRing K] [FloorRing K]

/-- A position, in cells from the first one of the local mesh, that leaves room for a window of `S` cells below `2^31`. -/
def CellFits (S : ℕ) (ax : PAxis K) (x : K) : Prop := ax.period ≤ 2147483648 ∧ |ax.grid x| + S + 2 ≤ 2147483647

/-- The window covers fewer than `2^31` cells and stays away from the limits of `int` along every axis. -/
structure IntsFit (P : Painter K) (p : Particle K) : Prop where
  axes : P.axes ≠ []
  native : 0 < P.kern.native
  dims : p.pos.length = P.axes.length
  points : (windowInfo P.kern.native (P.support * p.hsml)).support ^ P.axes.length ≤ 2147483647
  cells : ∀ a ∈ P.axes.zip p.pos, CellFits (windowInfo P.kern.native (P.support * p.hsml)).support a.1 a.2

end
end Pmesh
