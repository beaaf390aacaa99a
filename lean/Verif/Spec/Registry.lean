import Verif.Model.Registry

/-!
# What the names of the windows mean
-/

namespace Pmesh

variable {K : Type*} [Field K] [LinearOrder K] [IsStrictOrderedRing K] [FloorRing K]

/-- The documented names in upper case and the kernel of each: two names for each of the four splines (the tuned and the plain code), and one for
each tabulated kernel. -/
def windowTable : List (String × Kern K) :=
  [("NEAREST", nearestK), ("NNB", nearestK), ("LINEAR", linearK), ("CIC", linearK), ("QUADRATIC", quadraticK), ("TSC", quadraticK),
    ("CUBIC", cubicK), ("PCS", cubicK),
    ("LANCZOS2", SymWin.lanczos2.kern), ("LANCZOS3", SymWin.lanczos3.kern), ("LANCZOS4", SymWin.lanczos4.kern),
    ("LANCZOS5", SymWin.lanczos5.kern), ("LANCZOS6", SymWin.lanczos6.kern),
    ("ACG2", SymWin.acg2.kern), ("ACG3", SymWin.acg3.kern), ("ACG4", SymWin.acg4.kern), ("ACG5", SymWin.acg5.kern), ("ACG6", SymWin.acg6.kern),
    ("DB6", WaveWin.db6.kern), ("DB12", WaveWin.db12.kern), ("DB20", WaveWin.db20.kern),
    ("SYM6", WaveWin.sym6.kern), ("SYM12", WaveWin.sym12.kern), ("SYM20", WaveWin.sym20.kern)]

/-- All letters of the name in upper case or all in lower case. -/
def NameOf (s upper : String) : Prop := s = upper ∨ s = pyLower upper

/-- The names of the windows whose kernel is a spline. -/
def splineNames : List String := ["NEAREST", "NNB", "LINEAR", "CIC", "QUADRATIC", "TSC", "CUBIC", "PCS"]

end Pmesh
