import Verif.Model.TableWindows
import Verif.Spec.Window

/-!
# Specification: how well the tabulated windows keep the mass
-/

namespace Pmesh

/-- By how much the mass painted along one axis with a symmetric tabulated window may differ from the mass of the particle. -/
def SymWin.tolerance : SymWin → ℚ
  | .lanczos2 => 12 / 1000
  | .lanczos3 => 5 / 1000
  | .lanczos4 => 4 / 1000
  | .lanczos5 => 4 / 1000
  | .lanczos6 => 5 / 1000
  | .acg2 => 226 / 1000
  | .acg3 => 95 / 1000
  | .acg4 => 52 / 1000
  | .acg5 => 30 / 1000
  | .acg6 => 16 / 1000

/-- The same for all wavelets. -/
def waveTolerance : ℚ := 21 / 10000

/-- By how many cells the wavelet windows move the mass along every axis. -/
def WaveWin.displacement : WaveWin → ℚ
  | .sym6 => 223 / 1000
  | .sym12 => 227 / 1000
  | .sym20 => 358 / 1000
  | .db6 => 2247 / 1000
  | .db12 => 3306 / 1000
  | .db20 => 4478 / 1000

end Pmesh
