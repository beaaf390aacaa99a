import Verif.Model.LanczosTables
import Verif.Model.AcgTables
import Verif.Model.WaveletTables

/-!
# Model of the tabulated windows lanczos2-6, acg2-6, sym6-20, db6-20

pmesh/_window_lanczos.h, _window_acg.h, _window_wavelets.h; the choice of the kernel in `pmesh_painter_init`,
pmesh/_window_imp.c:284-379.  Decimal constants stand for themselves (their rounding to binary is left out).
-/

namespace Pmesh

/-- Entry `i` of a table, in units of `10^-8`. -/
def packedEntry (rows : List ℕ) (i : ℕ) : ℤ := ((rows.getD (i / 256) 0 / 10 ^ (9 * (255 - i % 256)) % 10 ^ 9 : ℕ) : ℤ) - 10 ^ 8

section
variable {K : Type*} [Field K] [LinearOrder K] [IsStrictOrderedRing K] [FloorRing K]

/-- Entry `i` of a table. -/
def tabulated (rows : List ℕ) (i : ℕ) : K := (packedEntry rows i : K) / 10 ^ 8

/-- The symmetric tabulated windows. -/
inductive SymWin where
  | lanczos2 | lanczos3 | lanczos4 | lanczos5 | lanczos6 | acg2 | acg3 | acg4 | acg5 | acg6
  deriving DecidableEq, Repr

/-- The tables. -/
def SymWin.rows : SymWin → List ℕ
  | .lanczos2 => lanczos2Rows
  | .lanczos3 => lanczos3Rows
  | .lanczos4 => lanczos4Rows
  | .lanczos5 => lanczos5Rows
  | .lanczos6 => lanczos6Rows
  | .acg2 => acg2Rows
  | .acg3 => acg3Rows
  | .acg4 => acg4Rows
  | .acg5 => acg5Rows
  | .acg6 => acg6Rows

/-- `nativesupport`, pmesh/_window_lanczos.h:2057 and the like. -/
def SymWin.native : SymWin → ℕ
  | .lanczos2 => 4
  | .lanczos3 => 6
  | .lanczos4 => 8
  | .lanczos5 => 10
  | .lanczos6 => 12
  | .acg2 => 2
  | .acg3 => 3
  | .acg4 => 4
  | .acg5 => 5
  | .acg6 => 6

/-- The spacing of the table in units of `10^-10`, pmesh/_window_lanczos.h:2061 and the like. -/
def SymWin.step : SymWin → ℕ
  | .lanczos2 => 2441406
  | .lanczos3 => 3662109
  | .lanczos4 => 4882812
  | .lanczos5 => 6103516
  | .lanczos6 => 7324219
  | .acg2 => 1220852
  | .acg3 => 1831278
  | .acg4 => 2441704
  | .acg5 => 3052130
  | .acg6 => 3662556

/-- Kernel and derivative, pmesh/_window_lanczos.h:2057-2084, _window_acg.h:2057-2084 and the like; all have 8192 entries. -/
def SymWin.kern (w : SymWin) : Kern K :=
  ⟨w.native, symTableKernel (tabulated w.rows) 8192 (w.step / 10 ^ 10), symTableDiff (tabulated w.rows) 8192 (w.step / 10 ^ 10)⟩

/-- The wavelet windows. -/
inductive WaveWin where
  | sym6 | sym12 | sym20 | db6 | db12 | db20
  deriving DecidableEq, Repr

/-- The tables. -/
def WaveWin.rows : WaveWin → List ℕ
  | .sym6 => sym6Rows
  | .sym12 => sym12Rows
  | .sym20 => sym20Rows
  | .db6 => db6Rows
  | .db12 => db12Rows
  | .db20 => db20Rows

/-- `nativesupport`, pmesh/_window_wavelets.h:457 and the like. -/
def WaveWin.native : WaveWin → ℕ
  | .sym6 => 7
  | .sym12 => 10
  | .sym20 => 12
  | .db6 => 7
  | .db12 => 10
  | .db20 => 13

/-- Number of entries, pmesh/_window_wavelets.h:465 and the like. -/
def WaveWin.size : WaveWin → ℕ
  | .sym6 => 1796
  | .sym12 => 2564
  | .sym20 => 3076
  | .db6 => 1796
  | .db12 => 2564
  | .db20 => 3332

/-- The offset `x += 3.5`, pmesh/_window_wavelets.h:460 and the like, in halves. -/
def WaveWin.offset : WaveWin → ℕ
  | .sym6 => 7
  | .sym12 => 10
  | .sym20 => 12
  | .db6 => 7
  | .db12 => 10
  | .db20 => 13

/-- Kernel and derivative, pmesh/_window_wavelets.h:457-479 and the like; the spacing is 0.00390625. -/
def WaveWin.kern (w : WaveWin) : Kern K :=
  ⟨w.native, waveTableKernel (tabulated w.rows) w.size (390625 / 10 ^ 8) (w.offset / 2),
    waveTableDiff (tabulated w.rows) w.size (390625 / 10 ^ 8) (w.offset / 2)⟩

end
end Pmesh
