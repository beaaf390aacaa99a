import Verif.Model.TableWindows
import Verif.Model.FWindow

/-!
# Model of the construction of windows and of their names, pmesh/window.py:56-63, 222-263, pmesh/_window.pyx:66-116, pmesh/_window_imp.c:246-459

The lookup tables `kinds` and `windows`, `FindResampler`, `resize`, and the choice of the kernel in `pmesh_painter_init`.
Strings are Lean strings, `str.lower()` maps each character (all names are ASCII).  Windows are immutable values: the object identity of two windows
with the same kind and support is left out.
-/

namespace Pmesh

/-- `PMeshPainterType` in the order of the C header, pmesh/_window_imp.h:4-28. -/
inductive PType where
  | nearest | linear | cubic | quadratic
  | lanczos2 | lanczos3 | lanczos4 | lanczos5 | lanczos6
  | acg2 | acg3 | acg4 | acg5 | acg6
  | db6 | db12 | db20 | sym6 | sym12 | sym20
  | tunedNnb | tunedCic | tunedTsc | tunedPcs
  deriving DecidableEq, Repr

/-- The enumeration constants by number, pmesh/_window_imp.h:4-28. -/
def PType.all : List PType :=
  [.nearest, .linear, .cubic, .quadratic, .lanczos2, .lanczos3, .lanczos4, .lanczos5, .lanczos6, .acg2, .acg3, .acg4, .acg5, .acg6,
    .db6, .db12, .db20, .sym6, .sym12, .sym20, .tunedNnb, .tunedCic, .tunedTsc, .tunedPcs]

/-- The dictionary `kinds` of `ResampleWindow.__init__`, pmesh/_window.pyx:71-96. -/
def kinds : List (String × PType) :=
  [("tunednnb", .tunedNnb), ("tunedcic", .tunedCic), ("tunedtsc", .tunedTsc), ("tunedpcs", .tunedPcs),
    ("nearest", .nearest), ("linear", .linear), ("quadratic", .quadratic), ("cubic", .cubic),
    ("lanczos2", .lanczos2), ("lanczos3", .lanczos3), ("lanczos4", .lanczos4), ("lanczos5", .lanczos5), ("lanczos6", .lanczos6),
    ("acg2", .acg2), ("acg3", .acg3), ("acg4", .acg4), ("acg5", .acg5), ("acg6", .acg6),
    ("db6", .db6), ("db12", .db12), ("db20", .db20), ("sym6", .sym6), ("sym12", .sym12), ("sym20", .sym20)]

/-- The argument `kind` of `ResampleWindow`: a string, or an integer that is taken as the C enumeration constant. -/
inductive WKind where
  | str (s : String)
  | int (i : ℤ)
  deriving DecidableEq, Repr

/-- What can go wrong: a TypeError, or an enumeration constant for which `pmesh_painter_init` sets no kernel (undefined behaviour). -/
inductive WErr where
  | typeError | undefined
  deriving DecidableEq, Repr

/-- `type = <PMeshPainterType> <int> kinds[kind]` or `<int> kind`, pmesh/_window.pyx:98-103; converting a string to int is a TypeError. -/
def WKind.type : WKind → Except WErr PType
  | .str s => match kinds.lookup s with
    | some t => .ok t
    | none => .error .typeError
  | .int i => if 0 ≤ i then (match PType.all[i.toNat]? with | some t => .ok t | none => .error .undefined) else .error .undefined

section
variable {K : Type*} [Field K] [LinearOrder K] [IsStrictOrderedRing K] [FloorRing K]

/-- `painter->kernel`, `diff` and `nativesupport`, pmesh/_window_imp.c:259-453. -/
def PType.kern : PType → Kern K
  | .nearest => nearestK
  | .linear => linearK
  | .cubic => cubicK
  | .quadratic => quadraticK
  | .lanczos2 => SymWin.lanczos2.kern
  | .lanczos3 => SymWin.lanczos3.kern
  | .lanczos4 => SymWin.lanczos4.kern
  | .lanczos5 => SymWin.lanczos5.kern
  | .lanczos6 => SymWin.lanczos6.kern
  | .acg2 => SymWin.acg2.kern
  | .acg3 => SymWin.acg3.kern
  | .acg4 => SymWin.acg4.kern
  | .acg5 => SymWin.acg5.kern
  | .acg6 => SymWin.acg6.kern
  | .db6 => WaveWin.db6.kern
  | .db12 => WaveWin.db12.kern
  | .db20 => WaveWin.db20.kern
  | .sym6 => WaveWin.sym6.kern
  | .sym12 => WaveWin.sym12.kern
  | .sym20 => WaveWin.sym20.kern
  | .tunedNnb => nearestK
  | .tunedCic => linearK
  | .tunedTsc => quadraticK
  | .tunedPcs => cubicK

/-- `painter->getfastmethod`, NULL for the untuned types, pmesh/_window_imp.c:249, 380-453. -/
def PType.tuned : PType → Option Tuned
  | .tunedNnb => some .nnb
  | .tunedCic => some .cic
  | .tunedTsc => some .tsc
  | .tunedPcs => some .pcs
  | _ => none

/-- `painter->fwindow`, NULL for the tabulated types, pmesh/_window_imp.c:259-453. -/
noncomputable def PType.fwindow : PType → Option (ℝ → ℝ)
  | .nearest | .tunedNnb => some nearestFwindow
  | .linear | .tunedCic => some linearFwindow
  | .quadratic | .tunedTsc => some quadraticFwindow
  | .cubic | .tunedPcs => some cubicFwindow
  | _ => none

/-- A `ResampleWindow`: its `kind`, the type of its painter, and `support` after `pmesh_painter_init`. -/
structure RWindow where
  kind : WKind
  type : PType
  support : ℕ
  deriving DecidableEq, Repr

/-- `ResampleWindow(kind, support=-1)`, pmesh/window.py:57-58, pmesh/_window.pyx:70-116. -/
def resampleWindow (kind : WKind) (support : ℤ := -1) : Except WErr RWindow :=
  match kind.type with
  | .ok t => .ok ⟨kind, t, (windowInfo (K := ℚ) (PType.kern t : Kern ℚ).native support).support⟩
  | .error e => .error e

/-- `window.nativesupport`, pmesh/_window.pyx:113. -/
def RWindow.native (w : RWindow) : ℕ := (PType.kern w.type : Kern ℚ).native

/-- `window.resize(support)`, pmesh/window.py:60-62. -/
def RWindow.resize (w : RWindow) (support : ℤ) : Except WErr RWindow := resampleWindow w.kind support

/-- The painter used by `paint` and `readout`: a copy of the one of the window, initialised again, pmesh/_window.pyx:139-156. -/
def RWindow.painter (w : RWindow) (axes : List (PAxis K)) : Painter K :=
  painterInit w.type.kern w.type.tuned w.support axes

/-- `window.get_fwindow` at one frequency, pmesh/window.py:82-104. -/
noncomputable def RWindow.fwindow (w : RWindow) (freq : ℝ) : ℝ := getFwindow w.native w.type.fwindow w.support freq

end

/-- The literal part of the dictionary `windows`, pmesh/window.py:229-254: name and kind. -/
def windowsUpper : List (String × String) :=
  [("NEAREST", "nearest"), ("LINEAR", "linear"), ("NNB", "tunednnb"), ("CIC", "tunedcic"), ("TSC", "tunedtsc"), ("PCS", "tunedpcs"),
    ("QUADRATIC", "quadratic"), ("CUBIC", "cubic"),
    ("LANCZOS2", "lanczos2"), ("LANCZOS3", "lanczos3"), ("LANCZOS4", "lanczos4"), ("LANCZOS5", "lanczos5"), ("LANCZOS6", "lanczos6"),
    ("ACG2", "acg2"), ("ACG3", "acg3"), ("ACG4", "acg4"), ("ACG5", "acg5"), ("ACG6", "acg6"),
    ("DB6", "db6"), ("DB12", "db12"), ("DB20", "db20"), ("SYM6", "sym6"), ("SYM12", "sym12"), ("SYM20", "sym20")]

/-- `str.lower()` for ASCII. -/
def pyLower (s : String) : String := String.ofList (s.toList.map Char.toLower)

/-- The dictionary `windows` after the loop that adds the lower-case names, pmesh/window.py:256-258. -/
def windowsDict : List (String × String) := windowsUpper ++ windowsUpper.map fun e => (pyLower e.1, e.2)

/-- What a caller may pass as a resampler: a string, a window, or anything else. -/
inductive WArg where
  | str (s : String)
  | window (w : RWindow)
  | other
  deriving DecidableEq

/-- `FindResampler`, pmesh/window.py:222-227.  For an unhashable argument `window in windows` itself raises a TypeError. -/
def findResampler : WArg → Except WErr RWindow
  | .str s => match windowsDict.lookup s with
    | some k => resampleWindow (.str k)
    | none => .error .typeError
  | .window w => .ok w
  | .other => .error .typeError

end Pmesh
