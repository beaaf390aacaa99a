import Verif.Model.Window

/-! # The bytes that painting and reading out touch -/

namespace Pmesh

section
variable {K : Type*} [Field K] [LinearOrder K] [IsStrictOrderedRing K] [FloorRing K]

/-- The number of bytes of one access to the array: `double` if the elements of the array have 8 bytes and `float` otherwise,
pmesh/_window_imp.c:251-257, :392-396, :410-414, :428-432, :447-451.  `ResampleWindow.paint` and `readout` accept every type of kind `'f'`
(`assert real.dtype.kind == 'f'`, pmesh/_window.pyx:137, :182): besides `f4` and `f8` also `f2` and `longdouble`. -/
def accessWidth (itemsize : ℕ) : ℕ := if itemsize = 8 then 8 else 4

/-- The bytes, relative to the first one of the array, that the accesses `acc` touch. -/
def touchedBytes (itemsize : ℕ) (acc : List (ℤ × K)) : List ℤ :=
  acc.flatMap fun a => (List.range (accessWidth itemsize)).map fun (b : ℕ) => a.1 + (b : ℤ)

end
end Pmesh
