import Mathlib.Data.Nat.Notation

/-!
# The unrolled stencils of the tuned windows

One table per function of pmesh/_window_tuned_{nnb,cic,tsc,pcs}.h, transcribed from the `ACCESS1/2/3` lines in
the order of the source (the digits are the suffixes of `IJK` and `V`).
-/

namespace Pmesh.Tuned

/-- pmesh/_window_tuned_nnb.h:30-38 -/
def nnbPaint3 : List (List ℕ) := [
  [0, 0, 0]]

/-- pmesh/_window_tuned_nnb.h:42-50 -/
def nnbReadout3 : List (List ℕ) := [
  [0, 0, 0]]

/-- pmesh/_window_tuned_nnb.h:55-62 -/
def nnbPaint2 : List (List ℕ) := [
  [0, 0]]

/-- pmesh/_window_tuned_nnb.h:66-74 -/
def nnbReadout2 : List (List ℕ) := [
  [0, 0]]

/-- pmesh/_window_tuned_nnb.h:79-86 -/
def nnbPaint1 : List (List ℕ) := [
  [0]]

/-- pmesh/_window_tuned_nnb.h:90-98 -/
def nnbReadout1 : List (List ℕ) := [
  [0]]

/-- pmesh/_window_tuned_cic.h:35-51 -/
def cicPaint3 : List (List ℕ) := [
  [0, 0, 0], [0, 0, 1], [0, 1, 0], [0, 1, 1], [1, 0, 0], [1, 0, 1], [1, 1, 0], [1, 1, 1]]

/-- pmesh/_window_tuned_cic.h:55-70 -/
def cicReadout3 : List (List ℕ) := [
  [0, 0, 0], [0, 0, 1], [0, 1, 0], [0, 1, 1], [1, 0, 0], [1, 0, 1], [1, 1, 0], [1, 1, 1]]

/-- pmesh/_window_tuned_cic.h:75-87 -/
def cicPaint2 : List (List ℕ) := [
  [0, 0], [0, 1], [1, 0], [1, 1]]

/-- pmesh/_window_tuned_cic.h:91-102 -/
def cicReadout2 : List (List ℕ) := [
  [0, 0], [0, 1], [1, 0], [1, 1]]

/-- pmesh/_window_tuned_cic.h:107-117 -/
def cicPaint1 : List (List ℕ) := [
  [0], [1]]

/-- pmesh/_window_tuned_cic.h:121-130 -/
def cicReadout1 : List (List ℕ) := [
  [0], [1]]

/-- pmesh/_window_tuned_tsc.h:40-76 -/
def tscPaint3 : List (List ℕ) := [
  [0, 0, 0], [0, 0, 1], [0, 0, 2], [0, 1, 0], [0, 1, 1], [0, 1, 2], [0, 2, 0], [0, 2, 1],
  [0, 2, 2], [1, 0, 0], [1, 0, 1], [1, 0, 2], [1, 1, 0], [1, 1, 1], [1, 1, 2], [1, 2, 0],
  [1, 2, 1], [1, 2, 2], [2, 0, 0], [2, 0, 1], [2, 0, 2], [2, 1, 0], [2, 1, 1], [2, 1, 2],
  [2, 2, 0], [2, 2, 1], [2, 2, 2]]

/-- pmesh/_window_tuned_tsc.h:80-113 -/
def tscReadout3 : List (List ℕ) := [
  [0, 0, 0], [0, 0, 1], [0, 0, 2], [0, 1, 0], [0, 1, 1], [0, 1, 2], [0, 2, 0], [0, 2, 1],
  [0, 2, 2], [1, 0, 0], [1, 0, 1], [1, 0, 2], [1, 1, 0], [1, 1, 1], [1, 1, 2], [1, 2, 0],
  [1, 2, 1], [1, 2, 2], [2, 0, 0], [2, 0, 1], [2, 0, 2], [2, 1, 0], [2, 1, 1], [2, 1, 2],
  [2, 2, 0], [2, 2, 1], [2, 2, 2]]

/-- pmesh/_window_tuned_tsc.h:117-135 -/
def tscPaint2 : List (List ℕ) := [
  [0, 0], [0, 1], [0, 2], [1, 0], [1, 1], [1, 2], [2, 0], [2, 1],
  [2, 2]]

/-- pmesh/_window_tuned_tsc.h:139-154 -/
def tscReadout2 : List (List ℕ) := [
  [0, 0], [0, 1], [0, 2], [1, 0], [1, 1], [1, 2], [2, 0], [2, 1],
  [2, 2]]

/-- pmesh/_window_tuned_tsc.h:159-171 -/
def tscPaint1 : List (List ℕ) := [
  [0], [1], [2]]

/-- pmesh/_window_tuned_tsc.h:175-184 -/
def tscReadout1 : List (List ℕ) := [
  [0], [1], [2]]

/-- pmesh/_window_tuned_pcs.h:55-129 -/
def pcsPaint3 : List (List ℕ) := [
  [0, 0, 0], [0, 0, 1], [0, 0, 2], [0, 0, 3], [0, 1, 0], [0, 1, 1], [0, 1, 2], [0, 1, 3],
  [0, 2, 0], [0, 2, 1], [0, 2, 2], [0, 2, 3], [0, 3, 0], [0, 3, 1], [0, 3, 2], [0, 3, 3],
  [1, 0, 0], [1, 0, 1], [1, 0, 2], [1, 0, 3], [1, 1, 0], [1, 1, 1], [1, 1, 2], [1, 1, 3],
  [1, 2, 0], [1, 2, 1], [1, 2, 2], [1, 2, 3], [1, 3, 0], [1, 3, 1], [1, 3, 2], [1, 3, 3],
  [2, 0, 0], [2, 0, 1], [2, 0, 2], [2, 0, 3], [2, 1, 0], [2, 1, 1], [2, 1, 2], [2, 1, 3],
  [2, 2, 0], [2, 2, 1], [2, 2, 2], [2, 2, 3], [2, 3, 0], [2, 3, 1], [2, 3, 2], [2, 3, 3],
  [3, 0, 0], [3, 0, 1], [3, 0, 2], [3, 0, 3], [3, 1, 0], [3, 1, 1], [3, 1, 2], [3, 1, 3],
  [3, 2, 0], [3, 2, 1], [3, 2, 2], [3, 2, 3], [3, 3, 0], [3, 3, 1], [3, 3, 2], [3, 3, 3]]

/-- pmesh/_window_tuned_pcs.h:133-204 -/
def pcsReadout3 : List (List ℕ) := [
  [0, 0, 0], [0, 0, 1], [0, 0, 2], [0, 0, 3], [0, 1, 0], [0, 1, 1], [0, 1, 2], [0, 1, 3],
  [0, 2, 0], [0, 2, 1], [0, 2, 2], [0, 2, 3], [0, 3, 0], [0, 3, 1], [0, 3, 2], [0, 3, 3],
  [1, 0, 0], [1, 0, 1], [1, 0, 2], [1, 0, 3], [1, 1, 0], [1, 1, 1], [1, 1, 2], [1, 1, 3],
  [1, 2, 0], [1, 2, 1], [1, 2, 2], [1, 2, 3], [1, 3, 0], [1, 3, 1], [1, 3, 2], [1, 3, 3],
  [2, 0, 0], [2, 0, 1], [2, 0, 2], [2, 0, 3], [2, 1, 0], [2, 1, 1], [2, 1, 2], [2, 1, 3],
  [2, 2, 0], [2, 2, 1], [2, 2, 2], [2, 2, 3], [2, 3, 0], [2, 3, 1], [2, 3, 2], [2, 3, 3],
  [3, 0, 0], [3, 0, 1], [3, 0, 2], [3, 0, 3], [3, 1, 0], [3, 1, 1], [3, 1, 2], [3, 1, 3],
  [3, 2, 0], [3, 2, 1], [3, 2, 2], [3, 2, 3], [3, 3, 0], [3, 3, 1], [3, 3, 2], [3, 3, 3]]

/-- pmesh/_window_tuned_pcs.h:209-235 -/
def pcsPaint2 : List (List ℕ) := [
  [0, 0], [0, 1], [0, 2], [0, 3], [1, 0], [1, 1], [1, 2], [1, 3],
  [2, 0], [2, 1], [2, 2], [2, 3], [3, 0], [3, 1], [3, 2], [3, 3]]

/-- pmesh/_window_tuned_pcs.h:239-262 -/
def pcsReadout2 : List (List ℕ) := [
  [0, 0], [0, 1], [0, 2], [0, 3], [1, 0], [1, 1], [1, 2], [1, 3],
  [2, 0], [2, 1], [2, 2], [2, 3], [3, 0], [3, 1], [3, 2], [3, 3]]

/-- pmesh/_window_tuned_pcs.h:267-281 -/
def pcsPaint1 : List (List ℕ) := [
  [0], [1], [2], [3]]

/-- pmesh/_window_tuned_pcs.h:285-296 -/
def pcsReadout1 : List (List ℕ) := [
  [0], [1], [2], [3]]

end Pmesh.Tuned
