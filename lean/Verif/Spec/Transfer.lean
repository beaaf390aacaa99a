import Verif.Model.Transfer
import Verif.Spec.Field
import Verif.Spec.Layout
import Mathlib.Data.Int.ModEq

/-! # What the transfer functions mean -/

namespace Pmesh

/-- The circular frequency of mode `i` of a mesh with `N` points: `Int.bmod i N` is the integer closest to zero that is `i` modulo
`N`; the frequency of the highest modes is `-π`. -/
noncomputable def omega (N i : ℕ) : ℝ := 2 * Real.pi * (Int.bmod i N : ℤ) / N

/-- The square of the frequency of mode `g`. -/
noncomputable def omega2 (N : ℕ) (g : List ℕ) : ℝ := (g.map fun i => omega N i ^ 2).sum

/-- What a transfer function does with the whole field, as it is documented; `none` if that is not defined. -/
noncomputable def Transfer.meaning (N : ℕ) (op : Transfer) (G : List ℕ → Cx ℝ) : Option (List ℕ → Cx ℝ) :=
  match op with
  | .normalizeDC =>
    let a := Real.sqrt ((G [0, 0, 0]).1 ^ 2 + (G [0, 0, 0]).2 ^ 2)
    if a = 0 then none else some fun g => ((G g).1 / a, (G g).2 / a)
  | .removeDC => some fun g => if g = [0, 0, 0] then (0, 0) else G g
  | .trilinear => some fun g =>
    let s := (g.map fun i => if omega N i = 0 then 1 else Real.sin (omega N i / 2) / (omega N i / 2)).prod
    ((G g).1 / s ^ 2, (G g).2 / s ^ 2)
  | .superLanzcos dir order => some fun g =>
    let x := omega N (g.getD dir 0)
    let y := if order = 0 then x else (8 * Real.sin x - Real.sin (2 * x)) / 6
    (-(y * (G g).2), y * (G g).1)
  | .gaussian s => some fun g =>
    let e := Real.exp (-(omega2 N g * s ^ 2) / 2)
    (e * (G g).1, e * (G g).2)
  | .constant a => some fun g => (a.1 * (G g).1 - a.2 * (G g).2, a.1 * (G g).2 + a.2 * (G g).1)
  | .inspect _ => some G
  | .laplace => some fun g => (-omega2 N g * (G g).1, -omega2 N g * (G g).2)
  | .poisson => some fun g => if g = [0, 0, 0] then (0, 0) else (-(G g).1 / omega2 N g, -(G g).2 / omega2 N g)

/-- The meaning of a chain of transfer functions. -/
noncomputable def chainMeaning (N : ℕ) (ops : List Transfer) (G : List ℕ → Cx ℝ) : Option (List ℕ → Cx ℝ) :=
  ops.foldlM (fun G op => op.meaning N G) G

/-- The transfer functions that do what they are documented to do. -/
def Transfer.Works : Transfer → Prop
  | .trilinear | .laplace | .inspect _ => False
  | .superLanzcos dir _ => dir < 3
  | _ => True

/-- The pieces of the field on all ranks are those of the field `G`, all values finite. -/
def FieldIs (t : Tiling) (f : ℕ → List ℕ → CVal) (G : List ℕ → Cx ℝ) : Prop := t.Holds f fun g => some (G g)

/-- The distribution of the complex field of a mesh with an even number `N` of points per side, on any number of ranks. -/
structure OldTiling (t : Tiling) (N : ℕ) : Prop where
  ok : t.OK
  pos : 0 < N
  even : N % 2 = 0
  mesh : t.nmesh = [N, N, N]
  stored : t.cshape = [N, N, N / 2 + 1]

end Pmesh
