import Verif.Model.Field
import Mathlib.Analysis.SpecialFunctions.Pow.Real

/-!
# Model of `check_grad`, pmesh/abopt.py:288-387

The code under test, its vjp and its jvp are programs of the ranks that are parameters here (`GradCode`), and so is the kind of
the input (`GradInput`): an array with one row per particle, or a `RealField`.  Exact arithmetic.
-/

namespace Pmesh

/-- Contributions to the collectives: numbers of rows, numbers, elements of fields, and whatever the code under test sends. -/
inductive GMsg (W : Type) where
  | count (n : ℕ)
  | num (x : ℝ)
  | cx (z : Cx ℝ)
  | other (w : W)

/-- The number of rows in a contribution to `allgather(pos.shape[0])`. -/
def GMsg.toCount {W : Type} : GMsg W → ℕ
  | .count n => n
  | _ => 0

def GMsg.toNum {W : Type} : GMsg W → ℝ
  | .num x => x
  | _ => 0

def GMsg.toCx {W : Type} : GMsg W → Cx ℝ
  | .cx z => z
  | _ => 0

/-- The errors of `check_grad`. -/
inductive GradErr where
  /-- `AssertionError("FG_BG Bad gradients")` -/
  | fgbg
  /-- `AssertionError("NG_BG Bad gradients")` -/
  | ngbg
  | index
  deriving DecidableEq

/-- `cget`, `cperturb` and `x1 - x0` of one kind of input with local data `X`, on rank `r`. -/
structure GradInput (W X ι : Type) where
  get : ℕ → X → ι → Prog (GMsg W) (Except GradErr ℝ)
  perturb : ℕ → X → ι → ℝ → Prog (GMsg W) (Except GradErr X)
  sub : X → X → X

/-- The collective functions of the code under test on rank `r`: the scalar `y` for an input, the gradient `_x` by vjp, and
`y_` by jvp along an input. -/
structure GradCode (W X : Type) where
  compute : ℕ → X → Prog (GMsg W) (Except GradErr ℝ)
  vjp : ℕ → Prog (GMsg W) (Except GradErr X)
  jvp : ℕ → X → Prog (GMsg W) (Except GradErr ℝ)

section
variable {W : Type}

/-! ## Input: rows -/

/-- First and last global row of a rank: `sum(comm.allgather(pos.shape[0])[:comm.rank])` and `[:comm.rank + 1]`,
pmesh/abopt.py:297-298 and 311-312. -/
def rowRange {R : Type} (r : ℕ) (pos : List (List ℝ)) (k : ℕ → ℕ → Prog (GMsg W) R) : Prog (GMsg W) R :=
  .coll .allgather (.count pos.length) fun vs =>
    let start := ((vs.map GMsg.toCount).take r).sum
    .coll .allgather (.count pos.length) fun vs' => k start ((vs'.map GMsg.toCount).take (r + 1)).sum

/-- `cperturb`, pmesh/abopt.py:295-307. -/
def gradRowPerturb (r : ℕ) (pos : List (List ℝ)) (ind : ℕ × ℕ) (eps : ℝ) : Prog (GMsg W) (Except GradErr (List (List ℝ))) :=
  rowRange r pos fun start stop =>
    if ind.1 ≥ start ∧ ind.1 < stop then
      let row := pos.getD (ind.1 - start) []
      let old := row.getD ind.2 0
      .coll .allreduce (.num (old + eps - old)) fun _ => .ret (.ok (pos.set (ind.1 - start) (row.set ind.2 (old + eps))))
    else .coll .allreduce (.num (0 - 0)) fun _ => .ret (.ok pos)

/-- `cget`, pmesh/abopt.py:309-317, of a gradient that is not `ZERO`. -/
def gradRowGet (r : ℕ) (pos : List (List ℝ)) (ind : ℕ × ℕ) : Prog (GMsg W) (Except GradErr ℝ) :=
  rowRange r pos fun start stop =>
    .coll .allreduce (.num (if ind.1 ≥ start ∧ ind.1 < stop then (pos.getD (ind.1 - start) []).getD ind.2 0 else 0)) fun vs =>
      .ret (.ok (vs.map GMsg.toNum).sum)

/-- Rows as input of `check_grad`. -/
def rowInput : GradInput W (List (List ℝ)) (ℕ × ℕ) :=
  ⟨gradRowGet, gradRowPerturb, fun a b => List.zipWith (List.zipWith (· - ·)) a b⟩

/-! ## Input: a real field -/

/-- The program with another result. -/
def Prog.mapRet {V R S : Type} (g : R → S) : Prog V R → Prog V S
  | .ret r => .ret (g r)
  | .coll op v k => .coll op v fun vs => (k vs).mapRet g

/-- `cget`: `real.cgetitem(index)`, pmesh/abopt.py:321-323. -/
noncomputable def fieldGet (t : Tiling) (r : ℕ) (f : List ℕ → ℝ) (index : List ℕ) : Prog (GMsg W) (Except GradErr ℝ) :=
  ((cgetitem t r .whole (index.map (Nat.cast : ℕ → ℤ)) fun c => (f c, 0)).embed GMsg.cx GMsg.toCx).mapRet fun
    | none => .error .index
    | some z => .ok z.1

/-- `cperturb`, pmesh/abopt.py:325-329: `csetitem` on a copy. -/
noncomputable def fieldPerturb (t : Tiling) (r : ℕ) (f : List ℕ → ℝ) (index : List ℕ) (eps : ℝ) :
    Prog (GMsg W) (Except GradErr (List ℕ → ℝ)) :=
  (fieldGet t r f index).andThen fun old =>
    ((csetitem t false r .whole (index.map (Nat.cast : ℕ → ℤ)) (old + eps, 0) fun c => (f c, 0)).embed GMsg.cx GMsg.toCx).mapRet fun
      | none => .error .index
      | some z => .ok fun c => (z.1 c).1

/-- A real field as input of `check_grad`. -/
noncomputable def fieldInput (t : Tiling) : GradInput W (List ℕ → ℝ) (List ℕ) := ⟨fieldGet t, fieldPerturb t, fun a b c => a c - b c⟩

/-! ## The comparison -/

/-- `numpy.std`. -/
noncomputable def stdOf (g : List ℝ) : ℝ :=
  let mean := g.sum / g.length
  Real.sqrt ((g.map fun x => (x - mean) ^ 2).sum / g.length)

/-- `bins`, pmesh/abopt.py:374. -/
def gradBins : List ℝ := [-100, -50, -20, -1, 1, 20, 50, 100]

/-- `numpy.digitize(x, bins)`: the number of bins that are not greater than `x`. -/
noncomputable def gradDigit (bins : List ℝ) (x : ℝ) : ℕ := (bins.filter fun b => decide (b ≤ x)).length

/-- `errorstat`, pmesh/abopt.py:367-376.  A division by zero gives nan or an infinity, which are put outside the bins. -/
noncomputable def errorstat (stat : List (ℝ × ℝ)) (rtol atol : ℝ) : List ℕ :=
  let g1 := stat.map fun a => a.1
  let g2 := stat.map fun a => a.2
  stat.map fun a =>
    let ag1 := |a.1| + (if |a.1| = 0 then 1 else 0) * stdOf g1
    let ag2 := |a.2| + (if |a.2| = 0 then 1 else 0) * stdOf g2
    let den := (ag1 + ag2) * rtol + atol
    if den = 0 then (if a.1 - a.2 < 0 then 0 else gradBins.length) else gradDigit gradBins ((a.1 - a.2) / den)

/-! ## The check -/

/-- One turn of the loop over the components, pmesh/abopt.py:344-362: the tables `fg_bg` and `ng_bg`. -/
def gradStep {X ι : Type} (inp : GradInput W X ι) (code : GradCode W X) (r : ℕ) (x g : X) (eps : ℝ) (i : ι)
    (tab : List (ℝ × ℝ) × List (ℝ × ℝ)) : Prog (GMsg W) (Except GradErr (List (ℝ × ℝ) × List (ℝ × ℝ))) :=
  (inp.perturb r x i eps).andThen fun x1 =>
  (inp.perturb r x i (-eps)).andThen fun x0 =>
  (inp.get r g i).andThen fun _ =>
  (code.compute r x1).andThen fun y1 =>
  (code.compute r x0).andThen fun y0 =>
  (code.jvp r (inp.sub x1 x0)).andThen fun yt =>
  (inp.get r g i).andThen fun a1 =>
  (inp.get r g i).andThen fun a2 =>
  .ret (.ok (tab.1 ++ [(yt, a1 * 2 * eps)], tab.2 ++ [(y1 - y0, a2 * 2 * eps)]))

/-- `check_grad(code, yname, xname, init, eps, rtol, atol)` on rank `r` with the input `x` and the components `idx`,
pmesh/abopt.py:330-387. -/
noncomputable def checkGrad {X ι : Type} (inp : GradInput W X ι) (code : GradCode W X) (idx : List ι) (eps rtol atol : ℝ)
    (r : ℕ) (x : X) : Prog (GMsg W) (Except GradErr Unit) :=
  (code.compute r x).andThen fun _ =>
  (code.vjp r).andThen fun g =>
  (forProg (gradStep inp code r x g eps) idx ([], [])).andThen fun tab =>
    let d1 := errorstat tab.1 rtol atol
    let d2 := errorstat tab.2 (rtol * 10000) atol
    if d1.any (fun d => decide (d ≠ 4)) then .ret (.error .fgbg)
    else if d2.any (fun d => decide (d ≠ 4)) then .ret (.error .ngbg)
    else .ret (.ok ())

/-- `numpy.ndindex(n, m)`. -/
def pairIndex (n m : ℕ) : List (ℕ × ℕ) := (List.range n).flatMap fun i => (List.range m).map fun j => (i, j)

/-- `check_grad` for rows: `cshape` is the number of rows of all ranks and the number of columns of `engine.q`,
pmesh/abopt.py:292-293. -/
noncomputable def checkGradRows (code : GradCode W (List (List ℝ))) (dim : ℕ) (eps rtol atol : ℝ) (r : ℕ) (x : List (List ℝ)) :
    Prog (GMsg W) (Except GradErr Unit) :=
  .coll .allreduce (.count x.length) fun vs =>
    checkGrad rowInput code (pairIndex (vs.map GMsg.toCount).sum dim) eps rtol atol r x

/-- `check_grad` for a real field: `cshape` is the shape of the global array, pmesh/abopt.py:320. -/
noncomputable def checkGradField (t : Tiling) (code : GradCode W (List ℕ → ℝ)) (eps rtol atol : ℝ) (r : ℕ) (x : List ℕ → ℝ) :
    Prog (GMsg W) (Except GradErr Unit) :=
  checkGrad (fieldInput t) code (ndindex t.cshape) eps rtol atol r x

end
end Pmesh
