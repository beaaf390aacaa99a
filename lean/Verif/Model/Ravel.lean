import Verif.Model.Field
import Mathlib.Data.List.Sort

/-!
# Model of the serialisation of fields and of resampling, pmesh/pm.py:389-547, 1091-1144

`mpsort` (a library, not part of pmesh) is represented by its contract:

* `mpsort.sort(data, orderby, comm, out)`: the data of all ranks in the order of rank, sorted by key, are laid out in the
  `out` arrays of the ranks, rank after rank;
* `mpsort.permute(data, argindex, comm, out)` and `mpsort.take(data, argindex, comm)`: `out[j]` is the element with number
  `argindex[j]` of the data of all ranks, in the order of rank.

The local array of a field is a function of the local index; `flat` iterates over it in C order whatever the order of the
elements in memory.
-/

namespace Pmesh

section
variable {V : Type}

/-- `numpy.ravel_multi_index`, as a loop over the axes. -/
def ravelMulti (shape index : List ℕ) : ℕ := (shape.zip index).foldl (fun acc p => acc * p.1 + p.2) 0

/-- `numpy.ravel_multi_index(numpy.mgrid[self.slices], self.cshape).flat`, pmesh/pm.py:419 and 444. -/
def ravelKeys (t : Tiling) (r : ℕ) : List ℕ := (ndindex (t.lshape r)).map fun c => ravelMulti t.cshape (t.global r c)

/-- `field.flat`. -/
def flatOf (t : Tiling) (r : ℕ) (f : List ℕ → V) : List V := (ndindex (t.lshape r)).map f

/-- The part of rank `r` when `l` is cut in pieces of the given lengths. -/
def pieceOf (lens : List ℕ) (r : ℕ) (l : List V) : List V := (l.drop (lens.take r).sum).take (lens.getD r 0)

/-- `mpsort.sort` on rank `r`: `vs` are the (key, value) pairs of all ranks; the `out` array of a rank is as long as its
data, pmesh/pm.py:417. -/
def mpsortSort (vs : List (List (ℕ × V))) (r : ℕ) : List V :=
  pieceOf (vs.map List.length) r ((vs.flatten.mergeSort fun a b => decide (a.1 ≤ b.1)).map Prod.snd)

/-- `mpsort.permute`/`mpsort.take`: `vs` is the data of all ranks; `none` if an index is out of range. -/
def mpsortTake (vs : List (List (ℕ × V))) (ind : List ℕ) : Option (List V) :=
  ind.mapM fun j => (vs.flatten[j]?).map Prod.snd

/-- `Field.ravel` on rank `r`, pmesh/pm.py:389-424: the new content of `out.flat`. -/
def ravel (t : Tiling) (r : ℕ) (f : List ℕ → V) : Prog (List (ℕ × V)) (Except String (List V)) :=
  if t.nrank > 1 then
    .coll .mpsort ((ravelKeys t r).zip (flatOf t r f)) fun vs => .ret (.ok (mpsortSort vs r))
  else .ret (.ok (flatOf t r f))

/-- `Field.unravel` on rank `r`, pmesh/pm.py:426-448: the new content of `self.flat`.  The lengths of the inputs are added up
first (the contribution of a rank is its input, of which the length is used). -/
def unravel (t : Tiling) (r : ℕ) (flat : List V) : Prog (List (ℕ × V)) (Except String (List V)) :=
  .coll .allreduce (flat.map fun v => (0, v)) fun vs =>
    if (vs.map List.length).sum = t.cshape.prod then
      if t.nrank > 1 then
        .coll .mpsort (flat.map fun v => (0, v)) fun vs =>
          match mpsortTake vs (ravelKeys t r) with
          | some l => .ret (.ok l)
          | none => .ret (.error "mpsort")
      else .ret (.ok flat)
    else .ret (.error "AssertionError")

/-! ## Resampling -/

/-- Bound of a python slice of an array of length `n`. -/
def sliceBound (n : ℕ) (x : ℤ) : ℕ := if x < 0 then (x + n).toNat else min x.toNat n

/-- `numpy.arange(a, b, 1)`. -/
def arange (a b : ℤ) : List ℤ := (List.range (b - a).toNat).map fun (j : ℕ) => a + j

/-- `reindex(Nsrc, Ndest)`, pmesh/pm.py:1128-1144; `none` is the ValueError of an assignment of arrays that do not fit. -/
def reindex (nsrc ndest : ℕ) : Option (List ℤ) :=
  let v := arange (nsrc - ((ndest / 2 : ℕ) : ℤ) + 1) nsrc
  let a := sliceBound ndest ((ndest / 2 : ℕ) + 1)
  if v.length = ndest - a ∨ v.length = 1 then
    let t1 := (List.range ndest).map fun (j : ℕ) =>
      if a ≤ j then (if v.length = ndest - a then v.getD (j - a) 0 else v.getD 0 0) else (j : ℤ)
    let b := sliceBound ndest ((nsrc / 2 : ℕ) + 1)
    let e := sliceBound ndest (ndest - ((nsrc / 2 : ℕ) : ℤ) + 1)
    some ((List.range ndest).map fun (j : ℕ) => if b ≤ j ∧ j < e then -1 else t1.getD j 0)
  else none

/-- `build_index` at one element, pmesh/pm.py:1091-1126; `i` are the indices of the element along the axes. -/
def buildIndex (i : List ℤ) (fullshape : List ℕ) : ℤ :=
  let ind := (fullshape.zip i).foldl (fun acc p => acc * (p.1 : ℤ) + p.2) 0
  if i.any (fun x => x == -1) then -1 else ind

/-- What happens to the element with global index `i` after the data is filled in, pmesh/pm.py:524-542: imaginary parts of
self-conjugate modes, modes at the Nyquist frequency of the output, and modes with index `Nmesh // 2` of the input are set
to zero.  (The code does it slab by slab; that the slabs cover the array is C32.) -/
def cleanMode {K : Type} [Field K] (nsrc ndest : List ℕ) (i : List ℕ) (z : Cx K) : Cx K :=
  let z1 := if (List.zipWith (fun (n j : ℕ) => (n - j) % n == j) ndest i).all id then (z.1, 0) else z
  let z2 := if (List.zipWith (fun (n j : ℕ) => j == n / 2) ndest i).any id then 0 else z1
  if (List.zipWith (fun (n j : ℕ) => j == n / 2) nsrc i).any id then 0 else z2

/-- `resample` between complex fields on rank `r`, pmesh/pm.py:495-542: the content of the destination array in C order (`none`
would be an element without value).  `ts` and `td`
are the tilings of the source and destination fields (both transposed complex fields).  The shortcut for equal meshes
(491-493) does not return, so that the rest is done in any case and overwrites its result. -/
def resampleComplex {K : Type} [Field K] (ts td : Tiling) (r : ℕ) (f : List ℕ → Cx K) :
    Prog (List (ℕ × Cx K)) (Except String (List (Option (Cx K)))) :=
  (ravel ts r f).andThen fun tmp =>
    match (List.zip ts.nmesh td.nmesh).mapM fun p => reindex p.1 p.2 with
    | none => .ret (.error "ValueError")
    | some indtable =>
      let ind := fun c => buildIndex (List.zipWith (fun (tab : List ℤ) (j : ℕ) => tab.getD j 0) indtable (td.global r c)) ts.cshape
      let argind := ((ndindex (td.lshape r)).map ind).filter fun j => decide (0 ≤ j)
      .coll .mpsort (tmp.map fun v => (0, v)) fun vs =>
        match mpsortTake vs (argind.map Int.toNat) with
        | none => .ret (.error "mpsort")
        | some data =>
          -- `complex[mask] = data`: the data go to the elements with `ind >= 0`, in C order
          let cells := (ndindex (td.lshape r)).filter fun c => decide (0 ≤ ind c)
          .ret (.ok ((ndindex (td.lshape r)).map fun c =>
            if 0 ≤ ind c then (data[cells.idxOf c]?).map (cleanMode ts.nmesh td.nmesh (td.global r c))
            else some (cleanMode ts.nmesh td.nmesh (td.global r c) 0)))

end
end Pmesh
