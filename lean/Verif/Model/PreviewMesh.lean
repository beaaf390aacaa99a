import Verif.Model.Preview
import Verif.Model.Regrid
import Verif.Model.CheckGrad
import Verif.Spec.Slice

/-! # Model of `preview` with `Nmesh` and `method`, pmesh/pm.py:549-615 -/

namespace Pmesh

/-- What `preview` can raise: an exception of the resampling, of numpy, or the `ValueError` of pmesh/pm.py:596. -/
inductive PreviewErr where
  | mesh (e : MeshErr) | numpy (e : String) | value
  deriving DecidableEq, Repr

/-- The resampling that is chosen, pmesh/pm.py:582-598: `none` if there is none, `some true` for `downsample`, `some false` for `upsample`.  `new` is
`Nmesh` of the caller, broadcast to all axes. -/
def previewMethod (old new : List ℕ) (method : Option String) : Except PreviewErr (Option Bool) :=
  if (List.zipWith (fun (a b : ℕ) => decide (a = b)) new old).all id then .ok none
  else
    let method := match method with
      | none => if (List.zipWith (fun (a b : ℕ) => decide (a < b)) new old).any id then "downsample" else "upsample"
      | some s => s
    if method = "downsample" then .ok (some true)
    else if method = "upsample" then .ok (some false)
    else .error .value

/-- Messages of `Allreduce` among those of the layouts. -/
def Msg.row {K : Type} (l : List K) : Msg (List K) := .block [l] [] []

def Msg.getRow {K : Type} : Msg (List K) → List K
  | .block [l] _ _ => l
  | _ => []

section
variable {K : Type} [Field K] [LinearOrder K] [IsStrictOrderedRing K] [FloorRing K]

/-- The rest of `preview`, pmesh/pm.py:600-615, for the real field `field` on mesh `m`. -/
def previewField (m : PMesh K) (axes : List ℕ) (r : ℕ) (field : ℤ → K) : Prog (Msg (List K)) (Except PreviewErr (List K)) :=
  ((preview m.tiling r axes fun c => field (m.addr r c)).embed Msg.row Msg.getRow).mapRet fun
    | .error e => .error (.numpy e)
    | .ok l => .ok l

/-- `field.preview(Nmesh=dst.Nmesh, axes=axes, resampler=w, method=method)` of a real field on mesh `src`, on rank `r`.  `dst` is `self.pm.reshape(Nmesh)`;
how the FFT library splits it is a parameter.  Complex fields are transformed first (pmesh/pm.py:579-580), which is not part of this model. -/
def previewMesh (src dst : PMesh K) (w : Resampler K) (method : Option String) (axes : List ℕ) (r : ℕ) (field : ℤ → K) :
    Prog (Msg (List K)) (Except PreviewErr (List K)) :=
  let lift : Except MeshErr (ℤ → K) → Except PreviewErr (ℤ → K) := fun
    | .error e => .error (.mesh e)
    | .ok f => .ok f
  match previewMethod src.nmesh dst.nmesh method with
  | .error e => .ret (.error e)
  | .ok none => previewField src axes r field
  | .ok (some true) => ((downsample src dst w true r field).mapRet lift).andThen fun out => previewField dst axes r out
  | .ok (some false) => ((upsample src dst w true r field).mapRet lift).andThen fun out => previewField dst axes r out

end
end Pmesh
