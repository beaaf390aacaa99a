import Verif.Model.Coarray

/-! # Vocabulary for `coarray.sync` -/

namespace Pmesh
section
variable {I B M : Type}

/-- Data of a buffer of rank `r`, if its array is `mem r`. -/
def coValue (get : I → M → B) (mem : ℕ → M) (r : ℕ) : CoBuf I B → B
  | .val b => b
  | .view i => get i (mem r)

/-- The buffers that a rank pushes are not changed by what is pushed to it. -/
def PushesStable (get : I → M → B) (put : I → B → M → M) (n : ℕ) (ops : ℕ → List (CoOp I B)) : Prop :=
  ∀ r < n, ∀ d rem i, CoOp.push d rem (.view i) ∈ ops r → ∀ a ∈ recvActions n ops r, ∀ b m, get i (put a.2 b m) = get i m

/-- No rank pulls from a rank that pushes to it. -/
def NoCross (n : ℕ) (ops : ℕ → List (CoOp I B)) : Prop :=
  ∀ a < n, ∀ b < n, pushesTo (ops a) b = [] ∨ pullsFrom (ops b) a = []

/-- The array of rank `r` after all pushes to it, in the order of the ranks that push and of their operations. -/
def afterPushes (get : I → M → B) (put : I → B → M → M) (n : ℕ) (ops : ℕ → List (CoOp I B)) (mem : ℕ → M) (r : ℕ) : M :=
  (List.range n).foldl (fun m s => (pushesTo (ops s) r).foldl (fun m p => put p.1 (coValue get mem s p.2) m) m) (mem r)

/-- One pull, all data being as before the synchronisation. -/
def doPull (get : I → M → B) (put : I → B → M → M) (mem : ℕ → M) (m : M) : CoOp I B → M
  | .pull loc src rem => put loc (get rem (mem src)) m
  | .push .. => m

/-- And then all its pulls in order. -/
def afterSync (get : I → M → B) (put : I → B → M → M) (n : ℕ) (ops : ℕ → List (CoOp I B)) (mem : ℕ → M) (r : ℕ) : M :=
  (ops r).foldl (doPull get put mem) (afterPushes get put n ops mem r)

/-- All ranks have returned from `sync`. -/
def CoState.ended (n : ℕ) (st : CoState I B M) : Prop := ∀ r < n, st.todo r = []

end
end Pmesh
