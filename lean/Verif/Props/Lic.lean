import Verif.Lemmas.Lic
import Verif.Lemmas.Exec
import Verif.Props.Mesh
import Mathlib.Algebra.Order.Floor.Ring
import Mathlib.Tactic.FieldSimp

/-!
# C63: line integral convolution, pmesh/lic.py

`lineIntegral` is the sum along the streamline through a cell, in terms of the whole fields. The values that `lic`
integrates are these on any number of ranks, under conditions; the field that `lic` returns is not made of them.
-/

namespace Pmesh

section
variable {K : Type} [Field K] [LinearOrder K] [IsStrictOrderedRing K] [FloorRing K]

/-- **C63** (steps).  For a positive step the loop passes exactly the `i` with `i * ds < length / 2`. -/
theorem C63_steps (length ds : K) (hds : 0 < ds) (i : ℕ) : i < licSteps length ds ↔ (i : K) * ds < length / 2 := by
  unfold licSteps
  rw [Nat.lt_ceil, lt_div_iff₀ hds, show length * (1 / 2) = length / 2 by ring]

/-- **C63** (values).  All ranks finish the integration, and the value that rank `r` has for its cell `c` is the sum along
the streamline through that cell, computed from the whole fields: any number of ranks, any kernel, texture and length.
Partial: `V` is the largest component of the vectors and must occur on every rank, the cells must not be smaller than
the unit of length (the step is used in units of the box, not in pixels as documented), the window is nnb, cic, tsc or
pcs, and the restrictions on the halo and on empty slabs of C23. -/
theorem C63_integral_partial (m : PMesh K) (hm : m.OK) (hp : m.PlainRanks) (hunit : ∀ j < m.nmesh.length, m.scale.getD j 0 ≤ 1)
    (w : Resampler K) (hw : w.Valid) (kind : Tuned) (hk : w.kern = Tuned.kern kind) (hsup : w.support = w.kern.native)
    (hcov : w.Covers ((w.support : K) * (1 / 2)) 1) (st : List ℤ) (gv : List (ℤ → K)) (vectors : ℕ → List (ℤ → K))
    (hvec : VectorsOf m st gv vectors) (hdim : gv.length ≤ m.nmesh.length) (texture : ℕ → ℤ → K) (gt : ℤ → K)
    (htex : ∀ r < m.nrank, m.PieceOf st gt (texture r) r) (kernel : K → K) (length ds : K) (hds : 0 < ds) (V : K)
    (hV : ∀ v ∈ gv, ∀ c, ValidIndex m.nmesh c → |v ((m.serial st).addr 0 c)| ≤ V)
    (hat : ∀ r < m.nrank, ∃ v ∈ vectors r, ∃ c, ValidIndex (m.localShape r) c ∧ |v (m.addr r c)| = V)
    (hh : m.HaloFits (List.replicate m.nmesh.length (V * ds * (1 / 2) + (w.support : K) * (1 / 2)))) :
    AllReturn m.nrank (fun r => licIntegral m w (vectors r) (texture r) kernel length ds r)
      (fun r => .ok ((ndindex (m.localShape r)).map fun c =>
        lineIntegral m st w gv gt kernel length ds (licSteps length ds) (m.global r c))) := by
  have hV0 : 0 ≤ V := by
    obtain ⟨v, _, c, _, h⟩ := hat 0 hm.nrank_pos
    rw [← h]; exact abs_nonneg _
  have hvm : ∀ r < m.nrank, licVmax m r (vectors r) = some V := by
    intro r hr
    refine licVmax_eq (fun v hv c hc => ?_) (hat r hr)
    obtain ⟨d, hd, rfl⟩ := List.mem_iff_getElem.1 hv
    have hd' : d < gv.length := by rw [← (hvec r hr).1]; exact hd
    have h := (hvec r hr).2 d hd' c hc
    rw [List.getD_eq_getElem _ _ hd, List.getD_eq_getElem _ _ hd'] at h
    rw [h]
    exact hV _ (List.getElem_mem _) _ (hm.global_valid hr hc)
  refine licIntegral_return hm hp hw hcov hvec hdim htex kernel length hds.le hvm (fun _ _ => hV0) (fun _ _ => hh) ?_
  intro r hr p hpl d hd
  have hb : |velocityAt m st w gv p d| ≤ V := by
    unfold velocityAt
    split
    · next v hv => exact fieldAt_le hm st hw hk hsup (hV v (List.mem_of_getElem? hv)) hpl
    · simpa using hV0
  calc m.scale.getD d 0 * |velocityAt m st w gv p d| ≤ 1 * V :=
        mul_le_mul (hunit d hd) hb (abs_nonneg _) zero_le_one
    _ = V := one_mul V

end

/-! ## The hypotheses can be met -/

/-- A vector field on eight cells, with the value 1 on both ranks. -/
def exVec (a : ℤ) : ℚ := if a % 4 = 0 then 1 else if a % 4 = 2 then -1 else 1 / 2

theorem exMesh_piece (g : ℤ → ℚ) : ∀ r < exMesh.nrank, exMesh.PieceOf [1] g (fun a => g (4 * r + a)) r := by
  intro r hr c hc
  obtain ⟨i, rfl⟩ := List.length_eq_one_iff.1 ((validIndex_iff.1 hc).1.trans (by simp [PMesh.localShape, exMesh]))
  have : r = 0 ∨ r = 1 := by simp only [exMesh] at hr; omega
  rcases this with rfl | rfl <;>
    simp [PMesh.addr, PMesh.serial, PMesh.global, PMesh.start, exMesh]

/-- Non-vacuity of C63: two ranks, a texture that is the number of the cell, a kernel that is not constant, seven steps. -/
example := C63_integral_partial exMesh exMesh_ok exMesh_plain (by decide +kernel) exWin exWin_valid .cic rfl rfl
  (Or.inr (Or.inr (by decide +kernel))) [1] [exVec] (fun r => [fun a => exVec (4 * r + a)])
  (fun r hr => ⟨rfl, fun d hd => by
    have : d = 0 := by simpa using hd
    subst this
    exact exMesh_piece exVec r hr⟩) (by decide) (fun r a => (4 * r + a : ℚ)) (fun a => (a : ℚ))
  (fun r hr => by simpa using exMesh_piece (fun a => (a : ℚ)) r hr) (fun s => 1 - s * s) 7 (1 / 2) (by norm_num) 1
  (by
    intro v hv c _
    rw [List.mem_singleton] at hv
    subst hv
    unfold exVec
    split
    · simp
    · split
      · simp
      · rw [abs_of_pos (by norm_num)]; norm_num)
  (by
    intro r _
    refine ⟨_, List.mem_singleton.2 rfl, [0], ?_, ?_⟩
    · have : r = 0 ∨ r = 1 := by simp only [exMesh] at *; omega
      rcases this with rfl | rfl <;> decide
    · simp [PMesh.addr, exMesh, exVec])
  (by unfold PMesh.HaloFits; decide +kernel)

/-! ## Where the code violates the property -/

/-- The first four elements of the field that `lic` returns. -/
def licAndLook (m : PMesh ℚ) (vectors : List (ℤ → ℚ)) (texture : ℤ → ℚ) (length ds : ℚ) (r : ℕ) :
    Prog (Msg (List ℚ)) (Except MeshErr (List ℚ)) :=
  (lic m exWin vectors texture (fun _ => 1) length ds r).andThen fun mem => .ret (.ok ((List.range 4).map fun (a : ℕ) => mem a))

/-- **C63 violated**: `lic` returns the wrong field. The integrated values are handed to `paint` as smoothing lengths, not as
masses. With length 0 the result should be the texture, which is 3 everywhere; a single process returns 1 everywhere, and
two ranks return 2/3 at the edges of the slabs. -/
theorem C63_violated_hsml :
    AllReturn 1 (fun r => licAndLook (exMesh.serial [1]) [fun _ => 1] (fun _ => 3) 0 1 r) (fun _ => .ok [1, 1, 1, 1]) ∧
    AllReturn 2 (fun r => licAndLook exMesh [fun _ => 1] (fun _ => 3) 0 1 r) (fun _ => .ok [2 / 3, 1, 1, 2 / 3]) ∧
    ∀ c, lineIntegral exMesh [1] exWin [fun _ => 1] (fun _ => 3) (fun _ => 1) 0 1 (licSteps (0 : ℚ) 1) c = 3 := by
  refine ⟨AllReturn.of_runAll 20 (by decide +kernel), AllReturn.of_runAll 20 (by decide +kernel), fun c => ?_⟩
  have : licSteps (0 : ℚ) 1 = 0 := by decide +kernel
  rw [this]
  simp [lineIntegral, lineSum]

/-- Eight cells in a box of size 2, on two ranks. -/
def exSmallBox : PMesh ℚ := ⟨[8], [2], [[0, 4, 8]], 2, fun r => [r], fun _ => [1], fun _ => 77⟩

/-- **C63 violated** when the cells are smaller than the unit of length: with the constant vector 1 and the constant texture
1, all integrals of length 1 are 3, on two ranks two cells get 2. A half step of 1/2 is two cells long, but the layout
allows for half a cell. -/
theorem C63_violated_units :
    AllReturn 2 (fun r => licIntegral exSmallBox exWin [fun _ => 1] (fun _ => 1) (fun _ => 1) 1 1 r) (fun _ => .ok [3, 3, 2, 3]) ∧
    AllReturn 1 (fun r => licIntegral (exSmallBox.serial [1]) exWin [fun _ => 1] (fun _ => 1) (fun _ => 1) 1 1 r)
      (fun _ => .ok [3, 3, 3, 3, 3, 3, 3, 3]) :=
  ⟨AllReturn.of_runAll 60 (by decide +kernel), AllReturn.of_runAll 60 (by decide +kernel)⟩

/-- A vector field that is 1 on the first half of the mesh, and 2 and 6 on the second. -/
def exUneven (r : ℕ) (a : ℤ) : ℚ := if r = 0 then 1 else if a = 0 then 2 else 6

/-- **C63 violated** when the largest vector is not on every rank: the smoothing uses the maximum of the local array. A particle of rank 0
that has come to the other rank moves faster than its own rank knows; one of its samples of the texture is lost. -/
theorem C63_violated_vmax :
    AllReturn 2 (fun r => licIntegral exMesh exWin [exUneven r] (fun _ => 1) (fun _ => 1) 6 1 r)
      (fun r => .ok (if r = 0 then [7, 7, 7, 6] else [7, 7, 7, 7])) ∧
    AllReturn 1 (fun r => licIntegral (exMesh.serial [1]) exWin [fun a => exUneven (if a < 4 then 0 else 1) (a - 4)] (fun _ => 1)
      (fun _ => 1) 6 1 r) (fun _ => .ok [7, 7, 7, 7, 7, 7, 7, 7]) :=
  ⟨AllReturn.of_runAll 200 (by decide +kernel), AllReturn.of_runAll 200 (by decide +kernel)⟩

/-- What a program does first: it ends (`none`) or calls a collective. -/
def Prog.first {V R : Type} : Prog V R → Option Coll
  | .ret _ => none
  | .coll op _ _ => some op

theorem Deadlocks.of_first {V R : Type} {n : ℕ} {p : ℕ → Prog V R} (a b : ℕ) (ha : a < n) (hb : b < n) (hpa : (p a).first = none)
    (hpb : (p b).first.isSome = true) : Deadlocks n p := by
  cases h1 : p a with
  | coll op v k => rw [h1] at hpa; simp [Prog.first] at hpa
  | ret r =>
    cases h2 : p b with
    | ret r => rw [h2] at hpb; simp [Prog.first] at hpb
    | coll op v k => exact Deadlocks.of_mixed ha hb h1 h2

/-- Two cells on three ranks; the last has none. -/
def exEmptyLast : PMesh ℚ := ⟨[2], [2], [[0, 1, 2, 2]], 3, fun r => [r], fun _ => [1], fun _ => 77⟩

/-- **C63 violated** on a rank without cells: the maximum of its empty array raises there alone, and the other ranks wait
forever. -/
theorem C63_violated_empty : Deadlocks 3 (fun r => licIntegral exEmptyLast exWin [fun _ => 1] (fun _ => 1) (fun _ => 1) 2 1 r) :=
  Deadlocks.of_first 2 0 (by decide) (by decide) (by decide +kernel) (by decide +kernel)

#print axioms C63_steps
#print axioms C63_integral_partial
#print axioms C63_violated_hsml
#print axioms C63_violated_units
#print axioms C63_violated_vmax
#print axioms C63_violated_empty

end Pmesh
