import Verif.Lemmas.Lanczos
import Verif.Props.OldWindows
import Mathlib.Tactic.LinearCombination

/-!
# C70: painting with any window, pmesh/lanczos.py
-/

set_option linter.unusedSectionVars false

namespace Pmesh
section
variable {K : Type*} [Field K] [LinearOrder K] [IsStrictOrderedRing K] [FloorRing K]

/-- **C70**: what `paint` adds to an element is, for every particle, its weight over the integral of the window, times the product over the
axes of the values of the window (within its support) at all images of the element.  Nothing else is written. -/
theorem C70_paint (W : OldWindow K) (hS : 0 < W.support) {chunksize : ℕ} (hc : 0 < chunksize) {raise : Bool} {mesh : FlatMesh K}
    {period : Option (List ℕ)} (hper : ∀ p, period = some p → (∀ n ∈ p, 0 < n) ∧ p.length = mesh.shape.length) (ps : List (OldPart K))
    (hps : ∀ p ∈ ps, p.pos.length = mesh.shape.length) {m : ℤ → K} (hm : lzPaint W chunksize raise mesh period ps = some m) :
    (∀ c, ValidIndex mesh.shape c → m (cOrder mesh.shape c : ℕ) = mesh.flat (cOrder mesh.shape c : ℕ) +
      (ps.map fun p => p.w / W.integral *
        (List.zipWith (fun a (g : ℕ) => a g) (List.zipWith (windowSum W) (cicPeriod mesh.shape.length period) p.pos) c).prod).sum) ∧
    ∀ a : ℤ, (∀ c, ValidIndex mesh.shape c → a ≠ (cOrder mesh.shape c : ℕ)) → m a = mesh.flat a := by
  constructor
  · intro c hcv
    rw [lzPaint_eq W hS chunksize hc raise mesh period hper ps hps m hm]
    simp only [stDeposit_elem _ _ c hcv, cwProd_lzSt]
  · intro a ha
    rw [lzPaint_eq W hS chunksize hc raise mesh period hper ps hps m hm]
    have : (ps.map fun p => p.w / W.integral *
        stDeposit mesh.shape (List.zipWith (lzSt W) (cicPeriod mesh.shape.length period) p.pos) a).sum = 0 := by
      apply List.sum_eq_zero
      intro y hy
      obtain ⟨p, _, rfl⟩ := List.mem_map.1 hy
      have : stDeposit mesh.shape (List.zipWith (lzSt W) (cicPeriod mesh.shape.length period) p.pos) a = 0 := by
        unfold stDeposit
        apply List.sum_eq_zero
        intro y hy
        obtain ⟨c, hcm, rfl⟩ := List.mem_map.1 hy
        rw [if_neg (fun h => ha c (mem_ndindex.1 hcm) h.symm), mul_zero]
      rw [this, mul_zero]
    rw [this, add_zero]

/-- **C70**: `paint` returns if points outside are ignored, and on periodic meshes. -/
theorem C70_returns (W : OldWindow K) (chunksize : ℕ) (raise : Bool) (mesh : FlatMesh K) (period : Option (List ℕ)) (ps : List (OldPart K))
    (h : raise = false ∨ period = some mesh.shape ∧ (∀ n ∈ mesh.shape, 0 < n) ∧ ∀ p ∈ ps, p.pos.length = mesh.shape.length) :
    (lzPaint W chunksize raise mesh period ps).isSome := by
  apply lzPaint_isSome
  intro hr p hp
  rcases h with h | ⟨h1, h2, h3⟩
  · rw [h] at hr; cases hr
  · rw [h1]
    exact lzAllIn_of_full W mesh.shape h2 p.pos (h3 p hp)

/-- The default window `linear` gives what the numpy function of cic.py gives, errors included. -/
theorem C70_linear (chunksize : ℕ) (raise : Bool) (mesh : FlatMesh K) (period : Option (List ℕ)) (ps : List (OldPart K)) :
    lzPaint oldLinear chunksize raise mesh period ps = pyPaint chunksize raise mesh period ps := by
  unfold lzPaint pyPaint
  simp only [lzPaintChunk_linear]

/-- **C70**: hence the default window paints what the compiled cic window paints. -/
theorem C70_cic {P : Painter K} (hP : PlainPainter P .cic) {mem : ℤ → K} {mesh : FlatMesh K} (hshape : mesh.shape = shapeOf P.axes)
    (hsame : SameContent P.axes mem mesh.flat) {period : Option (List ℕ)} (hper : SamePeriod P period) (hpos : ∀ p, period = some p → ∀ n ∈ p, 0 < n)
    {chunksize : ℕ} (hc : 0 < chunksize) {raise : Bool} (ps : List (Particle K)) (hps : NativeParticles P ps) {m : ℤ → K}
    (hok : lzPaint oldLinear chunksize raise mesh period (inMeshUnits P ps) = some m) :
    ∃ mem', paint P mem ps = some mem' ∧ SameContent P.axes mem' m :=
  C51_numpy_paint hP hshape hsame hper hpos hc ps hps (by rw [← C70_linear]; exact hok)

theorem prod_windowSum (W : OldWindow K) (s : K) (hs : W.SumsTo s) : ∀ (shape : List ℕ), (∀ n ∈ shape, 0 < n) → ∀ (pos : List K),
    pos.length = shape.length →
    ((ndindex shape).map fun c => (List.zipWith (fun a (g : ℕ) => a g) (List.zipWith (windowSum W) shape pos) c).prod).sum = s ^ shape.length := by
  intro shape
  induction shape with
  | nil => intro _ pos _; simp [ndindex]
  | cons n shape ih =>
    intro hpos pos hl
    match pos, hl with
    | x :: pos, hl =>
      have hih := ih (fun k hk => hpos k (by simp [hk])) pos (by simpa using hl)
      rw [ndindex, sum_flatMap']
      have : ∀ a : ℕ, (List.map (fun c => (List.zipWith (fun a (g : ℕ) => a g) (List.zipWith (windowSum W) (n :: shape) (x :: pos)) c).prod)
          (List.map (fun t => a :: t) (ndindex shape))).sum = s ^ shape.length * windowSum W n x a := by
        intro a
        rw [List.map_map, ← hih, mul_comm, ← sum_mul_left']
        rfl
      simp only [this]
      rw [sum_mul_left', sum_windowSum W s hs n (hpos n (by simp)), List.length_cons, pow_succ]

/-- What a periodic mesh gains: every weight, times the sum of the window to the number of axes, divided by the integral once. -/
theorem C70_total (W : OldWindow K) (hS : 0 < W.support) (s : K) (hs : W.SumsTo s) {chunksize : ℕ} (hc : 0 < chunksize) {raise : Bool}
    {mesh : FlatMesh K} (hshape : ∀ n ∈ mesh.shape, 0 < n) (ps : List (OldPart K)) (hps : ∀ p ∈ ps, p.pos.length = mesh.shape.length)
    {m : ℤ → K} (hm : lzPaint W chunksize raise mesh (some mesh.shape) ps = some m) :
    flatTotal mesh.shape m = flatTotal mesh.shape mesh.flat + (ps.map (·.w)).sum * (s ^ mesh.shape.length / W.integral) := by
  have h1 := (C70_paint W hS hc (by rintro p ⟨⟩; exact ⟨hshape, rfl⟩) ps hps hm).1
  unfold flatTotal
  rw [List.map_congr_left fun c hc => h1 c (mem_ndindex.1 hc), sum_map_add]
  congr 1
  rw [sum_comm_lists]
  simp only [cicPeriod]
  have : ∀ l : List (OldPart K), (l.map (·.w)).sum * (s ^ mesh.shape.length / W.integral) =
      (l.map fun p => p.w / W.integral * s ^ mesh.shape.length).sum := by
    intro l
    induction l with
    | nil => simp
    | cons p l ih => rw [List.map_cons, List.map_cons, List.sum_cons, List.sum_cons, ← ih]; ring
  rw [this]
  congr 1
  apply List.map_congr_left
  intro p hp
  rw [sum_mul_left', prod_windowSum W s hs mesh.shape hshape p.pos (hps p hp)]

/-- **C70**, mass: a window whose values on any grid add up to its integral keeps the mass, on meshes of one axis or if the integral is 1.
Missing: several axes and another integral, see `C70_violated_mass`. -/
theorem C70_mass_partial (W : OldWindow K) (hS : 0 < W.support) (hs : W.SumsTo W.integral) (hI : W.integral ≠ 0) {chunksize : ℕ}
    (hc : 0 < chunksize) {raise : Bool} {mesh : FlatMesh K} (hshape : ∀ n ∈ mesh.shape, 0 < n)
    (h1 : mesh.shape.length = 1 ∨ W.integral = 1) (ps : List (OldPart K)) (hps : ∀ p ∈ ps, p.pos.length = mesh.shape.length)
    {m : ℤ → K} (hm : lzPaint W chunksize raise mesh (some mesh.shape) ps = some m) :
    flatTotal mesh.shape m = flatTotal mesh.shape mesh.flat + (ps.map (·.w)).sum := by
  rw [C70_total W hS _ hs hc hshape ps hps hm]
  rcases h1 with h1 | h1
  · rw [h1, pow_one, div_self hI, mul_one]
  · rw [h1, one_pow, div_one, mul_one]

theorem finsum_cut (W : OldWindow K) (x : K) :
    ∑ᶠ n : ℤ, W.cut (x - n) = ((List.range (2 * W.support)).map fun k : ℕ => W.f (x - ((⌊x⌋ + ((k : ℤ) - ((W.support : ℤ) - 1)) : ℤ) : K))).sum := by
  rw [finsum_near W.support x _ (fun k hk => cut_eq_zero W _ hk)]
  congr 1
  apply List.map_congr_left
  intro k hk
  rw [cut_near W x k (List.mem_range.1 hk)]

/-- `linear` is such a window. -/
theorem C70_linear_sums : (oldLinear : OldWindow K).SumsTo oldLinear.integral := by
  intro x
  rw [finsum_cut]
  have hx0 := Int.floor_le x
  have hx1 := Int.lt_floor_add_one x
  simp only [oldLinear, show List.range (2 * 1) = [0, 1] from rfl, List.map_cons, List.map_nil, List.sum_cons, List.sum_nil]
  push_cast
  have a0 : |x - (⌊x⌋ + 0)| = x - ⌊x⌋ := by rw [abs_of_nonneg (by linarith)]; ring
  have a1 : |x - (⌊x⌋ + 1)| = ⌊x⌋ + 1 - x := by rw [abs_of_nonpos (by linarith)]; ring
  rw [a0, a1, if_neg (by linarith), if_neg (by linarith)]
  ring

/-- **C70**: outside their support the windows are zero, so that `paint` leaves no neighbour out. -/
theorem C70_support (alpha : K) (x : K) :
    (1 < |x| → (oldLinear : OldWindow K).f x = 0) ∧ (2 < |x| → (oldCubic alpha).f x = 0) ∧
      (1 < |x| → (oldKaiserFlat : OldWindow K).f x = 0) := by
  refine ⟨fun h => by simp [oldLinear, h], fun h => by simp [oldCubic, h], fun h => ?_⟩
  rcases lt_abs.1 h with h | h
  · simp [oldKaiserFlat, h]
  · have : x < -1 := by linarith
    simp [oldKaiserFlat, this]

example := (C70_support (-1 / 2 : ℚ) (5 / 2)).2.1 (by norm_num)

/-- And so is `cubic`, for every `alpha`. -/
theorem C70_cubic_sums (alpha : K) : (oldCubic alpha).SumsTo (oldCubic alpha).integral := by
  intro x
  rw [finsum_cut]
  have hx0 := Int.floor_le x
  have hx1 := Int.lt_floor_add_one x
  simp only [oldCubic, show List.range (2 * 2) = [0, 1, 2, 3] from rfl, List.map_cons, List.map_nil, List.sum_cons, List.sum_nil]
  push_cast
  generalize ht : x - (⌊x⌋ : K) = t
  have ht0 : 0 ≤ t := by linarith
  have ht1 : t < 1 := by linarith
  have a0 : |x - (⌊x⌋ + (-1))| = t + 1 := by rw [abs_of_nonneg (by linarith)]; linear_combination ht
  have a1 : |x - (⌊x⌋ + 0)| = t := by rw [abs_of_nonneg (by linarith)]; linear_combination ht
  have a2 : |x - (⌊x⌋ + 1)| = 1 - t := by rw [abs_of_nonpos (by linarith)]; linear_combination -ht
  have a3 : |x - (⌊x⌋ + 2)| = 2 - t := by rw [abs_of_nonpos (by linarith)]; linear_combination -ht
  rw [a0, a1, a2, a3, if_neg (by linarith : ¬ t + 1 > 2), if_pos (by linarith : t + 1 ≥ 1), if_neg (by linarith : ¬ t > 2),
    if_neg (by linarith : ¬ t ≥ 1), if_neg (by linarith : ¬ 1 - t > 2), if_neg (by linarith : ¬ 2 - t > 2), if_pos (by linarith : 2 - t ≥ 1)]
  split_ifs with h
  · have : t = 0 := by linarith
    subst this
    ring
  · ring

/-- As is `kaiser(1, 0)`. -/
theorem C70_kaiser_sums : (oldKaiserFlat : OldWindow K).SumsTo oldKaiserFlat.integral := by
  intro x
  rw [finsum_cut]
  have hx0 := Int.floor_le x
  have hx1 := Int.lt_floor_add_one x
  simp only [oldKaiserFlat, show List.range (2 * 1) = [0, 1] from rfl, List.map_cons, List.map_nil, List.sum_cons, List.sum_nil]
  rw [if_neg (by push_cast; linarith), if_neg (by push_cast; linarith), if_neg (by push_cast; linarith), if_neg (by push_cast; linarith)]
  norm_num

/-- `cubic` keeps the mass on periodic meshes of any number of axes, wherever the particles are. -/
theorem C70_cubic_mass (alpha : K) {chunksize : ℕ} (hc : 0 < chunksize) {raise : Bool} {mesh : FlatMesh K} (hshape : ∀ n ∈ mesh.shape, 0 < n)
    (ps : List (OldPart K)) (hps : ∀ p ∈ ps, p.pos.length = mesh.shape.length) :
    ∃ m, lzPaint (oldCubic alpha) chunksize raise mesh (some mesh.shape) ps = some m ∧
      flatTotal mesh.shape m = flatTotal mesh.shape mesh.flat + (ps.map (·.w)).sum := by
  obtain ⟨m, hm⟩ := Option.isSome_iff_exists.1
    (C70_returns (oldCubic alpha) chunksize raise mesh (some mesh.shape) ps (Or.inr ⟨rfl, hshape, hps⟩))
  exact ⟨m, hm, C70_mass_partial _ (by norm_num [oldCubic]) (C70_cubic_sums alpha) one_ne_zero hc hshape (Or.inr rfl) ps hps hm⟩

end

/-- C70 violated: `kaiser(1, 0)` keeps the mass on one axis, but on a mesh of two axes every particle leaves twice its mass, wherever it is,
since the kernel is divided by the integral only once. -/
theorem C70_violated_mass {mesh : FlatMesh ℚ} (hd : mesh.shape.length = 2) (hshape : ∀ n ∈ mesh.shape, 0 < n) (ps : List (OldPart ℚ))
    (hps : ∀ p ∈ ps, p.pos.length = mesh.shape.length) :
    ∃ m, lzPaint oldKaiserFlat 65536 true mesh (some mesh.shape) ps = some m ∧
      flatTotal mesh.shape m = flatTotal mesh.shape mesh.flat + 2 * (ps.map (·.w)).sum := by
  obtain ⟨m, hm⟩ := Option.isSome_iff_exists.1 (C70_returns oldKaiserFlat 65536 true mesh (some mesh.shape) ps (Or.inr ⟨rfl, hshape, hps⟩))
  refine ⟨m, hm, ?_⟩
  rw [C70_total _ (by norm_num [oldKaiserFlat]) _ C70_kaiser_sums (by norm_num) hshape ps hps hm, hd]
  norm_num [oldKaiserFlat]
  ring

/-- The mesh of lanczos.py:146. -/
def exSix : FlatMesh ℚ := ⟨[6, 6], fun _ => 0, true⟩

/-- The particle of lanczos.py:147, and one on the edge of the box. -/
example : (lzPaint oldKaiserFlat 65536 true exSix (some [6, 6]) [⟨[5 / 2, 5 / 2], 1⟩]).map (fun m => flatTotal [6, 6] m) = some 2 := by
  decide +kernel

example : (lzPaint (oldCubic (-1 / 2)) 65536 true exSix (some [6, 6]) [⟨[5 / 2, 5 / 2], 1⟩, ⟨[6, -1 / 3], 2⟩]).map
    (fun m => (flatTotal [6, 6] m, m 14)) = some (3, 81 / 256) := by
  decide +kernel

example : ∃ m, lzPaint (oldCubic (-1 / 2)) 65536 true exSix (some exSix.shape) [⟨[5 / 2, 5 / 2], 1⟩, ⟨[6, -1 / 3], 2⟩] = some m ∧
    flatTotal exSix.shape m = flatTotal exSix.shape exSix.flat + 3 := by
  obtain ⟨m, h1, h2⟩ := C70_cubic_mass (mesh := exSix) (-1 / 2) (chunksize := 65536) (raise := true) (by norm_num) (by decide)
    [⟨[5 / 2, 5 / 2], 1⟩, ⟨[6, -1 / 3], 2⟩] (by simp [exSix])
  exact ⟨m, h1, h2.trans (by norm_num)⟩

end Pmesh
