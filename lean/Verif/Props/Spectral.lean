import Verif.Lemmas.Spectral
import Verif.Props.Field
import Verif.Props.Norm

/-!
# C75: filters in Fourier space are exact for functions that the mesh resolves

A sum of plane waves with fewer periods along each axis than half the mesh points is sampled at the mesh points and transformed.
On each rank `apply` multiplies the modes by a function of the wavevector, and the result is transformed back.  Forward and
backward transform are those of C29.
-/

namespace Pmesh
open Complex

/-- `ComplexField.x` of rank `r`: the wavenumbers along axis `d`. -/
noncomputable def rankWaves (t : Tiling) (box : List ℝ) (r d j : ℕ) : ℝ :=
  (wavAxis Real.pi ((t.start r).getD d 0) ((t.lshape r).getD d 0) (t.nmesh.getD d 0) (box.getD d 0)).getD j 0

/-- What rank `r` has at local index `c` after `apply(lambda k, v: T(k) * v, kind='wavenumber', out=out)`.  `out` as in
`applyField`. -/
noncomputable def multiplied (t : Tiling) (box : List ℝ) (strides : ℕ → List ℤ) (order : ℕ → List ℕ) (T : List ℝ → ℂ)
    (out : ℕ → Option (List ℤ × (ℤ → ℂ))) (mem : ℕ → ℤ → ℂ) (r : ℕ) (c : List ℕ) : ℂ :=
  applyField (t.lshape r) (strides r) (order r) .wavenumber box (t.nmesh.map fun (n : ℕ) => (n : ℝ)) (rankWaves t box r)
    (fun d j => (((t.start r).getD d 0 + j : ℕ) : ℝ)) (fun k v => T k * v) (out r) (mem r)
    (elementAddr (((out r).map Prod.fst).getD (strides r)) c)

/-- A field of at least two axes with its local arrays: the layout of the memory is sound on each rank. -/
structure Stored (t : Tiling) (strides : ℕ → List ℤ) (order : ℕ → List ℕ) (out : ℕ → Option (List ℤ × (ℤ → ℂ))) : Prop where
  ok : t.OK
  dim : 2 ≤ t.nmesh.length
  shape : StoredShape t.nmesh t.cshape
  proper : ∀ r < t.nrank, Proper (t.lshape r) (strides r)
  order : ∀ r < t.nrank, (order r).Perm (List.range (t.lshape r).length)
  out : ∀ r < t.nrank, ∀ o ∈ out r, Proper (t.lshape r) o.1

/-- The memory of the ranks holds the transform of the samples of `f`. -/
def HoldsTransform (t : Tiling) (box : List ℝ) (strides : ℕ → List ℤ) (mem : ℕ → ℤ → ℂ) (f : List ℝ → ℝ) : Prop :=
  t.Holds (fun r c => mem r (elementAddr (strides r) c)) (r2c t.nmesh fun g => f (pointPos t.nmesh box g))

theorem multiplied_holds {t : Tiling} {strides : ℕ → List ℤ} {order : ℕ → List ℕ} {out : ℕ → Option (List ℤ × (ℤ → ℂ))}
    (h : Stored t strides order out) {box : List ℝ} (hl : box.length = t.nmesh.length) (T : List ℝ → ℂ) {mem : ℕ → ℤ → ℂ}
    {G : List ℕ → ℂ} (hmem : t.Holds (fun r c => mem r (elementAddr (strides r) c)) G) :
    t.Holds (multiplied t box strides order T out mem) (fun k => T (codeWave t.nmesh box k) * G k) := by
  intro r hr c hc
  have hl2 : 2 ≤ (t.lshape r).length := by rw [h.ok.shape_len r hr]; exact h.dim
  have hA := C32_apply (t.lshape r) hl2 (strides r) (h.proper r hr) (order r) (h.order r hr) .wavenumber box
    (t.nmesh.map fun (n : ℕ) => (n : ℝ)) (rankWaves t box r) (fun d j => (((t.start r).getD d 0 + j : ℕ) : ℝ))
    (fun k v => T k * v) (mem r)
  have hco : ownCoords (kindCoord .wavenumber box (t.nmesh.map fun (n : ℕ) => (n : ℝ)) (rankWaves t box r)
      (fun d j => (((t.start r).getD d 0 + j : ℕ) : ℝ))) c = codeWave t.nmesh box (t.global r c) := by
    rw [← own_codeWave h.ok hl hr hc]
    unfold ownCoords kindCoord
    simp [rankWaves]
  unfold multiplied
  cases ho : out r with
  | none =>
    have := hA.1.1 c hc
    simp only [Option.map_none, Option.getD_none]
    rw [this, hco]
    exact congrArg _ (hmem r hr c hc)
  | some o =>
    have := (hA.2 o.1 o.2 (h.out r hr o (by rw [ho]; rfl))).1 c hc
    simp only [Option.map_some, Option.getD_some]
    rw [this, hco]
    exact congrArg _ (hmem r hr c hc)

/-- C75: multiplication of the modes by `T(k)` multiplies the amplitude of each wave by `T` at its wavevector. -/
theorem C75_filter_partial (t : Tiling) (strides : ℕ → List ℤ) (order : ℕ → List ℕ) (out : ℕ → Option (List ℤ × (ℤ → ℂ)))
    (h : Stored t strides order out) (box : List ℝ) (hl : box.length = t.nmesh.length) (hb : ∀ L ∈ box, 0 < L)
    (waves : List (List ℤ × ℂ)) (hw : ∀ p ∈ waves, BelowNyquist t.nmesh p.1) (T : List ℝ → ℂ)
    (hT : ∀ p ∈ waves, T (waveOf box (p.1.map fun z => -z)) = (starRingEnd ℂ) (T (waveOf box p.1))) (mem : ℕ → ℤ → ℂ)
    (hmem : HoldsTransform t box strides mem (planeWaves box waves)) :
    ∃ F, t.Holds (multiplied t box strides order T out mem) F ∧
      ∀ g, ValidIndex t.nmesh g →
        c2r t.nmesh t.cshape F g = planeWaves box (filtered box T waves) (pointPos t.nmesh box g) := by
  refine ⟨_, multiplied_holds h hl T hmem, ?_⟩
  intro g hg
  have hne : t.nmesh ≠ [] := by
    intro e
    have := h.dim
    rw [e] at this
    simp at this
  apply C29_c2r_r2c t.nmesh t.cshape hne h.ok.mesh_pos h.shape
    (fun g => planeWaves box (filtered box T waves) (pointPos t.nmesh box g)) _ _ g hg
  intro k hk
  exact r2c_filtered h.ok.mesh_pos hb hl hw T hT (stored_valid h.shape hne h.ok.mesh_pos hk)


theorem waveOf_neg (box : List ℝ) (m : List ℤ) : waveOf box (m.map fun z => -z) = (waveOf box m).map fun k => -k := by
  unfold waveOf
  rw [List.zipWith_map_right, List.map_zipWith]
  congr 1
  funext L z
  push_cast
  ring

theorem pointPos_length : ∀ {nmesh : List ℕ} {box : List ℝ} {g : List ℕ}, box.length = nmesh.length → g.length = nmesh.length →
    (pointPos nmesh box g).length = nmesh.length
  | [], _, _, _, _ => by simp [pointPos]
  | n :: ns, L :: Ls, g :: gs, h1, h2 => by
    rw [pointPos, List.length_cons, pointPos_length (by simpa using h1) (by simpa using h2), List.length_cons]

/-- C75: multiplication by `i k_d` gives the derivative along axis `d` at the mesh points. -/
theorem C75_gradient_partial (t : Tiling) (strides : ℕ → List ℤ) (order : ℕ → List ℕ) (out : ℕ → Option (List ℤ × (ℤ → ℂ)))
    (h : Stored t strides order out) (box : List ℝ) (hl : box.length = t.nmesh.length) (hb : ∀ L ∈ box, 0 < L)
    (waves : List (List ℤ × ℂ)) (hw : ∀ p ∈ waves, BelowNyquist t.nmesh p.1) (d : ℕ) (hd : d < t.nmesh.length)
    (mem : ℕ → ℤ → ℂ) (hmem : HoldsTransform t box strides mem (planeWaves box waves)) :
    ∃ F, t.Holds (multiplied t box strides order (fun k => I * k.getD d 0) out mem) F ∧
      ∀ g, ValidIndex t.nmesh g →
        HasDerivAt (fun s => planeWaves box waves ((pointPos t.nmesh box g).set d s)) (c2r t.nmesh t.cshape F g)
          ((pointPos t.nmesh box g).getD d 0) := by
  obtain ⟨F, hF, hr⟩ := C75_filter_partial t strides order out h box hl hb waves hw (fun k => I * k.getD d 0) (by
    intro p hp
    rw [waveOf_neg, map_mul, Complex.conj_I, Complex.conj_ofReal]
    have : (((waveOf box p.1).map fun k => -k).getD d 0) = -((waveOf box p.1).getD d 0) := by
      rw [List.getD_eq_getElem?_getD, List.getD_eq_getElem?_getD, List.getElem?_map]
      cases (waveOf box p.1)[d]? <;> simp
    rw [this]
    push_cast
    ring) mem hmem
  refine ⟨F, hF, fun g hg => ?_⟩
  have hlen := pointPos_length hl hg.len
  rw [hr g hg, List.getD_eq_getElem _ _ (by rw [hlen]; exact hd)]
  exact planeWaves_deriv box waves _ (by rw [hlen]; exact hd) (by rw [hlen, hl]) fun p hp => by
    rw [hlen, (hw p hp).length_eq]

/-- `-1 / k.normp(2, zeromode=1)`. -/
noncomputable def inverseLaplacian (k : List ℝ) : ℂ := ((-1 / if dotL k k = 0 then 1 else dotL k k : ℝ) : ℂ)

theorem dotL_eq_sum (a b : List ℝ) (hl : a.length = b.length) :
    dotL a b = ((List.range a.length).map fun d => a.getD d 0 * b.getD d 0).sum := by
  unfold dotL
  congr 1
  apply List.ext_getElem
  · simp [hl]
  · intro d h1 h2
    have ha : d < a.length := by simpa using h2
    simp [List.getElem?_eq_getElem ha, List.getElem?_eq_getElem (hl ▸ ha)]

/-- C75: multiplication by `-1/k²` solves Poisson's equation. `laplace d` are the second derivatives of the potential. -/
theorem C75_poisson_partial (t : Tiling) (strides : ℕ → List ℤ) (order : ℕ → List ℕ) (out : ℕ → Option (List ℤ × (ℤ → ℂ)))
    (h : Stored t strides order out) (box : List ℝ) (hl : box.length = t.nmesh.length) (hb : ∀ L ∈ box, 0 < L)
    (waves : List (List ℤ × ℂ)) (hw : ∀ p ∈ waves, BelowNyquist t.nmesh p.1) (hmean : ∀ p ∈ waves, ∃ z ∈ p.1, z ≠ 0)
    (mem : ℕ → ℤ → ℂ) (hmem : HoldsTransform t box strides mem (planeWaves box waves)) :
    ∃ F pot, t.Holds (multiplied t box strides order inverseLaplacian out mem) F ∧ pot.map Prod.fst = waves.map Prod.fst ∧
      (∀ g, ValidIndex t.nmesh g → c2r t.nmesh t.cshape F g = planeWaves box pot (pointPos t.nmesh box g)) ∧
      ∃ slope curv : ℕ → List ℝ → ℝ,
        (∀ x : List ℝ, x.length = t.nmesh.length → ∀ d (hd : d < x.length),
          HasDerivAt (fun s => planeWaves box pot (x.set d s)) (slope d x) x[d] ∧
          HasDerivAt (fun s => slope d (x.set d s)) (curv d x) x[d]) ∧
        ∀ x : List ℝ, x.length = t.nmesh.length →
          ((List.range t.nmesh.length).map fun d => curv d x).sum = planeWaves box waves x := by
  obtain ⟨F, hF, hr⟩ := C75_filter_partial t strides order out h box hl hb waves hw inverseLaplacian (by
    intro p hp
    have : ∀ k : List ℝ, dotL (k.map fun a => -a) (k.map fun a => -a) = dotL k k := by
      intro k
      unfold dotL
      rw [List.zipWith_map]
      simp
    rw [waveOf_neg, inverseLaplacian, inverseLaplacian, this, Complex.conj_ofReal]) mem hmem
  have hlen : ∀ p ∈ waves, p.1.length = t.nmesh.length := fun p hp => (hw p hp).length_eq.symm
  have hflen : ∀ (T : List ℝ → ℂ) (ws : List (List ℤ × ℂ)), (∀ p ∈ ws, p.1.length = t.nmesh.length) →
      ∀ p ∈ filtered box T ws, p.1.length = t.nmesh.length := by
    intro T ws hws p hp
    obtain ⟨q, hq, rfl⟩ := List.mem_map.1 hp
    exact hws q hq
  refine ⟨F, filtered box inverseLaplacian waves, hF, by simp [filtered, Function.comp_def], hr,
    fun d x => planeWaves box (filtered box (fun k => I * k.getD d 0) (filtered box inverseLaplacian waves)) x,
    fun d x => planeWaves box (filtered box (fun k => I * k.getD d 0)
      (filtered box (fun k => I * k.getD d 0) (filtered box inverseLaplacian waves))) x, ?_, ?_⟩
  · intro x hx d hd
    exact ⟨planeWaves_deriv box _ x hd (by rw [hl, hx]) (by rw [hx]; exact hflen _ _ hlen),
      planeWaves_deriv box _ x hd (by rw [hl, hx]) (by rw [hx]; exact hflen _ _ (hflen _ _ hlen))⟩
  · intro x hx
    unfold planeWaves filtered
    simp only [List.map_map]
    rw [list_sum_comm]
    apply congrArg
    apply List.map_congr_left
    intro p hp
    simp only [Function.comp_apply]
    have hwl : (waveOf box p.1).length = t.nmesh.length := by simp [waveOf, hl, hlen p hp]
    have hk : dotL (waveOf box p.1) (waveOf box p.1) ≠ 0 := by
      obtain ⟨z, hz, hz0⟩ := hmean p hp
      obtain ⟨j, hj, e⟩ := List.getElem_of_mem hz
      rw [dotL_eq_sum _ _ rfl]
      apply ne_of_gt
      have hj' : j < (waveOf box p.1).length := by rw [hwl, ← hlen p hp]; exact hj
      have hpos : ∀ d ∈ List.range (waveOf box p.1).length, 0 ≤ (waveOf box p.1).getD d 0 * (waveOf box p.1).getD d 0 :=
        fun d _ => mul_self_nonneg _
      have hle := List.single_le_sum (l := (List.range (waveOf box p.1).length).map
        fun d => (waveOf box p.1).getD d 0 * (waveOf box p.1).getD d 0) (by
          intro y hy
          obtain ⟨d, hd, rfl⟩ := List.mem_map.1 hy
          exact hpos d hd) ((waveOf box p.1).getD j 0 * (waveOf box p.1).getD j 0)
          (List.mem_map.2 ⟨j, List.mem_range.2 hj', rfl⟩)
      refine lt_of_lt_of_le ?_ hle
      apply mul_self_pos.2
      have hjb : j < box.length := by rw [hl, ← hlen p hp]; exact hj
      rw [List.getD_eq_getElem _ _ hj']
      simp only [waveOf, List.getElem_zipWith, e]
      have := (hb _ (List.getElem_mem hjb)).ne'
      have hz' : (z : ℝ) ≠ 0 := by exact_mod_cast hz0
      have := Real.pi_pos.ne'
      positivity
    have hsum : ∀ E : ℂ, ((List.range t.nmesh.length).map fun d =>
        (I * (waveOf box p.1).getD d 0 * (I * (waveOf box p.1).getD d 0 * (inverseLaplacian (waveOf box p.1) * p.2)) * E).re).sum =
        (p.2 * E).re := by
      intro E
      have h1 : ∀ d : ℕ, (I * (waveOf box p.1).getD d 0 *
          (I * (waveOf box p.1).getD d 0 * (inverseLaplacian (waveOf box p.1) * p.2)) * E).re =
          ((p.2 * E).re / dotL (waveOf box p.1) (waveOf box p.1)) * ((waveOf box p.1).getD d 0 * (waveOf box p.1).getD d 0) := by
        intro d
        rw [inverseLaplacian, if_neg hk]
        have : (I * (waveOf box p.1).getD d 0 *
          (I * (waveOf box p.1).getD d 0 * (((-1 / dotL (waveOf box p.1) (waveOf box p.1) : ℝ) : ℂ) * p.2)) * E) =
          (((waveOf box p.1).getD d 0 * (waveOf box p.1).getD d 0 / dotL (waveOf box p.1) (waveOf box p.1) : ℝ) : ℂ) * (p.2 * E) := by
          push_cast
          linear_combination (((waveOf box p.1).getD d 0 : ℂ) ^ 2 * (-1 / (dotL (waveOf box p.1) (waveOf box p.1) : ℂ)) * p.2 * E) * Complex.I_mul_I
        rw [this, Complex.re_ofReal_mul]
        ring
      simp only [h1]
      rw [sum_cmul, ← hwl, ← dotL_eq_sum _ _ rfl]
      field_simp
    exact hsum _

/-! ## Non-trivial cases -/

noncomputable def exWaves : List (List ℤ × ℂ) := [([1, -1], 2 + I), ([0, 1], 3)]

/-- The memory of each rank, in C order, that holds the transform. -/
noncomputable def exSpectrum (r : ℕ) (a : ℤ) : ℂ :=
  r2c [4, 4] (fun g => planeWaves [2, 3] exWaves (pointPos [4, 4] [2, 3] g)) (exTiling.global r [(a / 3).toNat, (a % 3).toNat])

theorem exSpectrum_holds : HoldsTransform exTiling [2, 3] (fun _ => [3, 1]) exSpectrum (planeWaves [2, 3] exWaves) := by
  intro r hr c hc
  have hc2 : c = [c.getD 0 0, c.getD 1 0] ∧ c.getD 1 0 < 3 := by
    have hls : ∃ a, exTiling.lshape r = [a, 3] := by
      unfold exTiling
      by_cases h : r = 0
      · exact ⟨3, by simp [h]⟩
      · exact ⟨1, by simp [h]⟩
    obtain ⟨a, e⟩ := hls
    rw [e] at hc
    cases hc with
    | cons h1 h2 => cases h2 with
      | cons h3 h4 => cases h4; simpa using h3
  obtain ⟨e, h3⟩ := hc2
  rw [e]
  generalize c.getD 0 0 = i, c.getD 1 0 = j at *
  have h1 : ((i : ℤ) * 3 + (j : ℤ) * 1) / 3 = i := by omega
  have h2 : ((i : ℤ) * 3 + (j : ℤ) * 1) % 3 = j := by omega
  simp only [elementAddr, List.zipWith_cons_cons, List.zipWith_nil_left, List.sum_cons, List.sum_nil, add_zero, exSpectrum, h1, h2,
    Int.toNat_natCast]
  rfl

theorem exStored : Stored exTiling (fun _ => [3, 1]) (fun _ => [0, 1]) (fun r => if r = 0 then none else some ([1, 5], fun _ => 7)) where
  ok := exTiling_ok
  dim := by decide
  shape := Or.inr rfl
  proper := by
    intro r hr
    have : r = 0 ∨ r = 1 := by unfold exTiling at hr; simp at hr; omega
    rcases this with rfl | rfl <;> exact proper_of_decide rfl (by decide)
  order := by
    intro r hr
    have : r = 0 ∨ r = 1 := by unfold exTiling at hr; simp at hr; omega
    rcases this with rfl | rfl <;> decide
  out := by
    intro r hr o ho
    have : r = 0 ∨ r = 1 := by unfold exTiling at hr; simp at hr; omega
    rcases this with rfl | rfl
    · simp at ho
    · simp at ho
      subst ho
      exact proper_of_decide rfl (by decide)

theorem exWaves_below : ∀ p ∈ exWaves, BelowNyquist exTiling.nmesh p.1 := by
  unfold exWaves BelowNyquist exTiling
  simp

example := C75_gradient_partial exTiling _ _ _ exStored [2, 3] rfl (by simp) exWaves exWaves_below 1 (by decide) exSpectrum
  exSpectrum_holds

example := C75_poisson_partial exTiling _ _ _ exStored [2, 3] rfl (by simp) exWaves exWaves_below (by simp [exWaves]) exSpectrum
  exSpectrum_holds

/-- A filter that is not real: a displacement by `(1/2, 1)`. -/
example := C75_filter_partial exTiling _ _ _ exStored [2, 3] rfl (by simp) exWaves exWaves_below
  (fun k => exp (I * (k.getD 0 0 / 2 + k.getD 1 0))) (by
    intro p _
    rw [waveOf_neg, ← exp_conj]
    congr 1
    rw [map_mul, conj_I, map_add, map_div₀, conj_ofReal, conj_ofReal, conj_two]
    have : ∀ d, (((waveOf [2, 3] p.1).map fun k => -k).getD d 0) = -((waveOf [2, 3] p.1).getD d 0) := by
      intro d
      rw [List.getD_eq_getElem?_getD, List.getD_eq_getElem?_getD, List.getElem?_map]
      cases (waveOf [2, 3] p.1)[d]? <;> simp
    rw [this, this]
    push_cast
    ring) exSpectrum exSpectrum_holds

/-! ## Meshes of odd size -/

/-- The mesh of three by three points on one rank. -/
def exThree : Tiling := ⟨[3, 3], [3, 2], 1, fun _ => [0, 0], fun _ => [3, 2]⟩

theorem exThree_ok : exThree.OK := tiling_ok_of_decide (by decide)

/-- The modes after multiplication by `i k_0`, for `cos(2πx/3)`. -/
theorem three_modes (k : List ℕ) (hk : ValidIndex [3, 3] k) :
    (fun k : List ℝ => I * (k.getD 0 0 : ℂ)) (codeWave [3, 3] [3, 3] k) *
      r2c [3, 3] (fun g => planeWaves [3, 3] [([1, 0], 1)] (pointPos [3, 3] [3, 3] g)) k =
    if k = [1, 0] then -(2 * Real.pi / 3) * I else if k = [2, 0] then -(Real.pi / 3) * I else 0 := by
  rw [r2c_planeWaves (by simp) (by simp) rfl (by simp) hk]
  have hm : waveCell [3, 3] [1, 0] = [1, 0] := by decide
  have hm' : waveCell [3, 3] ([1, 0].map fun z => -z) = [2, 0] := by decide
  simp only [List.map_cons, List.map_nil, List.sum_cons, List.sum_nil, add_zero]
  rw [show waveCell [3, 3] [-1, -0] = [2, 0] from by decide, hm]
  by_cases h1 : [1, 0] = k
  · subst h1
    simp [codeWave, waveOf, wrapIndex]
    push_cast
    ring
  · by_cases h2 : [2, 0] = k
    · subst h2
      simp [codeWave, waveOf, wrapIndex]
      push_cast
      ring
    · rw [if_neg h1, if_neg h2, if_neg (fun e => h1 e.symm), if_neg (fun e => h2 e.symm)]
      simp

/-- C75 fails on meshes of odd size: with three mesh points per axis the wave `cos(2πx/L)` has one period, fewer than half of
three, and multiplication by `i k_0` gives `-1/2` times its derivative. -/
theorem C75_violated_gradient_odd :
    ∃ (t : Tiling) (strides : ℕ → List ℤ) (order : ℕ → List ℕ) (out : ℕ → Option (List ℤ × (ℤ → ℂ))) (box : List ℝ)
      (mem : ℕ → ℤ → ℂ), Stored t strides order out ∧ t.nmesh = [3, 3] ∧ box = [3, 3] ∧
      HoldsTransform t box strides mem (planeWaves box [([1, 0], 1)]) ∧
      ∀ F, t.Holds (multiplied t box strides order (fun k => I * k.getD 0 0) out mem) F →
        ∃ v, HasDerivAt (fun s => planeWaves box [([1, 0], 1)] ((pointPos t.nmesh box [1, 0]).set 0 s)) v
            ((pointPos t.nmesh box [1, 0]).getD 0 0) ∧ v ≠ 0 ∧ c2r t.nmesh t.cshape F [1, 0] = -v / 2 := by
  have hst : Stored exThree (fun _ => [2, 1]) (fun _ => [0, 1]) (fun _ => none) :=
    ⟨exThree_ok, by decide, Or.inr rfl, fun _ _ => proper_of_decide (shape := [3, 2]) rfl (by decide),
      fun _ _ => List.Perm.refl [0, 1], fun _ _ o ho => by simp at ho⟩
  have hmem : HoldsTransform exThree [3, 3] (fun _ => [2, 1])
      (fun _ a => r2c [3, 3] (fun g => planeWaves [3, 3] [([1, 0], 1)] (pointPos [3, 3] [3, 3] g)) [(a / 2).toNat, (a % 2).toNat])
      (planeWaves [3, 3] [([1, 0], 1)]) := by
    intro r hr c hc
    change ValidIndex [3, 2] c at hc
    cases hc with
    | @cons _ i _ _ h1 h2 => cases h2 with
      | @cons _ j _ _ h3 h4 =>
        cases h4
        have e1 : ((i : ℤ) * 2 + (j : ℤ) * 1) / 2 = i := by omega
        have e2 : ((i : ℤ) * 2 + (j : ℤ) * 1) % 2 = j := by omega
        simp only [elementAddr, List.zipWith_cons_cons, List.zipWith_nil_left, List.sum_cons, List.sum_nil, add_zero, e1, e2,
          Int.toNat_natCast, Tiling.global, exThree, zero_add]
  refine ⟨exThree, _, _, _, [3, 3], _, hst, rfl, rfl, hmem, ?_⟩
  intro F hF
  have hF' : ∀ k, ValidIndex [3, 2] k → F k = if k = [1, 0] then -(2 * Real.pi / 3) * I else if k = [2, 0] then -(Real.pi / 3) * I else 0 := by
    intro k hk
    have h1 := hF 0 (by decide) k hk
    unfold HoldsTransform at hmem
    have h2 := multiplied_holds (mem := fun _ a => r2c [3, 3] (fun g => planeWaves [3, 3] [([1, 0], 1)] (pointPos [3, 3] [3, 3] g))
      [(a / 2).toNat, (a % 2).toNat]) hst (box := [3, 3]) rfl (fun k => I * k.getD 0 0) hmem 0 (by decide) k hk
    have hg : exThree.global 0 k = k := by
      cases hk with
      | cons _ h => cases h with
        | cons _ h => cases h; simp [Tiling.global, exThree]
    rw [hg] at h1 h2
    rw [← h1, h2]
    exact three_modes k (stored_valid (Or.inr rfl) (by simp) (by simp) hk)
  have hv : planeWaves [3, 3] (filtered [3, 3] (fun k => I * k.getD 0 0) [([1, 0], 1)]) (pointPos exThree.nmesh [3, 3] [1, 0]) =
      -(2 * Real.pi / 3) * Real.sin (2 * Real.pi / 3) := by
    have hd : dotL (waveOf [3, 3] [1, 0]) (pointPos exThree.nmesh [3, 3] [1, 0]) = 2 * Real.pi / 3 := by
      simp [dotL, waveOf, pointPos, exThree]
    simp only [planeWaves, filtered, List.map_cons, List.map_nil, List.sum_cons, List.sum_nil, add_zero, mul_one, hd]
    rw [mul_comm I ((2 * Real.pi / 3 : ℝ) : ℂ), exp_mul_I, ← Complex.ofReal_cos, ← Complex.ofReal_sin]
    generalize Real.sin (2 * Real.pi / 3) = S, Real.cos (2 * Real.pi / 3) = C
    have : (I * ((waveOf [3, 3] [1, 0]).getD 0 0 : ℝ) * (C + S * I) : ℂ) =
        ((-(2 * Real.pi / 3) * S : ℝ) : ℂ) + ((2 * Real.pi / 3 * C : ℝ) : ℂ) * I := by
      simp only [waveOf, List.zipWith_cons_cons, List.getD_cons_zero]
      push_cast
      linear_combination ((2 * Real.pi / 3) * S : ℂ) * I_mul_I
    rw [this]
    simp
  have hsin : 0 < Real.sin (2 * Real.pi / 3) := Real.sin_pos_of_pos_of_lt_pi (by positivity) (by linarith [Real.pi_pos])
  refine ⟨_, planeWaves_deriv [3, 3] [([1, 0], 1)] _ (by simp [pointPos, exThree]) rfl (by simp [pointPos, exThree]), ?_, ?_⟩
  · rw [hv]
    have := Real.pi_pos
    intro e
    nlinarith [mul_pos this hsin]
  · rw [hv]
    change c2r [3, 3] [3, 2] F [1, 0] = _
    have hD : ∀ k ∈ ndindex [3, 3], decompress [3, 3] [3, 2] F k * phase [3, 3] k [1, 0] =
        (if k = [1, 0] then -(2 * Real.pi / 3) * I * phase [3, 3] k [1, 0] else 0) +
          if k = [2, 0] then -(Real.pi / 3) * I * phase [3, 3] k [1, 0] else 0 := by
      intro k hk
      have hk := mem_ndindex.1 hk
      have hs : StoredShape [3, 3] [3, 2] := Or.inr rfl
      rw [decompress_stored hs (by simp) hk]
      cases hk with
      | @cons _ i _ _ h1 h => cases h with
        | @cons _ j _ _ h2 h =>
          cases h
          by_cases hj : j < 2
          · have hv : ValidIndex [3, 2] [i, j] := .cons h1 (.cons hj .nil)
            rw [if_pos hv, hF' _ hv]
            by_cases e1 : [i, j] = [1, 0]
            · rw [e1]; simp
            · rw [if_neg e1, if_neg e1]
              split_ifs <;> simp
          · have hv : ¬ ValidIndex [3, 2] [i, j] := by
              intro hv
              cases hv with
              | cons _ h => cases h with
                | cons h _ => exact hj h
            have hj2 : j = 2 := by omega
            subst hj2
            rw [if_neg hv, hF' _ (opposite_stored hs (by simp) (.cons h1 (.cons h2 .nil)) hv)]
            simp [opposite]
    unfold c2r
    have hc1 := sum_single [3, 3] (x := [1, 0]) (by decide) fun k => -(2 * Real.pi / 3) * I * phase [3, 3] k [1, 0]
    have hc2 := sum_single [3, 3] (x := [2, 0]) (by decide) fun k => -(Real.pi / 3) * I * phase [3, 3] k [1, 0]
    simp only [eq_comm (a := ([1, 0] : List ℕ)), eq_comm (a := ([2, 0] : List ℕ))] at hc1 hc2
    rw [dftBackward_eq, List.map_congr_left hD, List.sum_map_add, hc1, hc2]
    have hp1 : phase [3, 3] [1, 0] [1, 0] = exp (((2 * Real.pi / 3 : ℝ) : ℂ) * I) := by
      unfold phase phaseArg phaseArg phaseArg
      congr 1
      push_cast
      ring
    have hp2 : phase [3, 3] [2, 0] [1, 0] = (starRingEnd ℂ) (exp (((2 * Real.pi / 3 : ℝ) : ℂ) * I)) := by
      rw [← hp1]
      exact phase_opposite (k := [1, 0]) (by decide) [1, 0]
    rw [hp1, hp2, exp_mul_I, ← Complex.ofReal_cos, ← Complex.ofReal_sin]
    generalize Real.sin (2 * Real.pi / 3) = S, Real.cos (2 * Real.pi / 3) = C
    rw [map_add, map_mul, conj_I, conj_ofReal, conj_ofReal]
    have : (-(2 * Real.pi / 3) * I * (C + S * I) + -(Real.pi / 3) * I * (C + S * -I) : ℂ) =
        ((Real.pi / 3 * S : ℝ) : ℂ) + ((-(Real.pi * C) : ℝ) : ℂ) * I := by
      push_cast
      linear_combination (-(Real.pi / 3) * S : ℂ) * I_mul_I
    rw [this]
    simp
    ring

#print axioms C75_filter_partial
#print axioms C75_gradient_partial
#print axioms C75_poisson_partial
#print axioms C75_violated_gradient_odd

end Pmesh
