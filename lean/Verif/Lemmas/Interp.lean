import Verif.Lemmas.Regrid
import Verif.Lemmas.WindowBounds
import Verif.Spec.Interp
import Mathlib.Algebra.BigOperators.Ring.Finset
import Mathlib.Algebra.Order.BigOperators.Group.Finset

/-! # Weighted means over a stencil and their moments -/

set_option linter.unusedSectionVars false

namespace Pmesh

section
variable {K : Type} [Field K] [LinearOrder K] [IsStrictOrderedRing K] [FloorRing K]

/-- Weighted sum of `G` over the cells of a product of stencils. -/
def expect : List (List (ℤ × K)) → (List ℤ → K) → K
  | [], G => G []
  | st :: sts, G => (st.map fun p => p.2 * expect sts fun c => G (p.1 :: c)).sum

theorem expect_congr : ∀ (sts : List (List (ℤ × K))) {G H : List ℤ → K}, (∀ c, c.length = sts.length → G c = H c) →
    expect sts G = expect sts H
  | [], _, _, h => h [] rfl
  | st :: sts, G, H, h => by
    simp only [expect]
    congr 1
    apply List.map_congr_left
    intro p _
    rw [expect_congr sts fun c hc => h (p.1 :: c) (by simp [hc])]

theorem sum_expect : ∀ (shape : List ℕ) (sts : List (List (ℤ × K))), sts.length = shape.length →
    (∀ i (h : i < sts.length) (h' : i < shape.length), ∀ p ∈ sts[i], 0 ≤ p.1 ∧ p.1 < (shape[i] : ℤ)) → ∀ G : List ℤ → K,
    ((ndindex shape).map fun c => cwProd sts c * G (c.map (Nat.cast : ℕ → ℤ))).sum = expect sts G
  | [], [], _, _, G => by simp [ndindex, cwProd, expect]
  | n :: ns, st :: sts, hl, h, G => by
    have ih := sum_expect ns sts (by simpa using hl)
      (fun i h1 h2 => h (i + 1) (by simpa using h1) (by simpa using h2))
    have h0 := h 0 (by simp) (by simp)
    simp only [List.getElem_cons_zero] at h0
    simp only [ndindex, expect]
    rw [sum_flatMap', ← sum_cw_all n st h0 (fun i => expect sts fun c => G (i :: c))]
    congr 1
    apply List.map_congr_left
    intro d _
    rw [← ih, List.map_map, ← sum_mul_left']
    congr 1
    apply List.map_congr_left
    intro c _
    simp only [Function.comp, cwProd, List.map_cons]
    ring

theorem expect_map (u : ℕ → ℤ → ℤ) : ∀ (sts : List (List (ℤ × K))) (k : ℕ) (G : List ℤ → K),
    expect (sts.mapIdx fun j st => st.map fun p => (u (k + j) p.1, p.2)) G =
      expect sts fun c => G (c.mapIdx fun j i => u (k + j) i)
  | [], k, G => by simp [expect]
  | st :: sts, k, G => by
    simp only [List.mapIdx_cons, expect, List.map_map, add_zero]
    congr 1
    apply List.map_congr_left
    intro p _
    simp only [Function.comp]
    have := expect_map u sts (k + 1) (fun c => G (u k p.1 :: c))
    simp only [Nat.add_assoc, Nat.add_comm 1] at this
    rw [this]

theorem expect_mono : ∀ (sts : List (List (ℤ × K))), (∀ st ∈ sts, ∀ p ∈ st, 0 ≤ p.2) → ∀ {G H : List ℤ → K},
    (∀ c, c.length = sts.length → (∀ i (h : i < c.length) (h' : i < sts.length), c[i] ∈ sts[i].map Prod.fst) → G c ≤ H c) →
      expect sts G ≤ expect sts H
  | [], _, _, _, h => h [] rfl (by simp)
  | st :: sts, hn, G, H, h => by
    simp only [expect]
    apply List.sum_le_sum
    intro p hp
    apply mul_le_mul_of_nonneg_left _ (hn st (by simp) p hp)
    apply expect_mono sts fun s hs => hn s (by simp [hs])
    intro c hc hm
    apply h _ (by simp [hc])
    intro i h1 h2
    cases i with
    | zero => simpa using ⟨p.2, hp⟩
    | succ i => simpa using hm i (by simpa using h1) (by simpa using h2)

/-- The mean of a sum of functions of one coordinate each. -/
theorem expect_additive : ∀ (sts : List (List (ℤ × K))), (∀ st ∈ sts, (st.map Prod.snd).sum = 1) → ∀ (a : K) (g : ℕ → ℤ → K),
    expect sts (fun c => a + ∑ j ∈ Finset.range sts.length, g j (c.getD j 0)) =
      a + ∑ j ∈ Finset.range sts.length, ((sts.getD j []).map fun p => p.2 * g j p.1).sum
  | [], _, a, g => by simp [expect]
  | st :: sts, h, a, g => by
    simp only [expect, List.length_cons, Finset.sum_range_succ', List.getD_cons_zero, List.getD_cons_succ]
    have : ∀ p : ℤ × K, expect sts (fun c => a + (∑ j ∈ Finset.range sts.length, g (j + 1) (c.getD j 0) + g 0 p.1)) =
        a + g 0 p.1 + ∑ j ∈ Finset.range sts.length, ((sts.getD j []).map fun p => p.2 * g (j + 1) p.1).sum := by
      intro p
      rw [← expect_additive sts (fun s hs => h s (by simp [hs])) (a + g 0 p.1) (fun j => g (j + 1))]
      apply expect_congr
      intro c _
      ring
    simp only [this]
    have h1 : (st.map fun p => p.2 * (a + g 0 p.1 + ∑ j ∈ Finset.range sts.length, ((sts.getD j []).map fun p => p.2 * g (j + 1) p.1).sum)) =
        st.map fun p => (a + ∑ j ∈ Finset.range sts.length, ((sts.getD j []).map fun p => p.2 * g (j + 1) p.1).sum) * p.2 + p.2 * g 0 p.1 := by
      apply List.map_congr_left
      intro p _
      ring
    rw [h1, sum_map_add, sum_mul_left', h st (by simp)]
    ring

/-! ### moments of the windows -/

/-- The stencil of one axis before the periodic wrapping. -/
def rawStencil (t : Tuned) (ax : PAxis K) (x : K) : List (ℤ × K) := List.zip (tunedSetup t ax x).1 (tunedSetup t ax x).2

theorem rawStencil_wrap (t : Tuned) (ax : PAxis K) (x : K) :
    tunedStencil t ax x = (rawStencil t ax x).map fun p => (genWrap ax.period p.1, p.2) := by
  unfold tunedStencil rawStencil
  rw [List.zip_map_left]
  apply List.map_congr_left
  rintro ⟨a, b⟩ _
  simp [tunedWrap_eq]

theorem rawStencil_nonneg (t : Tuned) (ax : PAxis K) (ho : ax.order = 0) (x : K) : ∀ p ∈ rawStencil t ax x, 0 ≤ p.2 := by
  intro p hp
  have := tunedStencil_nonneg t ax ho x
  rw [rawStencil_wrap] at this
  exact this (genWrap ax.period p.1, p.2) (List.mem_map.2 ⟨p, hp, rfl⟩)

theorem rawStencil_sum (t : Tuned) (ax : PAxis K) (ho : ax.order = 0) (x : K) : ((rawStencil t ax x).map Prod.snd).sum = 1 := by
  cases t <;> simp only [rawStencil, tunedSetup, ho, if_true, List.zip_cons_cons, List.zip_nil_right, List.map_cons, List.map_nil,
    List.sum_cons, List.sum_nil] <;> push_cast <;> ring

theorem rawStencil_first (t : Tuned) (ht : t ≠ .nnb) (ax : PAxis K) (ho : ax.order = 0) (x : K) :
    ((rawStencil t ax x).map fun p => p.2 * ((p.1 : K) - ax.grid x)).sum = 0 := by
  cases t
  · exact absurd rfl ht
  all_goals
    simp only [rawStencil, tunedSetup, ho, if_true, List.zip_cons_cons, List.zip_nil_right, List.map_cons, List.map_nil,
      List.sum_cons, List.sum_nil]
    push_cast
    ring

theorem rawStencil_second (t : Tuned) (ax : PAxis K) (ho : ax.order = 0) (x : K) :
    ((rawStencil t ax x).map fun p => p.2 * ((p.1 : K) - ax.grid x) ^ 2).sum ≤ windowVariance t := by
  cases t
  · simp only [rawStencil, tunedSetup, ho, if_true, List.zip_cons_cons, List.zip_nil_right, List.map_cons, List.map_nil,
      List.sum_cons, List.sum_nil, windowVariance]
    have f3 := Int.floor_le (ax.grid x + 1 / 2)
    have f4 := Int.lt_floor_add_one (ax.grid x + 1 / 2)
    nlinarith
  · simp only [rawStencil, tunedSetup, ho, if_true, List.zip_cons_cons, List.zip_nil_right, List.map_cons, List.map_nil,
      List.sum_cons, List.sum_nil, windowVariance]
    push_cast
    nlinarith [sq_nonneg (ax.grid x - ⌊ax.grid x⌋ - 1 / 2)]
  · simp only [rawStencil, tunedSetup, ho, if_true, List.zip_cons_cons, List.zip_nil_right, List.map_cons, List.map_nil,
      List.sum_cons, List.sum_nil, windowVariance]
    push_cast
    apply le_of_eq
    ring
  · simp only [rawStencil, tunedSetup, ho, if_true, List.zip_cons_cons, List.zip_nil_right, List.map_cons, List.map_nil,
      List.sum_cons, List.sum_nil, windowVariance]
    push_cast
    apply le_of_eq
    ring

theorem rawStencil_near (t : Tuned) (ax : PAxis K) (x : K) : ∀ i ∈ (rawStencil t ax x).map Prod.fst,
    |(i : K) - ax.grid x| ≤ ((Tuned.kern t : Kern K).native : K) / 2 := by
  intro i hi
  obtain ⟨p, hp, rfl⟩ := List.mem_map.1 hi
  have hp := (List.of_mem_zip hp).1
  have f1 := Int.floor_le (ax.grid x)
  have f2 := Int.lt_floor_add_one (ax.grid x)
  have f3 := Int.floor_le (ax.grid x + 1 / 2)
  have f4 := Int.lt_floor_add_one (ax.grid x + 1 / 2)
  rw [abs_le]
  cases t <;> simp only [tunedSetup, List.mem_cons, List.not_mem_nil, or_false] at hp <;>
    simp only [Tuned.kern, nearestK, linearK, quadraticK, cubicK]
  · rw [hp]; push_cast; constructor <;> linarith
  · rcases hp with hp | hp <;> rw [hp] <;> push_cast <;> constructor <;> linarith
  · rcases hp with hp | hp | hp <;> rw [hp] <;> push_cast <;> constructor <;> linarith
  · rcases hp with hp | hp | hp | hp <;> rw [hp] <;> push_cast <;> constructor <;> linarith

/-! ### the mean over the periodic mesh -/

/-- Axis `j` of the painter of a single process. -/
def meshAxis (m : PMesh K) (st : List ℤ) (j : ℕ) : PAxis K :=
  ⟨0, m.scale.getD j 0, 0, m.nmesh.getD j 0, m.nmesh.getD j 0, st.getD j 0⟩

theorem serial_axes (m : PMesh K) (st : List ℤ) (w : Resampler K) :
    ((m.serial st).painter w none 0).axes = (List.range m.nmesh.length).map (meshAxis m st) := by
  have hs := serial_localShape m st
  simp only [PMesh.painter]
  apply List.map_congr_left
  intro j hj
  have h0 : ((m.serial st).start 0).getD j 0 = 0 := by
    have hj : j < m.nmesh.length := by simpa [PMesh.serial] using hj
    simp only [PMesh.start, PMesh.serial]
    rw [List.getD_eq_getElem _ _ (by simpa using hj)]
    simp
  rw [h0, hs]
  simp [meshAxis, PMesh.serial, PMesh.scale]

/-- The stencils around `x` before wrapping. -/
def rawStencils (m : PMesh K) (st : List ℤ) (kind : Tuned) (x : List K) : List (List (ℤ × K)) :=
  (List.range m.nmesh.length).map fun j => rawStencil kind (meshAxis m st j) (x.getD j 0)

theorem mean_eq {m : PMesh K} (hm : m.OK) (st : List ℤ) {w : Resampler K} (hw : w.Valid) {kind : Tuned}
    (hk : w.kern = Tuned.kern kind) (hsup : w.support = w.kern.native) {x : List K} (hx : x.length = m.nmesh.length)
    (G : List ℤ → K) (hG : ∀ c : List ℤ, c.length = m.nmesh.length →
      G (c.mapIdx fun j i => genWrap (m.nmesh.getD j 0) i) = G c) :
    ((ndindex m.nmesh).map fun g =>
        cwProd (List.zipWith (axisStencil ((m.serial st).painter w none 0) 1) ((m.serial st).painter w none 0).axes x) g *
          G (g.map (Nat.cast : ℕ → ℤ))).sum = expect (rawStencils m st kind x) G := by
  have hv := painter_valid (m := m.serial st) hw hm.dim none 0
  have hws : windowSize ((m.serial st).painter w none 0) 1 = ((m.serial st).painter w none 0).kern.native := by
    unfold windowSize
    simp only [PMesh.painter, hsup, mul_one, ite_self]
  have e : List.zipWith (axisStencil ((m.serial st).painter w none 0) 1) ((m.serial st).painter w none 0).axes x =
      (rawStencils m st kind x).mapIdx fun j s => s.map fun p => (genWrap (m.nmesh.getD j 0) p.1, p.2) := by
    rw [serial_axes]
    apply List.ext_getElem
    · simp [rawStencils, hx]
    · intro i h1 h2
      simp only [rawStencils, List.length_mapIdx, List.length_map, List.length_range] at h2
      simp only [List.getElem_zipWith, List.getElem_map, List.getElem_range, List.getElem_mapIdx, rawStencils]
      rw [axisStencil_native hv kind hk 1 hws _ rfl, rawStencil_wrap, List.getD_eq_getElem (l := x) _ (by omega)]
      rfl
  rw [e, sum_expect]
  · have := expect_map (fun j i => genWrap (m.nmesh.getD j 0) i) (rawStencils m st kind x) 0 G
    simp only [Nat.zero_add] at this
    rw [this]
    apply expect_congr
    intro c hc
    exact hG c (by simpa [rawStencils] using hc)
  · simp [rawStencils]
  · intro i h1 h2 p hp
    simp only [List.getElem_mapIdx, List.mem_map] at hp
    obtain ⟨q, _, rfl⟩ := hp
    have hpos := hm.nmesh_pos h2
    rw [List.getD_eq_getElem _ _ h2] at hpos
    simp only
    rw [List.getD_eq_getElem _ _ h2]
    exact genWrap_range _ hpos _

/-- Position of the cell `c`, which may lie outside the box. -/
def posZ (m : PMesh K) (c : List ℤ) : List K := (List.range m.nmesh.length).map fun j => (c.getD j 0 : K) * m.cell j

theorem posZ_len (m : PMesh K) (c : List ℤ) : (posZ m c).length = m.nmesh.length := by simp [posZ]

theorem posZ_getD (m : PMesh K) (c : List ℤ) {j : ℕ} (hj : j < m.nmesh.length) : (posZ m c).getD j 0 = (c.getD j 0 : K) * m.cell j := by
  rw [List.getD_eq_getElem _ _ (by simpa [posZ] using hj)]
  simp [posZ]

theorem cellPosition_posZ (m : PMesh K) (c : List ℕ) : cellPosition m c = posZ m (c.map (Nat.cast : ℕ → ℤ)) := by
  unfold cellPosition posZ PMesh.cell
  apply List.map_congr_left
  intro j _
  congr 1
  simp only [List.getD_eq_getElem?_getD, List.getElem?_map]
  cases c[j]? <;> simp

theorem PMesh.OK.scale_cell {m : PMesh K} (hm : m.OK) {j : ℕ} (hj : j < m.nmesh.length) :
    0 < m.cell j ∧ m.scale.getD j 0 * m.cell j = 1 ∧ ((m.nmesh.getD j 0 : ℕ) : K) * m.cell j = m.box.getD j 0 := by
  have hb : 0 < m.box.getD j 0 := by
    rw [List.getD_eq_getElem _ _ (by rw [hm.box_len]; exact hj)]
    exact hm.box_pos _ (List.getElem_mem _)
  have hn : (0 : K) < (m.nmesh.getD j 0 : ℕ) := by exact_mod_cast hm.nmesh_pos hj
  refine ⟨div_pos hb hn, ?_, ?_⟩
  · unfold PMesh.scale PMesh.cell
    rw [List.getD_eq_getElem (l := List.zipWith _ _ _) _ (by simp [hm.box_len, hj])]
    rw [List.getElem_zipWith]
    rw [List.getD_eq_getElem _ _ hj, List.getD_eq_getElem _ _ (by rw [hm.box_len]; exact hj)] at *
    field_simp
  · unfold PMesh.cell
    field_simp

theorem posZ_periodic {m : PMesh K} (hm : m.OK) {φ : List K → K} (hφ : BoxPeriodic m.box φ) (c : List ℤ)
    (hc : c.length = m.nmesh.length) :
    φ (posZ m (c.mapIdx fun j i => genWrap (m.nmesh.getD j 0) i)) = φ (posZ m c) := by
  apply hφ
  · rw [posZ_len, hm.box_len]
  · rw [posZ_len, hm.box_len]
  · intro j hj
    rw [hm.box_len] at hj
    refine ⟨-(c.getD j 0 / (m.nmesh.getD j 0 : ℕ)), ?_⟩
    rw [posZ_getD m _ hj, posZ_getD m _ hj, ← (hm.scale_cell hj).2.2]
    have e : (c.mapIdx fun j i => genWrap (m.nmesh.getD j 0) i).getD j 0 =
        c.getD j 0 - (m.nmesh.getD j 0 : ℕ) * (c.getD j 0 / (m.nmesh.getD j 0 : ℕ)) := by
      rw [List.getD_eq_getElem _ _ (by simpa [hc] using hj), List.getElem_mapIdx,
        List.getD_eq_getElem (l := c) _ (by omega)]
      have hp := hm.nmesh_pos hj
      unfold genWrap
      rw [if_pos hp, wrapLoop_eq (by omega), Int.emod_def]
    rw [e]
    push_cast
    ring

theorem meshAxis_dist {m : PMesh K} (hm : m.OK) (st : List ℤ) {j : ℕ} (hj : j < m.nmesh.length) (x : K) (i : ℤ) :
    (i : K) * m.cell j - x = ((i : K) - (meshAxis m st j).grid x) * m.cell j := by
  have h := (hm.scale_cell hj).2.1
  simp only [PAxis.grid, meshAxis, add_zero]
  rw [sub_mul, mul_assoc, h, mul_one]

theorem rawStencils_getD (m : PMesh K) (st : List ℤ) (kind : Tuned) (x : List K) {j : ℕ} (hj : j < m.nmesh.length) :
    (rawStencils m st kind x).getD j [] = rawStencil kind (meshAxis m st j) (x.getD j 0) := by
  unfold rawStencils
  rw [List.getD_eq_getElem _ _ (by simpa using hj)]
  simp

theorem rawStencils_mem {m : PMesh K} {st : List ℤ} {kind : Tuned} {x : List K} {s : List (ℤ × K)} (hs : s ∈ rawStencils m st kind x) :
    ∃ j, s = rawStencil kind (meshAxis m st j) (x.getD j 0) := by
  obtain ⟨j, _, rfl⟩ := List.mem_map.1 hs
  exact ⟨j, rfl⟩

/-- The mean of a function that is close to a quadratic one. -/
theorem mean_quadratic {m : PMesh K} (hm : m.OK) (st : List ℤ) {kind : Tuned} (hk : kind ≠ .nnb) (x : List K) (a : K) (g M : ℕ → K) :
    expect (rawStencils m st kind x) (fun c => a + ∑ j ∈ Finset.range m.nmesh.length,
      (g j * ((c.getD j 0 : K) * m.cell j - x.getD j 0) + M j * ((c.getD j 0 : K) * m.cell j - x.getD j 0) ^ 2)) =
    a + ∑ j ∈ Finset.range m.nmesh.length, M j * m.cell j ^ 2 *
      ((rawStencil kind (meshAxis m st j) (x.getD j 0)).map fun p => p.2 * ((p.1 : K) - (meshAxis m st j).grid (x.getD j 0)) ^ 2).sum := by
  have h := expect_additive (rawStencils m st kind x) (fun s hs => by
    obtain ⟨j, rfl⟩ := rawStencils_mem hs
    exact rawStencil_sum kind _ rfl _) a (fun j i =>
      g j * ((i : K) * m.cell j - x.getD j 0) + M j * ((i : K) * m.cell j - x.getD j 0) ^ 2)
  have hl : (rawStencils m st kind x).length = m.nmesh.length := by simp [rawStencils]
  rw [hl] at h
  refine h.trans ?_
  congr 1
  apply Finset.sum_congr rfl
  intro j hj
  rw [Finset.mem_range] at hj
  rw [rawStencils_getD m st kind x hj]
  have e : ((rawStencil kind (meshAxis m st j) (x.getD j 0)).map fun p => p.2 *
      (g j * ((p.1 : K) * m.cell j - x.getD j 0) + M j * ((p.1 : K) * m.cell j - x.getD j 0) ^ 2)) =
      ((rawStencil kind (meshAxis m st j) (x.getD j 0)).map fun p =>
        (g j * m.cell j) * (p.2 * ((p.1 : K) - (meshAxis m st j).grid (x.getD j 0))) +
        (M j * m.cell j ^ 2) * (p.2 * ((p.1 : K) - (meshAxis m st j).grid (x.getD j 0)) ^ 2)) := by
    apply List.map_congr_left
    intro p _
    rw [meshAxis_dist hm st hj]
    ring
  rw [e, sum_map_add, sum_mul_left', sum_mul_left', rawStencil_first kind hk _ rfl]
  ring

theorem rawStencils_nonneg (m : PMesh K) (st : List ℤ) (kind : Tuned) (x : List K) : ∀ s ∈ rawStencils m st kind x, ∀ p ∈ s, 0 ≤ p.2 := by
  intro s hs
  obtain ⟨j, rfl⟩ := rawStencils_mem hs
  exact rawStencil_nonneg kind _ rfl _

theorem mean_second_order {m : PMesh K} (hm : m.OK) (st : List ℤ) {kind : Tuned} (hk : kind ≠ .nnb) {x : List K}
    (hx : x.length = m.nmesh.length) {φ : List K → K} {M : List K} (hM : ∀ b ∈ M, 0 ≤ b) (hφ : BoundedCurvature φ M x) :
    |expect (rawStencils m st kind x) (fun c => φ (posZ m c)) - φ x| ≤
      1 / 2 * windowVariance kind * ∑ j ∈ Finset.range m.nmesh.length, M.getD j 0 * m.cell j ^ 2 := by
  obtain ⟨g, hg⟩ := hφ
  rw [hx] at hg
  have hM' : ∀ j, 0 ≤ M.getD j 0 := by
    intro j
    by_cases hj : j < M.length
    · rw [List.getD_eq_getElem _ _ hj]; exact hM _ (List.getElem_mem _)
    · rw [List.getD_eq_default _ _ (by omega)]
  have key : ∀ c : List ℤ, |φ (posZ m c) - φ x - ∑ j ∈ Finset.range m.nmesh.length, g.getD j 0 * ((c.getD j 0 : K) * m.cell j - x.getD j 0)| ≤
      ∑ j ∈ Finset.range m.nmesh.length, (M.getD j 0 / 2) * ((c.getD j 0 : K) * m.cell j - x.getD j 0) ^ 2 := by
    intro c
    have h := hg (posZ m c) (posZ_len m c)
    have e1 : ∑ j ∈ Finset.range m.nmesh.length, g.getD j 0 * ((posZ m c).getD j 0 - x.getD j 0) =
        ∑ j ∈ Finset.range m.nmesh.length, g.getD j 0 * ((c.getD j 0 : K) * m.cell j - x.getD j 0) :=
      Finset.sum_congr rfl fun j hj => by rw [posZ_getD m c (Finset.mem_range.1 hj)]
    have e2 : 1 / 2 * ∑ j ∈ Finset.range m.nmesh.length, M.getD j 0 * ((posZ m c).getD j 0 - x.getD j 0) ^ 2 =
        ∑ j ∈ Finset.range m.nmesh.length, (M.getD j 0 / 2) * ((c.getD j 0 : K) * m.cell j - x.getD j 0) ^ 2 := by
      rw [Finset.mul_sum]
      exact Finset.sum_congr rfl fun j hj => by rw [posZ_getD m c (Finset.mem_range.1 hj)]; ring
    rwa [e1, e2] at h
  have hn := rawStencils_nonneg m st kind x
  have hU := mean_quadratic hm st hk x (φ x) (fun j => g.getD j 0) (fun j => M.getD j 0 / 2)
  have hL := mean_quadratic hm st hk x (φ x) (fun j => g.getD j 0) (fun j => -(M.getD j 0 / 2))
  have hB : ∑ j ∈ Finset.range m.nmesh.length, M.getD j 0 / 2 * m.cell j ^ 2 *
      ((rawStencil kind (meshAxis m st j) (x.getD j 0)).map fun p => p.2 * ((p.1 : K) - (meshAxis m st j).grid (x.getD j 0)) ^ 2).sum ≤
      1 / 2 * windowVariance kind * ∑ j ∈ Finset.range m.nmesh.length, M.getD j 0 * m.cell j ^ 2 := by
    rw [Finset.mul_sum]
    apply Finset.sum_le_sum
    intro j _
    have h1 := rawStencil_second kind (meshAxis m st j) rfl (x.getD j 0)
    have h2 : 0 ≤ M.getD j 0 / 2 * m.cell j ^ 2 := by have := hM' j; positivity
    calc _ ≤ M.getD j 0 / 2 * m.cell j ^ 2 * windowVariance kind := mul_le_mul_of_nonneg_left h1 h2
      _ = _ := by ring
  obtain ⟨S, hS⟩ : ∃ S, S = ∑ j ∈ Finset.range m.nmesh.length, M.getD j 0 / 2 * m.cell j ^ 2 *
      ((rawStencil kind (meshAxis m st j) (x.getD j 0)).map fun p => p.2 * ((p.1 : K) - (meshAxis m st j).grid (x.getD j 0)) ^ 2).sum :=
    ⟨_, rfl⟩
  rw [← hS] at hU hB
  simp only [neg_mul] at hL
  rw [Finset.sum_neg_distrib, ← hS] at hL
  have hup : expect (rawStencils m st kind x) (fun c => φ (posZ m c)) ≤ φ x + S := by
    refine le_trans (expect_mono _ hn (fun c _ _ => ?_)) (le_of_eq hU)
    have := (abs_le.1 (key c)).2
    rw [Finset.sum_add_distrib]
    linarith
  have hlo : φ x + -S ≤ expect (rawStencils m st kind x) (fun c => φ (posZ m c)) := by
    refine le_trans (le_of_eq hL.symm) (expect_mono _ hn (fun c _ _ => ?_))
    have := (abs_le.1 (key c)).1
    rw [Finset.sum_add_distrib, Finset.sum_neg_distrib]
    linarith
  rw [abs_le]
  constructor <;> linarith

theorem mean_first_order {m : PMesh K} (hm : m.OK) (st : List ℤ) (kind : Tuned) {x : List K}
    (hx : x.length = m.nmesh.length) {φ : List K → K} {M : List K} (hM : ∀ b ∈ M, 0 ≤ b) (hφ : BoundedSlope φ M x) :
    |expect (rawStencils m st kind x) (fun c => φ (posZ m c)) - φ x| ≤
      ((Tuned.kern kind : Kern K).native : K) / 2 * ∑ j ∈ Finset.range m.nmesh.length, M.getD j 0 * m.cell j := by
  have hl : (rawStencils m st kind x).length = m.nmesh.length := by simp [rawStencils]
  have hM' : ∀ j, 0 ≤ M.getD j 0 := by
    intro j
    by_cases hj : j < M.length
    · rw [List.getD_eq_getElem _ _ hj]; exact hM _ (List.getElem_mem _)
    · rw [List.getD_eq_default _ _ (by omega)]
  have key : ∀ c : List ℤ, c.length = (rawStencils m st kind x).length →
      (∀ i (h : i < c.length) (h' : i < (rawStencils m st kind x).length), c[i] ∈ (rawStencils m st kind x)[i].map Prod.fst) →
      |φ (posZ m c) - φ x| ≤ ((Tuned.kern kind : Kern K).native : K) / 2 * ∑ j ∈ Finset.range m.nmesh.length, M.getD j 0 * m.cell j := by
    intro c hc hmem
    have h := hφ (posZ m c) (by rw [posZ_len, hx])
    rw [hx] at h
    refine h.trans ?_
    rw [Finset.mul_sum]
    apply Finset.sum_le_sum
    intro j hj
    rw [Finset.mem_range] at hj
    rw [posZ_getD m c hj, meshAxis_dist hm st hj, abs_mul, abs_of_pos (hm.scale_cell hj).1]
    have hi := hmem j (by omega) (by omega)
    have e : (rawStencils m st kind x)[j]'(by omega) = rawStencil kind (meshAxis m st j) (x.getD j 0) := by simp [rawStencils]
    rw [e] at hi
    have h1 := rawStencil_near kind (meshAxis m st j) (x.getD j 0) _ hi
    rw [List.getD_eq_getElem (l := c) _ (by omega)]
    have h2 : 0 ≤ M.getD j 0 * m.cell j := mul_nonneg (hM' j) (hm.scale_cell hj).1.le
    calc _ = M.getD j 0 * m.cell j * |((c[j]'(by omega) : ℤ) : K) - (meshAxis m st j).grid (x.getD j 0)| := by ring
      _ ≤ M.getD j 0 * m.cell j * (((Tuned.kern kind : Kern K).native : K) / 2) := mul_le_mul_of_nonneg_left h1 h2
      _ = _ := by ring
  have hconst : ∀ a : K, expect (rawStencils m st kind x) (fun _ => a) = a := by
    intro a
    have h := expect_additive (rawStencils m st kind x) (fun s hs => by
      obtain ⟨j, rfl⟩ := rawStencils_mem hs
      exact rawStencil_sum kind _ rfl _) a (fun _ _ => 0)
    simpa using h
  have hn := rawStencils_nonneg m st kind x
  obtain ⟨B, hB⟩ : ∃ B, B = ((Tuned.kern kind : Kern K).native : K) / 2 * ∑ j ∈ Finset.range m.nmesh.length, M.getD j 0 * m.cell j := ⟨_, rfl⟩
  rw [← hB] at key ⊢
  have hup : expect (rawStencils m st kind x) (fun c => φ (posZ m c)) ≤ φ x + B := by
    refine le_trans (expect_mono _ hn (fun c h1 h2 => ?_)) (le_of_eq (hconst _))
    have := (abs_le.1 (key c h1 h2)).2
    linarith
  have hlo : φ x - B ≤ expect (rawStencils m st kind x) (fun c => φ (posZ m c)) := by
    refine le_trans (le_of_eq (hconst _).symm) (expect_mono _ hn (fun c h1 h2 => ?_))
    have := (abs_le.1 (key c h1 h2)).1
    linarith
  rw [abs_le]
  constructor <;> linarith

end
end Pmesh
