import Verif.Spec.Mesh
import Verif.Lemmas.Paint
import Verif.Lemmas.Load

set_option linter.unusedSectionVars false

namespace Pmesh
section
variable {K : Type} [Field K] [LinearOrder K] [IsStrictOrderedRing K] [FloorRing K]

theorem validIndex_iff {shape c : List ℕ} :
    ValidIndex shape c ↔ c.length = shape.length ∧ ∀ j < shape.length, c.getD j 0 < shape.getD j 0 := by
  unfold ValidIndex
  induction shape generalizing c with
  | nil => cases c <;> simp
  | cons n ns ih =>
    cases c with
    | nil => simp
    | cons d ds =>
      rw [List.forall₂_cons, ih]
      simp only [List.length_cons, Nat.add_right_cancel_iff]
      constructor
      · rintro ⟨h1, h2, h3⟩
        refine ⟨h2, fun j hj => ?_⟩
        cases j with
        | zero => simpa using h1
        | succ j => simpa using h3 j (by omega)
      · rintro ⟨h1, h2⟩
        exact ⟨by simpa using h2 0 (by omega), h1, fun j hj => by simpa using h2 (j + 1) (by omega)⟩

theorem getD_zipWith {α β γ : Type*} (f : α → β → γ) (l : List α) (l' : List β) (a : α) (b : β) (c : γ) (j : ℕ)
    (h : j < l.length) (h' : j < l'.length) : (List.zipWith f l l').getD j c = f (l.getD j a) (l'.getD j b) := by
  rw [List.getD_eq_getElem _ _ (by simp; omega), List.getD_eq_getElem _ _ h, List.getD_eq_getElem _ _ h']
  simp

theorem getD_map_range {α : Type*} (f : ℕ → α) (n j : ℕ) (a : α) (h : j < n) : ((List.range n).map f).getD j a = f j := by
  rw [List.getD_eq_getElem _ _ (by simpa using h)]; simp

theorem getD_map' {α β : Type*} (f : α → β) (l : List α) (a : α) (b : β) (j : ℕ) (h : j < l.length) :
    (l.map f).getD j b = f (l.getD j a) := by
  rw [List.getD_eq_getElem _ _ (by simpa using h), List.getD_eq_getElem _ _ h]; simp

/-- Basic facts about the lengths. -/
theorem PMesh.OK.edges_len {m : PMesh K} (h : m.OK) : m.edges.length = m.nmesh.length := h.edges.length_eq.symm

theorem forall₂_getD {α β : Type*} {R : α → β → Prop} {l : List α} {l' : List β} (h : List.Forall₂ R l l') (a : α) (b : β)
    (j : ℕ) (hj : j < l.length) : R (l.getD j a) (l'.getD j b) := by
  induction h generalizing j with
  | nil => simp at hj
  | cons h1 _ ih =>
    cases j with
    | zero => simpa using h1
    | succ j => simpa using ih j (by simpa using hj)

theorem PMesh.OK.slab {m : PMesh K} (h : m.OK) {j : ℕ} (hj : j < m.nmesh.length) :
    SlabEdges (m.nmesh.getD j 0) (m.edges.getD j []) := forall₂_getD h.edges 0 [] j hj

theorem PMesh.OK.coord_len {m : PMesh K} (h : m.OK) {r : ℕ} (hr : r < m.nrank) : (m.coord r).length = m.nmesh.length := by
  have := (validIndex_iff.1 (h.coord_valid r hr)).1
  rw [this, PMesh.shape, List.length_map, h.edges_len]

theorem PMesh.OK.coord_lt {m : PMesh K} (h : m.OK) {r : ℕ} (hr : r < m.nrank) {j : ℕ} (hj : j < m.nmesh.length) :
    (m.coord r).getD j 0 < (m.edges.getD j []).length - 1 := by
  have := (validIndex_iff.1 (h.coord_valid r hr)).2 j (by simpa [PMesh.shape, h.edges_len] using hj)
  rwa [PMesh.shape, getD_map' _ _ [] _ _ (by rw [h.edges_len]; exact hj)] at this

theorem PMesh.OK.start_len {m : PMesh K} (h : m.OK) {r : ℕ} (hr : r < m.nrank) : (m.start r).length = m.nmesh.length := by
  simp [PMesh.start, h.coord_len hr, h.edges_len]

theorem PMesh.OK.localShape_len {m : PMesh K} (h : m.OK) {r : ℕ} (hr : r < m.nrank) :
    (m.localShape r).length = m.nmesh.length := by
  simp [PMesh.localShape, h.coord_len hr, h.edges_len]

theorem PMesh.OK.start_getD {m : PMesh K} (h : m.OK) {r : ℕ} (hr : r < m.nrank) {j : ℕ} (hj : j < m.nmesh.length) :
    (m.start r).getD j 0 = (m.edges.getD j []).getD ((m.coord r).getD j 0) 0 :=
  getD_zipWith _ _ _ _ _ _ _ (by rw [h.edges_len]; exact hj) (by rw [h.coord_len hr]; exact hj)

theorem PMesh.OK.localShape_getD {m : PMesh K} (h : m.OK) {r : ℕ} (hr : r < m.nrank) {j : ℕ} (hj : j < m.nmesh.length) :
    (m.localShape r).getD j 0 = (m.edges.getD j []).getD ((m.coord r).getD j 0 + 1) 0 -
      (m.edges.getD j []).getD ((m.coord r).getD j 0) 0 :=
  getD_zipWith _ _ _ _ _ _ _ (by rw [h.edges_len]; exact hj) (by rw [h.coord_len hr]; exact hj)

theorem SlabEdges.mono {n : ℕ} {e : List ℕ} (h : SlabEdges n e) {a b : ℕ} (hab : a ≤ b) (hb : b < e.length) :
    e.getD a 0 ≤ e.getD b 0 := by
  rcases Nat.eq_or_lt_of_le hab with rfl | hlt
  · exact le_refl _
  · rw [List.getD_eq_getElem _ _ (by omega), List.getD_eq_getElem _ _ hb]
    exact List.pairwise_iff_getElem.1 h.sorted a b (by omega) hb hlt

theorem SlabEdges.last_getD {n : ℕ} {e : List ℕ} (h : SlabEdges n e) : e.getD (e.length - 1) 0 = n := by
  have := h.two
  rw [← h.last, List.getLastD_eq_getLast?, List.getLast?_eq_getElem?, List.getD_eq_getElem?_getD]

theorem SlabEdges.le_last {n : ℕ} {e : List ℕ} (h : SlabEdges n e) {a : ℕ} (ha : a < e.length) : e.getD a 0 ≤ n := by
  rw [← h.last_getD]; exact h.mono (by omega) (by omega)

/-- The local block of a rank lies in the mesh. -/
theorem PMesh.OK.block_le {m : PMesh K} (h : m.OK) {r : ℕ} (hr : r < m.nrank) {j : ℕ} (hj : j < m.nmesh.length) :
    (m.start r).getD j 0 + (m.localShape r).getD j 0 ≤ m.nmesh.getD j 0 := by
  have h1 := h.coord_lt hr hj
  have h2 := (h.slab hj).mono (a := (m.coord r).getD j 0) (b := (m.coord r).getD j 0 + 1) (by omega) (by omega)
  have h3 := (h.slab hj).le_last (a := (m.coord r).getD j 0 + 1) (by omega)
  rw [h.start_getD hr hj, h.localShape_getD hr hj]
  omega

theorem PMesh.OK.nmesh_pos {m : PMesh K} (h : m.OK) {j : ℕ} (hj : j < m.nmesh.length) : 0 < m.nmesh.getD j 0 := (h.slab hj).pos

theorem PMesh.OK.global_valid {m : PMesh K} (h : m.OK) {r : ℕ} (hr : r < m.nrank) {c : List ℕ}
    (hc : ValidIndex (m.localShape r) c) : ValidIndex m.nmesh (m.global r c) := by
  rw [validIndex_iff] at hc ⊢
  rw [h.localShape_len hr] at hc
  refine ⟨by simp [PMesh.global, h.start_len hr, hc.1], fun j hj => ?_⟩
  unfold PMesh.global
  rw [getD_zipWith _ _ _ 0 0 _ _ (by rw [h.start_len hr]; exact hj) (by omega)]
  have := h.block_le hr hj
  have := hc.2 j hj
  omega

/-! ### the painter of a rank -/

theorem painter_len (m : PMesh K) (w : Resampler K) (g : Option ℕ) (r : ℕ) :
    (m.painter w g r).axes.length = m.nmesh.length := by simp [PMesh.painter]

theorem shapeOf_painter {m : PMesh K} (w : Resampler K) (g : Option ℕ) (r : ℕ)
    (hl : (m.localShape r).length = m.nmesh.length) : shapeOf (m.painter w g r).axes = m.localShape r := by
  apply List.ext_getElem
  · simp [shapeOf, PMesh.painter, hl]
  · intro j h1 h2
    simp only [shapeOf, PMesh.painter, List.map_map, List.getElem_map, List.getElem_range, Function.comp]
    rw [List.getD_eq_getElem _ _ h2]

theorem elemAddr_sum : ∀ (axes : List (PAxis K)) (c : List ℕ),
    elemAddr axes c = (List.zipWith (fun (i : ℕ) (ax : PAxis K) => (i : ℤ) * ax.stride) c axes).sum
  | [], c => by simp [elemAddr]
  | ax :: axs, [] => by simp [elemAddr]
  | ax :: axs, i :: is => by simp [elemAddr, elemAddr_sum axs is]

theorem zipWith_mul_getD (c : List ℕ) (s : List ℤ) :
    (List.zipWith (fun (i : ℕ) (t : ℤ) => (i : ℤ) * t) c s).sum =
      ((List.range c.length).map fun j => ((c.getD j 0 : ℕ) : ℤ) * s.getD j 0).sum := by
  induction c generalizing s with
  | nil => simp
  | cons i c ih =>
    cases s with
    | nil =>
      simp
    | cons t s =>
      rw [List.zipWith_cons_cons, List.sum_cons, ih, List.length_cons, List.range_succ_eq_map, List.map_cons, List.map_map,
        List.sum_cons]
      rfl

theorem elemAddr_painter {m : PMesh K} (w : Resampler K) (g : Option ℕ) (r : ℕ) {c : List ℕ}
    (hc : c.length = m.nmesh.length) : elemAddr (m.painter w g r).axes c = m.addr r c := by
  rw [elemAddr_sum, PMesh.addr, zipWith_mul_getD]
  congr 1
  apply List.ext_getElem
  · simp [PMesh.painter, hc]
  · intro j h1 h2
    simp only [List.length_map, List.length_range] at h2
    simp [PMesh.painter, List.getElem?_eq_getElem h2]

theorem painter_valid {m : PMesh K} {w : Resampler K} (hw : w.Valid) (hd : m.nmesh ≠ []) (g : Option ℕ) (r : ℕ) :
    (m.painter w g r).Valid :=
  ⟨hw.native_pos, by
    intro h
    have := painter_len m w g r
    rw [h] at this
    exact hd (List.length_eq_zero_iff.1 this.symm), hw.tuned_kern⟩

theorem distinct_painter {m : PMesh K} (w : Resampler K) (g : Option ℕ) (r : ℕ)
    (hl : (m.localShape r).length = m.nmesh.length) (hd : m.Distinct r) : DistinctElems (m.painter w g r).axes := by
  intro c c' hc hc' h
  rw [shapeOf_painter w g r hl] at hc hc'
  have e1 := (validIndex_iff.1 hc).1
  have e2 := (validIndex_iff.1 hc').1
  rw [elemAddr_painter w g r (by omega), elemAddr_painter w g r (by omega)] at h
  exact hd c c' hc hc' h

/-! ### the product stencil, axis by axis -/

theorem cwProd_prod : ∀ (sts : List (List (ℤ × K))) (c : List ℕ), c.length = sts.length →
    cwProd sts c = ((List.range sts.length).map fun j => cw (sts.getD j []) ((c.getD j 0 : ℕ) : ℤ)).prod
  | [], c, _ => by simp [cwProd]
  | st :: sts, [], h => by simp at h
  | st :: sts, d :: ds, h => by
    rw [cwProd, cwProd_prod sts ds (by simpa using h), List.length_cons, List.range_succ_eq_map, List.map_cons,
      List.map_map, List.prod_cons]
    rfl

theorem cwProd_painter (m : PMesh K) (w : Resampler K) (g : Option ℕ) (r : ℕ) (h : K) (x : List K)
    (hx : x.length = m.nmesh.length) (c : List ℕ) (hc : c.length = m.nmesh.length) :
    cwProd (List.zipWith (axisStencil (m.painter w g r) h) (m.painter w g r).axes x) c =
      ((List.range m.nmesh.length).map fun j => cw (axisStencil (m.painter w g r) h
        ⟨if g = some j then 1 else 0, m.scale.getD j 0, -(((m.start r).getD j 0 : ℕ) : K), m.nmesh.getD j 0,
          (m.localShape r).getD j 0, (m.strides r).getD j 0⟩ (x.getD j 0)) ((c.getD j 0 : ℕ) : ℤ)).prod := by
  rw [cwProd_prod _ _ (by simp [PMesh.painter, hx, hc])]
  have hl : (List.zipWith (axisStencil (m.painter w g r) h) (m.painter w g r).axes x).length = m.nmesh.length := by
    simp [PMesh.painter, hx]
  rw [hl]
  congr 1
  apply List.map_congr_left
  intro j hj
  rw [List.mem_range] at hj
  rw [getD_zipWith _ _ _ ⟨0, 0, 0, 0, 0, 0⟩ 0 _ _ (by rw [painter_len]; exact hj) (by omega)]
  congr 2
  exact getD_map_range _ _ _ _ hj

/-- A stencil depends on the axis only through order, scale, period and the grid coordinate. -/
theorem axisStencil_congr (P P' : Painter K) (hk : P'.kern = P.kern) (ht : P'.tuned = P.tuned) (hs : P'.support = P.support)
    (ho : P'.axes.map (·.order) = P.axes.map (·.order)) (h : K) {ax ax' : PAxis K} {x x' : K} (h1 : ax'.order = ax.order)
    (h2 : ax'.scale = ax.scale) (h3 : ax'.period = ax.period) (h4 : ax'.grid x' = ax.grid x) :
    axisStencil P' h ax' x' = axisStencil P h ax x := by
  have hlen : P'.axes.length = P.axes.length := by
    have := congrArg List.length ho; simpa using this
  have hany : (P'.axes.take 3).any (fun ax => decide (ax.order > 1)) = (P.axes.take 3).any (fun ax => decide (ax.order > 1)) := by
    have e : ∀ l : List (PAxis K), (l.take 3).any (fun ax => decide (ax.order > 1)) =
        ((l.map (·.order)).take 3).any (fun o => decide (o > 1)) := by
      intro l; rw [← List.map_take, List.any_map]; rfl
    rw [e, e, ho]
  have hf : fastMethod P' (partWin P' h) = fastMethod P (partWin P h) := by
    unfold fastMethod partWin
    rw [ht, hk, hs, hlen]
    simp only [hany]
  unfold axisStencil
  rw [hf]
  have hw : partWin P' h = partWin P h := by unfold partWin; rw [hk, hs]
  cases fastMethod P (partWin P h) with
  | none =>
    simp only
    unfold genStencil fillAxis
    simp only [hw, hk, h1, h2, h3, h4]
  | some t =>
    simp only
    unfold tunedStencil
    have : tunedSetup t ax' x' = tunedSetup t ax x := by
      cases t <;> simp only [tunedSetup, h1, h2, h4]
    rw [this, h3]

/-- One axis: a rank computes what a single process computes for the cell with the global number. -/
theorem cw_local_serial (P P0 : Painter K) (hk : P0.kern = P.kern) (ht : P0.tuned = P.tuned) (hs : P0.support = P.support)
    (ho : P0.axes.map (·.order) = P.axes.map (·.order)) (h : K) {ax ax0 : PAxis K} {x : K} {st c : ℕ}
    (h1 : ax0.order = ax.order) (h2 : ax0.scale = ax.scale) (h3 : ax0.period = ax.period) (hsc : ax.scale ≠ 0)
    (htr : ax.translate = -(st : K)) (htr0 : ax0.translate = 0) (hper : ax.period = ax0.size)
    (hc : c + st < ax0.size) :
    cw (axisStencil P h ax x) (c : ℤ) = cw (axisStencil P0 h ax0 x) ((st + c : ℕ) : ℤ) := by
  have hg : ax0.grid (x - st / ax.scale) = ax.grid x := by
    unfold PAxis.grid
    rw [h2, htr, htr0]
    field_simp
    ring
  have hg2 : ax0.grid x = ax0.grid (x - st / ax.scale) + ((st : ℤ) : K) := by
    rw [hg]
    unfold PAxis.grid
    rw [h2, htr, htr0]
    push_cast; ring
  rw [← axisStencil_congr P P0 hk ht hs ho h h1 h2 h3 hg]
  rw [cw_shift P0 h hg2 (c := c) (c' := st + c) (by omega)]
  right
  refine ⟨by omega, by omega, ?_⟩
  rw [Int.emod_eq_of_lt (by omega) (by omega)]
  push_cast; ring

theorem tunedSetup_near (t : Tuned) (ax : PAxis K) (x : K) :
    ∀ i ∈ (tunedSetup t ax x).1, |ax.grid x - (i : K)| ≤ ((Tuned.kern t : Kern K).native : K) / 2 := by
  intro i hi
  cases t <;> simp only [tunedSetup, List.mem_cons, List.not_mem_nil, or_false] at hi <;>
    simp only [Tuned.kern, nearestK, linearK, quadraticK, cubicK] <;> rw [abs_le]
  · have h1 := Int.floor_le (ax.grid x + 1 / 2)
    have h2 := Int.lt_floor_add_one (ax.grid x + 1 / 2)
    subst hi
    constructor <;> push_cast <;> linarith
  · have h1 := Int.floor_le (ax.grid x)
    have h2 := Int.lt_floor_add_one (ax.grid x)
    rcases hi with rfl | rfl <;> constructor <;> push_cast <;> linarith
  · have h1 := Int.floor_le (ax.grid x + 1 / 2)
    have h2 := Int.lt_floor_add_one (ax.grid x + 1 / 2)
    rcases hi with rfl | rfl | rfl <;> constructor <;> push_cast <;> linarith
  · have h1 := Int.floor_le (ax.grid x)
    have h2 := Int.lt_floor_add_one (ax.grid x)
    rcases hi with rfl | rfl | rfl | rfl <;> constructor <;> push_cast <;> linarith

/-- A cell with a nonzero weight is, up to periodic images, within `T` of the particle. -/
theorem cw_near (P : Painter K) (hn : 0 < P.kern.native) (h T : K)
    (hc : (Confined P.kern ∧ P.tuned = none ∧ windowSize P h ≤ 2 * T) ∨ (Confined P.kern ∧ (⌈windowSize P h⌉ : K) ≤ 2 * T) ∨
      (⌈windowSize P h⌉ : K) - windowSize P h / 2 ≤ T) (ax : PAxis K) (x : K) (c : ℤ)
    (hne : cw (axisStencil P h ax x) c ≠ 0) :
    ∃ i : ℤ, genWrap ax.period i = c ∧ |ax.grid x - (i : K)| ≤ T := by
  obtain ⟨s, hspos, hs, hvf, hip, hSle, hSlt⟩ := windowInfo_eq hn ((P.support : K) * h)
  have hsw : s = windowSize P h := hs
  have hceil := Int.le_ceil (windowSize P h)
  have hS' : ((windowInfo P.kern.native (P.support * h)).support : K) = (⌈windowSize P h⌉ : K) := by
    rw [hsw] at hSle hSlt
    have : ⌈windowSize P h⌉ = ((windowInfo P.kern.native (P.support * h)).support : ℤ) := by
      rw [Int.ceil_eq_iff]
      constructor
      · push_cast; linarith
      · push_cast; linarith
    rw [this]; push_cast; rfl
  unfold axisStencil at hne
  cases hf : fastMethod P (partWin P h) with
  | none =>
    rw [hf] at hne
    simp only [partWin] at hne
    rw [cw_gen_window P.kern hn ax x c s hs] at hne
    obtain ⟨r, hr, hne⟩ := Finset.exists_ne_zero_of_sum_ne_zero hne
    rw [Finset.mem_range] at hr
    set S := (windowInfo P.kern.native (P.support * h)).support with hS
    set i : ℤ := ⌊ax.grid x + s / 2⌋ - ((S : ℤ) - 1) + r with hi
    split at hne
    · next hcell =>
      refine ⟨i, (genWrap_isCell _ _ _).2 hcell, ?_⟩
      have hconf : Confined P.kern → s / 2 ≤ T → |ax.grid x - (i : K)| ≤ T := by
        intro hc hT
        have : |ax.grid x - (i : K)| ≤ s / 2 := by
          rw [abs_le]
          by_contra hcon
          apply hne
          apply windowAt_zero_of hc hspos
          rw [not_and_or, not_le, not_le] at hcon
          rcases hcon with hcon | hcon
          · left; exact hcon
          · right; exact hcon.le
        linarith
      rcases hc with ⟨hc, _, hT⟩ | ⟨hc, hT⟩ | hT
      · exact hconf hc (by rw [hsw]; linarith)
      · exact hconf hc (by rw [hsw]; linarith)
      · have h1 := Int.floor_le (ax.grid x + s / 2)
        have h2 := Int.lt_floor_add_one (ax.grid x + s / 2)
        have hr' : (r : K) ≤ S - 1 := by
          have : r + 1 ≤ S := hr
          have : ((r + 1 : ℕ) : K) ≤ S := by exact_mod_cast this
          push_cast at this; linarith
        have hr0 : (0 : K) ≤ r := Nat.cast_nonneg r
        rw [← hS', ← hsw] at hT
        rw [abs_le, hi]
        push_cast
        constructor <;> linarith
    · exact absurd rfl hne
  | some t =>
    rw [hf] at hne
    simp only at hne
    obtain ⟨h1, h2, h3, h4⟩ := fastMethod_dim hf
    obtain ⟨y, hy, hne⟩ : ∃ p ∈ tunedStencil t ax x, p.1 = c := by
      by_contra hcon
      apply hne
      unfold cw
      apply List.sum_eq_zero
      intro y hy
      obtain ⟨p, hp, rfl⟩ := List.mem_map.1 hy
      rw [if_neg]
      intro he
      exact hcon ⟨p, hp, he⟩
    have hmem := (List.of_mem_zip (a := y.1) (b := y.2) hy).1
    obtain ⟨i, hi, hiy⟩ := List.mem_map.1 hmem
    refine ⟨i, by rw [← tunedWrap_eq, hiy, hne], ?_⟩
    have hb := tunedSetup_near t ax x i hi
    have hnat : ((Tuned.kern t : Kern K).native : K) = (⌈windowSize P h⌉ : K) := by
      rw [← h3, ← hS']
      rfl
    rw [hnat] at hb
    rcases hc with ⟨_, htn, _⟩ | ⟨_, hT⟩ | hT
    · rw [htn] at h1; exact absurd h1 (by simp)
    · linarith
    · linarith

end
end Pmesh
