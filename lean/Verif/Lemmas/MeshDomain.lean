import Verif.Lemmas.Mesh
import Verif.Props.Layout

set_option linter.unusedSectionVars false

namespace Pmesh
section
variable {K : Type} [Field K] [LinearOrder K] [IsStrictOrderedRing K] [FloorRing K]

/-! ### the mesh of a single process -/

theorem serial_start (m : PMesh K) (st : List ℤ) (r : ℕ) : (m.serial st).start r = m.nmesh.map fun _ => 0 := by
  unfold PMesh.start PMesh.serial
  simp only
  rw [List.zipWith_map]
  induction m.nmesh with
  | nil => rfl
  | cons a l ih => simp

theorem serial_localShape (m : PMesh K) (st : List ℤ) (r : ℕ) : (m.serial st).localShape r = m.nmesh := by
  unfold PMesh.localShape PMesh.serial
  simp only
  rw [List.zipWith_map]
  induction m.nmesh with
  | nil => rfl
  | cons a l ih => simp

theorem scale_getD {m : PMesh K} (h : m.OK) {j : ℕ} (hj : j < m.nmesh.length) :
    m.scale.getD j 0 = ((m.nmesh.getD j 0 : ℕ) : K) / m.box.getD j 0 :=
  getD_zipWith _ _ _ _ _ _ _ hj (by rw [h.box_len]; exact hj)

theorem scale_pos {m : PMesh K} (h : m.OK) {j : ℕ} (hj : j < m.nmesh.length) : 0 < m.scale.getD j 0 := by
  rw [scale_getD h hj]
  apply div_pos
  · exact_mod_cast h.nmesh_pos hj
  · rw [List.getD_eq_getElem _ _ (by rw [h.box_len]; exact hj)]
    exact h.box_pos _ (List.getElem_mem _)

theorem orders_serial (m : PMesh K) (st : List ℤ) (w : Resampler K) (g : Option ℕ) (r : ℕ) :
    ((m.serial st).painter w g 0).axes.map (·.order) = (m.painter w g r).axes.map (·.order) := by
  simp only [PMesh.painter, List.map_map, PMesh.serial]
  rfl

/-- A rank computes what a single process computes. -/
theorem cwProd_local_serial {m : PMesh K} (hm : m.OK) (st : List ℤ) (w : Resampler K) (g : Option ℕ) {r : ℕ}
    (hr : r < m.nrank) (h : K) {x : List K} (hx : x.length = m.nmesh.length) {c : List ℕ}
    (hc : ValidIndex (m.localShape r) c) :
    cwProd (List.zipWith (axisStencil (m.painter w g r) h) (m.painter w g r).axes x) c =
      cwProd (List.zipWith (axisStencil ((m.serial st).painter w g 0) h) ((m.serial st).painter w g 0).axes x)
        (m.global r c) := by
  have hcl := (validIndex_iff.1 hc).1
  have hcv := (validIndex_iff.1 hc).2
  rw [hm.localShape_len hr] at hcl hcv
  have hgl : (m.global r c).length = m.nmesh.length := by simp [PMesh.global, hm.start_len hr, hcl]
  rw [cwProd_painter m w g r h x hx c hcl, cwProd_painter (m.serial st) w g 0 h x hx _ hgl]
  congr 1
  apply List.map_congr_left
  intro j hj
  rw [List.mem_range] at hj
  have hj' : j < m.nmesh.length := hj
  have hgj : (m.global r c).getD j 0 = (m.start r).getD j 0 + c.getD j 0 :=
    getD_zipWith _ _ _ _ _ _ _ (by rw [hm.start_len hr]; exact hj') (by omega)
  rw [hgj]
  have hb := hm.block_le hr hj'
  have hcj := hcv j hj'
  refine cw_local_serial (m.painter w g r) ((m.serial st).painter w g 0) rfl rfl rfl (orders_serial m st w g r) h
    rfl rfl rfl ?_ ?_ ?_ ?_ ?_
  · exact (scale_pos hm hj').ne'
  · rfl
  · simp only [serial_start]
    rw [getD_map' _ _ 0 _ _ hj']; simp
  · simp only [serial_localShape]
  · simp only [serial_localShape]; omega

/-! ### the domain grid of the mesh -/

theorem SlabEdges.findIdx {n : ℕ} {e : List ℕ} (h : SlabEdges n e) {d : ℕ} (hd : d < e.length - 1) :
    e.findIdx (· == e.getD d 0) = d := by
  have hdl : d < e.length := by omega
  rw [List.getD_eq_getElem _ _ hdl]
  rw [List.findIdx_eq (by omega)]
  refine ⟨by simp, fun k hk => ?_⟩
  have := List.pairwise_iff_getElem.1 h.starts k d (by simp; omega) (by simp; omega) hk
  simp only [List.getElem_dropLast] at this
  simp only [beq_eq_false_iff_ne, ne_eq]
  omega

theorem ilocal_eq {m : PMesh K} (hm : m.OK) {r : ℕ} (hr : r < m.nrank) : m.ilocal r = some (cOrder m.shape (m.coord r)) := by
  unfold PMesh.ilocal
  rw [← ravelMultiIndex_eq (hm.coord_valid r hr)]
  congr 1
  have he := hm.edges_len
  have hs := hm.start_len hr
  have hc := hm.coord_len hr
  apply List.ext_getElem
  · simp [he, hs, hc]
  · intro j h1 h2
    have hj : j < m.nmesh.length := by simp [he, hs] at h1; omega
    simp only [List.getElem_zipWith, List.getElem_map]
    have e1 : m.edges[j]'(by omega) = m.edges.getD j [] := (List.getD_eq_getElem _ _ (by omega)).symm
    have e2 : (m.start r)[j]'(by omega) = (m.start r).getD j 0 := (List.getD_eq_getElem _ _ (by omega)).symm
    have e3 : (m.coord r)[j]'(by omega) = (m.coord r).getD j 0 := (List.getD_eq_getElem _ _ (by omega)).symm
    rw [e1, e2, e3, hm.start_getD hr hj, (hm.slab hj).findIdx (hm.coord_lt hr hj)]

/-- The loop that fills `DomainAssign` with slices of one entry. -/
theorem assign_foldl (n : ℕ) (hn : 0 < n) (il : ℕ → ℕ) : ∀ (k : ℕ) (acc : List ℕ), acc.length = n →
    ((((List.range k).map il).zipIdx).foldl
      (fun (acc : List ℕ) (ir : ℕ × ℕ) => acc.mapIdx fun i a =>
        if ir.1 * n / n ≤ i ∧ i < (ir.1 + 1) * n / n then ir.2 else a) acc).length = n ∧
    ∀ (i : ℕ), (∀ r < k, il r ≠ i) → ((((List.range k).map il).zipIdx).foldl
      (fun (acc : List ℕ) (ir : ℕ × ℕ) => acc.mapIdx fun i a =>
        if ir.1 * n / n ≤ i ∧ i < (ir.1 + 1) * n / n then ir.2 else a) acc)[i]? = acc[i]? := by
  intro k
  induction k with
  | zero => intro acc h; simp [h]
  | succ k ih =>
    intro acc h
    obtain ⟨h1, h2⟩ := ih acc h
    rw [List.range_succ, List.map_append, List.zipIdx_append, List.foldl_append]
    simp only [List.map_cons, List.map_nil, List.length_map, List.length_range, List.zipIdx_cons, List.zipIdx_nil,
      List.foldl_cons, List.foldl_nil]
    refine ⟨by rw [List.length_mapIdx]; exact h1, fun i hi => ?_⟩
    rw [List.getElem?_mapIdx, h2 i fun r hr => hi r (by omega)]
    simp only [Nat.mul_div_cancel _ hn]
    have := hi k (by omega)
    cases acc[i]? with
    | none => rfl
    | some a =>
      simp only [Option.map_some, Option.some.injEq]
      rw [if_neg]; omega

theorem assign_foldl_get (n : ℕ) (hn : 0 < n) (il : ℕ → ℕ) (acc : List ℕ) (ha : acc.length = n) : ∀ (k : ℕ),
    (∀ r < k, il r < n) → (∀ r < k, ∀ r' < k, il r = il r' → r = r') → ∀ r < k,
    ((((List.range k).map il).zipIdx).foldl
      (fun (acc : List ℕ) (ir : ℕ × ℕ) => acc.mapIdx fun i a =>
        if ir.1 * n / n ≤ i ∧ i < (ir.1 + 1) * n / n then ir.2 else a) acc)[il r]? = some r := by
  intro k
  induction k with
  | zero => intro _ _ r hr; omega
  | succ k ih =>
    intro hlt hinj r hr
    have hlen := (assign_foldl n hn il k acc ha).1
    rw [List.range_succ, List.map_append, List.zipIdx_append, List.foldl_append]
    simp only [List.map_cons, List.map_nil, List.length_map, List.length_range, List.zipIdx_cons, List.zipIdx_nil,
      List.foldl_cons, List.foldl_nil]
    rw [List.getElem?_mapIdx]
    by_cases hrk : r = k
    · subst hrk
      rw [List.getElem?_eq_getElem (by rw [hlen]; exact hlt r hr)]
      simp [Nat.mul_div_cancel _ hn]
    · rw [ih (fun r hr => hlt r (by omega)) (fun a ha b hb => hinj a (by omega) b (by omega)) r (by omega)]
      simp only [Nat.mul_div_cancel _ hn, Nat.zero_add, Option.map_some, Option.some.injEq]
      rw [if_neg]
      intro hcon
      exact hrk (hinj r hr k (by omega) (by omega))

/-- The domain grid: edges as numbers, and every rank owns exactly its slab. -/
theorem domain_eq {m : PMesh K} (hm : m.OK) (hn : 0 < m.nrank) :
    ∃ a : List ℕ, m.domain = some ⟨m.edges.map fun e => e.map (Nat.cast : ℕ → K), true, a, m.nrank⟩ ∧
      a.length = m.shape.prod ∧ (∀ r < m.nrank, a[cOrder m.shape (m.coord r)]? = some r) ∧ ∀ r ∈ a, r < m.nrank := by
  unfold PMesh.domain PMesh.domainAssign
  rw [mapM_option_some (g := fun r => cOrder m.shape (m.coord r)) _
    (fun r hr => ilocal_eq hm (List.mem_range.1 hr))]
  simp only [Option.pure_def, Option.bind_eq_bind, Option.bind_some, Option.some.injEq]
  have hp := hm.ranks
  rw [hp] at hn ⊢
  have hlt : ∀ r < m.shape.prod, cOrder m.shape (m.coord r) < m.shape.prod := fun r hr =>
    cOrder_lt (hm.coord_valid r (by rw [hp]; exact hr))
  have hinj : ∀ r < m.shape.prod, ∀ r' < m.shape.prod, cOrder m.shape (m.coord r) = cOrder m.shape (m.coord r') → r = r' :=
    fun r hr r' hr' h => hm.coord_inj r (by rw [hp]; exact hr) r' (by rw [hp]; exact hr')
      (cOrder_inj (hm.coord_valid r (by rw [hp]; exact hr)) (hm.coord_valid r' (by rw [hp]; exact hr')) h)
  have h1 := (assign_foldl m.shape.prod hn (fun r => cOrder m.shape (m.coord r)) m.shape.prod
    ((List.range m.shape.prod).map m.junk) (by simp)).1
  have h2 := assign_foldl_get m.shape.prod hn (fun r => cOrder m.shape (m.coord r))
    ((List.range m.shape.prod).map m.junk) (by simp) m.shape.prod hlt hinj
  refine ⟨_, rfl, h1, h2, ?_⟩
  intro v hv
  obtain ⟨k, hk, rfl⟩ := List.getElem_of_mem hv
  rw [h1] at hk
  -- every slot is hit
  have hsurj : ∃ r < m.shape.prod, cOrder m.shape (m.coord r) = k := by
    have hI : Set.InjOn (fun r => cOrder m.shape (m.coord r)) (Finset.range m.shape.prod) := by
      intro a ha b hb h
      exact hinj a (by simpa using ha) b (by simpa using hb) h
    have := Finset.surjOn_of_injOn_of_card_le (s := Finset.range m.shape.prod) (t := Finset.range m.shape.prod)
      (fun r => cOrder m.shape (m.coord r)) (by intro a ha; simpa using hlt a (by simpa using ha)) hI le_rfl
    obtain ⟨r, hr, h⟩ := this (show k ∈ (Finset.range m.shape.prod : Set ℕ) by simpa using hk)
    exact ⟨r, by simpa using hr, h⟩
  obtain ⟨r, hr, hrk⟩ := hsurj
  have h3 := h2 r hr
  rw [hrk] at h3
  have h4 := (List.getElem?_eq_some_iff.1 h3).2
  rw [h4]; exact hr

theorem grid_of_mesh_ok {m : PMesh K} (hm : m.OK) {a : List ℕ} (ha : a.length = m.shape.prod) (hr : ∀ r ∈ a, r < m.nrank) :
    GridOK (⟨m.edges.map fun e => e.map (Nat.cast : ℕ → K), true, a, m.nrank⟩ : Grid K) where
  axes := by
    intro h
    have : m.edges = [] := by simpa using h
    apply hm.dim
    have h2 := hm.edges_len
    rw [this] at h2
    exact List.length_eq_zero_iff.1 h2.symm
  edges := by
    intro e he
    obtain ⟨e', he', rfl⟩ := List.mem_map.1 he
    obtain ⟨j, hj, rfl⟩ := List.getElem_of_mem he'
    have hj' : j < m.nmesh.length := by rw [← hm.edges_len]; exact hj
    have hs := hm.slab hj'
    rw [List.getD_eq_getElem m.edges _ hj] at hs
    refine ⟨?_, by simpa using hs.two, ?_, ?_⟩
    · rw [List.pairwise_map]
      exact hs.sorted.imp fun h => by exact_mod_cast h
    · rw [getD_map' _ _ 0 _ _ (by have := hs.two; omega), hs.first]; simp
    · have : (m.edges[j].map (Nat.cast : ℕ → K)).getLastD 0 = ((m.edges[j].getLastD 0 : ℕ) : K) := by
        rw [List.getLastD_eq_getLast?, List.getLastD_eq_getLast?, List.getLast?_map]
        cases m.edges[j].getLast? <;> simp
      rw [this, hs.last]
      exact_mod_cast hs.pos
  assign_total := by
    rw [ha, PMesh.shape, List.map_map]
    congr 1
    apply List.map_congr_left
    intro e _; simp
  assign_rank := hr

/-- The domain grid of a mesh, for an assignment `a`. -/
def PMesh.gridWith (m : PMesh K) (a : List ℕ) : Grid K :=
  ⟨m.edges.map fun e => e.map (Nat.cast : ℕ → K), true, a, m.nrank⟩

theorem gridWith_shape (m : PMesh K) (a : List ℕ) : ((m.gridWith a).edges.map fun e => e.length - 1) = m.shape := by
  rw [PMesh.gridWith, PMesh.shape, List.map_map]
  apply List.map_congr_left
  intro e _; simp

theorem gridWith_ndim {m : PMesh K} (hm : m.OK) (a : List ℕ) : (m.gridWith a).ndim = m.nmesh.length := by
  simp [Grid.ndim, PMesh.gridWith, hm.edges_len]

theorem gridWith_axis {m : PMesh K} (hm : m.OK) (a : List ℕ) {j : ℕ} (hj : j < m.nmesh.length) :
    (m.gridWith a).axis j = (m.edges.getD j []).map (Nat.cast : ℕ → K) := by
  unfold Grid.axis PMesh.gridWith
  simp only
  rw [getD_map' _ _ [] _ _ (by rw [hm.edges_len]; exact hj)]

theorem gridWith_box {m : PMesh K} (hm : m.OK) (a : List ℕ) {j : ℕ} (hj : j < m.nmesh.length) :
    (m.gridWith a).box j = ((m.nmesh.getD j 0 : ℕ) : K) := by
  unfold Grid.box
  rw [gridWith_axis hm a hj, ← (hm.slab hj).last, List.getLastD_eq_getLast?, List.getLastD_eq_getLast?, List.getLast?_map]
  cases (m.edges.getD j []).getLast? <;> simp

theorem gridWith_edge {m : PMesh K} (hm : m.OK) (a : List ℕ) {j : ℕ} (hj : j < m.nmesh.length) {d : ℕ}
    (hd : d < (m.edges.getD j []).length) :
    ((m.gridWith a).axis j).getD d 0 = (((m.edges.getD j []).getD d 0 : ℕ) : K) := by
  rw [gridWith_axis hm a hj, getD_map' _ _ 0 _ _ hd]

theorem toGrid_getD {m : PMesh K} (hm : m.OK) {x : List K} (hx : x.length = m.nmesh.length) {j : ℕ}
    (hj : j < m.nmesh.length) : (m.toGrid x).getD j 0 = m.scale.getD j 0 * x.getD j 0 := by
  unfold PMesh.toGrid
  apply getD_zipWith
  · simp [PMesh.scale, hm.box_len, hj]
  · omega

theorem smoothing_getD (m : PMesh K) (w : Resampler K) {j : ℕ} (hj : j < m.nmesh.length) :
    (m.smoothing w).getD j 0 = (w.support : K) * (1 / 2) := by
  unfold PMesh.smoothing
  rw [List.getD_eq_getElem _ _ (by simpa using hj)]
  simp

/-- A particle with a nonzero weight in a cell of rank `r` is sent to rank `r`. -/
theorem reaches_of_weight {m : PMesh K} (hm : m.OK) {a : List ℕ} {r : ℕ} (hr : r < m.nrank)
    (ho : a[cOrder m.shape (m.coord r)]? = some r) {w : Resampler K} (hw : w.Valid) (g : Option ℕ) {h : K} {sm : List K}
    (hcov : ∀ j < m.nmesh.length, w.Covers (sm.getD j 0) h) {x : List K} (hx : x.length = m.nmesh.length) {c : List ℕ}
    (hc : ValidIndex (m.localShape r) c)
    (hne : cwProd (List.zipWith (axisStencil (m.painter w g r) h) (m.painter w g r).axes x) c ≠ 0) :
    (m.gridWith a).Reaches sm (m.toGrid x) r := by
  have hcl := (validIndex_iff.1 hc).1
  have hcv := (validIndex_iff.1 hc).2
  rw [hm.localShape_len hr] at hcl hcv
  refine ⟨m.coord r, ?_, ?_, ?_⟩
  · unfold Grid.IsDomain; rw [gridWith_shape]; exact hm.coord_valid r hr
  · unfold Grid.Owner; rw [gridWith_shape]; exact ho
  · intro j hj
    rw [gridWith_ndim hm] at hj
    rw [cwProd_painter m w g r h x hx c hcl] at hne
    have hfac : cw (axisStencil (m.painter w g r) h
        ⟨if g = some j then 1 else 0, m.scale.getD j 0, -(((m.start r).getD j 0 : ℕ) : K), m.nmesh.getD j 0,
          (m.localShape r).getD j 0, (m.strides r).getD j 0⟩ (x.getD j 0)) ((c.getD j 0 : ℕ) : ℤ) ≠ 0 := by
      intro h0
      apply hne
      apply List.prod_eq_zero
      rw [List.mem_map]
      exact ⟨j, List.mem_range.2 hj, h0⟩
    obtain ⟨i, hi1, hi2⟩ := cw_near (m.painter w g r) hw.native_pos h (sm.getD j 0) (hcov j hj) _ _ _ hfac
    have hN := hm.nmesh_pos hj
    simp only at hi1
    unfold genWrap at hi1
    rw [if_pos hN, wrapLoop_eq (by omega)] at hi1
    simp only [PAxis.grid, abs_le] at hi2
    rw [gridWith_box hm a hj, toGrid_getD hm hx hj]
    unfold Grid.lo Grid.hi
    have hlt := hm.coord_lt hr hj
    rw [gridWith_edge hm a hj (by omega), gridWith_edge hm a hj (by omega), ← hm.start_getD hr hj]
    have hsz := hm.localShape_getD hr hj
    rw [← hm.start_getD hr hj] at hsz
    have hcj := hcv j hj
    refine ⟨(i : K) + ((m.start r).getD j 0 : ℕ), ?_, ?_, -(i / ((m.nmesh.getD j 0 : ℕ) : ℤ)), ?_, ?_⟩
    · have := hi2.2
      linarith
    · have := hi2.1
      linarith
    all_goals
      have hdm := Int.emod_add_mul_ediv i ((m.nmesh.getD j 0 : ℕ) : ℤ)
      rw [hi1] at hdm
      have hdm' : (i : K) = ((c.getD j 0 : ℕ) : K) + ((m.nmesh.getD j 0 : ℕ) : K) *
        ((i / ((m.nmesh.getD j 0 : ℕ) : ℤ) : ℤ) : K) := by
        have := congrArg (Int.cast : ℤ → K) hdm
        push_cast at this
        exact this.symm
    · have h0 : (0 : K) ≤ ((c.getD j 0 : ℕ) : K) := Nat.cast_nonneg _
      push_cast
      linarith
    · have h1 : c.getD j 0 + (m.start r).getD j 0 < (m.edges.getD j []).getD ((m.coord r).getD j 0 + 1) 0 := by omega
      have h2 : ((c.getD j 0 : ℕ) : K) + ((m.start r).getD j 0 : ℕ) <
        (((m.edges.getD j []).getD ((m.coord r).getD j 0 + 1) 0 : ℕ) : K) := by exact_mod_cast h1
      push_cast
      linarith

end
end Pmesh
