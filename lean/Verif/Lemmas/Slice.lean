import Verif.Lemmas.SymmetryKinds
import Verif.Props.Energy
import Verif.Props.Preview
import Verif.Spec.Slice

/-! # Sums of products over a mesh, and projections -/

namespace Pmesh

open Complex

theorem tiling_ok {K : Type} [Field K] [LinearOrder K] [IsStrictOrderedRing K] [FloorRing K] {m : PMesh K} (hm : m.OK) : m.tiling.OK where
  rank_pos := by
    have := exists_cell hm (x := m.nmesh.map fun _ => 0) (by
      rw [validIndex_iff]
      refine ⟨by simp, fun j hj => ?_⟩
      have := hm.nmesh_pos hj
      simpa [List.getD_eq_getElem?_getD, hj] using this)
    obtain ⟨r, hr, _⟩ := this
    exact Nat.zero_lt_of_lt hr
  mesh_pos := nmesh_pos' hm
  stored_le := by
    show List.Forall₂ (· ≤ ·) m.nmesh m.nmesh
    exact List.forall₂_same.2 fun _ _ => le_rfl
  start_len := fun r hr => hm.start_len hr
  shape_len := fun r hr => hm.localShape_len hr
  inside := fun r hr c hc => hm.global_valid hr hc
  owner := fun g hg => exists_cell hm hg
  unique := fun r hr r' hr' c c' hc hc' h => (global_inj_ranks hm hr hr' hc hc' h).1

/-- A sum of products over the mesh is the product of the sums over the axes. -/
theorem sum_prod_axes {R : Type} [CommSemiring R] : ∀ (nmesh : List ℕ) (F : ℕ → ℕ → R),
    ((ndindex nmesh).map fun c => ((List.range nmesh.length).map fun j => F j (c.getD j 0)).prod).sum =
      ((List.range nmesh.length).map fun j => ((List.range (nmesh.getD j 0)).map fun i => F j i).sum).prod
  | [], F => by simp [ndindex]
  | n :: ns, F => by
    rw [sum_ndindex_cons']
    have ih := sum_prod_axes ns fun j => F (j + 1)
    have e : ∀ a : ℕ, ((ndindex ns).map fun t => ((List.range (n :: ns).length).map fun j => F j ((a :: t).getD j 0)).prod).sum =
        F 0 a * ((List.range ns.length).map fun j => ((List.range (ns.getD j 0)).map fun i => F (j + 1) i).sum).prod := by
      intro a
      rw [← ih, ← List.sum_map_mul_left]
      congr 1
      apply List.map_congr_left
      intro t _
      rw [List.length_cons, List.range_succ_eq_map, List.map_cons, List.prod_cons, List.map_map]
      rfl
    simp only [e]
    rw [List.sum_map_mul_right, List.length_cons, List.range_succ_eq_map, List.map_cons, List.prod_cons, List.map_map]
    rfl

section
variable {axes : List ℕ} {n : ℕ} (hnd : axes.Nodup) (hlt : ∀ d ∈ axes, d < n)
include hnd hlt

theorem prod_kept {M : Type} [CommMonoid M] (V : ℕ → M) :
    ((List.range n).map fun j => if j ∈ axes then V j else 1).prod = (axes.map V).prod := by
  have hp := removedAxes_perm hnd hlt
  have hperm : (axes ++ removedAxes n axes).Perm (List.range n) := by
    apply List.Subperm.perm_of_length_le
    · exact List.subperm_of_subset hp.nodup fun x hx => List.mem_range.2 (hp.lt x hx)
    · rw [hp.len]; simp
  rw [← (hperm.map _).prod_eq, List.map_append, List.prod_append]
  have e1 : (List.map (fun j => if j ∈ axes then V j else 1) axes) = axes.map V :=
    List.map_congr_left fun j hj => if_pos hj
  have e2 : (List.map (fun j => if j ∈ axes then V j else 1) (removedAxes n axes)).prod = 1 := by
    apply List.prod_eq_one
    intro y hy
    obtain ⟨j, hj, rfl⟩ := List.mem_map.1 hy
    unfold removedAxes at hj
    rw [List.mem_filter] at hj
    rw [if_neg (by simpa using hj.2)]
  rw [e1, e2, mul_one]

theorem pick_iff {c g : List ℕ} (hg : g.length = axes.length) :
    transposed axes c = g ↔ ∀ j < n, j ∈ axes → c.getD j 0 = g.getD (axes.idxOf j) 0 := by
  unfold transposed
  constructor
  · rintro rfl j _ hj
    rw [getD_map_lt _ _ _ (List.idxOf_lt_length_of_mem hj), List.getElem_idxOf]
  · intro h
    apply List.ext_getElem (by simp [hg])
    intro i h1 h2
    have hi : i < axes.length := by simpa using h1
    have := h _ (hlt _ (List.getElem_mem hi)) (List.getElem_mem hi)
    rw [hnd.idxOf_getElem, List.getD_eq_getElem _ _ h2] at this
    rw [List.getElem_map, this]

/-- Projection of a product. -/
theorem projection_prod {R : Type} [CommSemiring R] {nmesh : List ℕ} (hn : nmesh.length = n) (F : ℕ → ℕ → R) {g : List ℕ}
    (hg : ValidIndex (transposed axes nmesh) g) :
    projection nmesh axes (fun c => ((List.range n).map fun j => F j (c.getD j 0)).prod) g =
      (axes.map fun j => F j (g.getD (axes.idxOf j) 0)).prod *
        ((removedAxes n axes).map fun j => ((List.range (nmesh.getD j 0)).map fun i => F j i).sum).prod := by
  have hgl : g.length = axes.length := by rw [hg.len]; simp [transposed]
  unfold projection
  have e : ∀ c ∈ ndindex nmesh, (if (axes.map fun d => c.getD d 0) = g then ((List.range n).map fun j => F j (c.getD j 0)).prod else 0) =
      ((List.range nmesh.length).map fun j => (if j ∈ axes then (if c.getD j 0 = g.getD (axes.idxOf j) 0 then F j (c.getD j 0) else 0)
        else F j (c.getD j 0))).prod := by
    intro c _
    rw [hn]
    by_cases h : transposed axes c = g
    · rw [if_pos (show (axes.map fun d => c.getD d 0) = g from h)]
      have h' := (pick_iff hnd hlt hgl).1 h
      congr 1
      apply List.map_congr_left
      intro j hj
      by_cases hj' : j ∈ axes
      · rw [if_pos hj', if_pos (h' j (List.mem_range.1 hj) hj')]
      · rw [if_neg hj']
    · rw [if_neg (show ¬ (axes.map fun d => c.getD d 0) = g from h)]
      have h' := mt (pick_iff hnd hlt hgl).2 h
      push_neg at h'
      obtain ⟨j, hj, hja, hne⟩ := h'
      symm
      apply List.prod_eq_zero
      rw [List.mem_map]
      exact ⟨j, List.mem_range.2 hj, by rw [if_pos hja, if_neg hne]⟩
  rw [List.map_congr_left e, sum_prod_axes nmesh fun j i =>
    if j ∈ axes then (if i = g.getD (axes.idxOf j) 0 then F j i else 0) else F j i]
  have hp := removedAxes_perm hnd hlt
  have hperm : (axes ++ removedAxes n axes).Perm (List.range n) := by
    apply List.Subperm.perm_of_length_le
    · exact List.subperm_of_subset hp.nodup fun x hx => List.mem_range.2 (hp.lt x hx)
    · rw [hp.len]; simp
  rw [hn, ← (hperm.map _).prod_eq, List.map_append, List.prod_append]
  congr 2
  · apply List.map_congr_left
    intro j hj
    simp only [if_pos hj]
    have hi := List.idxOf_lt_length_of_mem hj
    have hlt' : g.getD (axes.idxOf j) 0 < nmesh.getD j 0 := by
      have := (validIndex_iff.1 hg).2 (axes.idxOf j) (by simpa [transposed] using hi)
      rw [transposed_getD _ _ hi, List.getD_eq_getElem axes _ hi, List.getElem_idxOf] at this
      exact this
    generalize g.getD (axes.idxOf j) 0 = v at hlt' ⊢
    generalize nmesh.getD j 0 = N at hlt' ⊢
    have h1 := sum_single [N] (x := [v]) (.cons hlt' .nil) fun l => F j (l.getD 0 0)
    rw [sum_ndindex_cons'] at h1
    simp [ndindex] at h1
    rw [← h1]
    congr 1
    apply List.map_congr_left
    intro i _
    by_cases h : i = v
    · rw [if_pos h, if_pos h.symm]
    · rw [if_neg h, if_neg (fun e => h e.symm)]
  · apply List.map_congr_left
    intro j hj
    unfold removedAxes at hj
    rw [List.mem_filter] at hj
    simp only [if_neg (show j ∉ axes by simpa using hj.2)]

end

/-- The weights along one axis add up to one. -/
theorem gridW_sum {w : Resampler ℝ} (hw : w.Valid) {kind : Tuned} (hk : w.kern = Tuned.kern kind) (hsup : w.support = w.kern.native)
    (d : ℕ) {n : ℕ} (hn : 0 < n) (u : ℝ) : ((List.range n).map fun c => gridW w d n u c).sum = 1 := by
  have hnat := hw.native_pos
  have hsz : w.width1 = w.kern.native := by
    unfold Resampler.width1
    split_ifs
    · rfl
    · rw [mul_one, hsup]
  have e : ∀ c : ℕ, gridW w d n u c = cw (tunedStencil kind (unitAxis n) u) c * (fun _ => (1 : ℝ)) (c : ℤ) := by
    intro c
    rw [gridW_axisWeight hw (by rw [hk]; exact tuned_confined kind), hsz, mul_one,
      tunedStencil_eq kind (unitAxis n) u 0 (by simp) (Or.inl rfl), cw_eq_axisWeight (tuned_confined kind), hk]
    simp
  simp only [e]
  have hin : ∀ q ∈ tunedStencil kind (unitAxis n) u, 0 ≤ q.1 ∧ q.1 < ((n : ℕ) : ℤ) := by
    intro q hq
    unfold tunedStencil at hq
    obtain ⟨t, _, ht⟩ := List.mem_map.mp (List.of_mem_zip hq).1
    rw [← ht, tunedWrap_eq]
    exact genWrap_range _ hn t
  have := sum_cw_all n (tunedStencil kind (unitAxis n) u) hin (fun _ => 1)
  rw [this]
  have := tunedStencil_map kind (unitAxis n) u (fun _ => 1)
  simp only [mul_one] at this ⊢
  rw [this, zipWith_snd_sum _ _ (by rw [(tunedSetup_length kind _ _).1, (tunedSetup_length kind _ _).2]), tunedVals_sum kind _ rfl]

/-- The weights of a particle, projected, are the weights of the projected particle. -/
theorem weightAt_projection {w : Resampler ℝ} (hw : w.Valid) {kind : Tuned} (hk : w.kern = Tuned.kern kind) (hsup : w.support = w.kern.native)
    {m m' : PMesh ℝ} (hm : m.OK) (hm' : m'.OK) {axes : List ℕ} (hnd : axes.Nodup) (hlt : ∀ d ∈ axes, d < m.nmesh.length)
    (hn : m'.nmesh = transposed axes m.nmesh) (hb : m'.box = transposed axes m.box) {x : List ℝ} (hx : x.length = m.nmesh.length)
    {g : List ℕ} (hg : ValidIndex m'.nmesh g) :
    projection m.nmesh axes (m.weightAt w x) g = m'.weightAt w (transposed axes x) g := by
  have hconf : Confined w.kern := by rw [hk]; exact tuned_confined kind
  have hl : m'.nmesh.length = axes.length := by rw [hn]; simp [transposed]
  have h1 : projection m.nmesh axes (m.weightAt w x) g = projection m.nmesh axes (fun c => ((List.range m.nmesh.length).map fun j =>
      gridW w m.nmesh.length (m.nmesh.getD j 0) (x.getD j 0 * ((m.nmesh.getD j 0 : ℕ) / m.box.getD j 0)) (c.getD j 0)).prod) g := by
    unfold projection
    apply sum_congr'
    intro c hc
    rw [weightAt_prod hm w hx (mem_ndindex.1 hc).len]
  rw [h1, projection_prod hnd hlt rfl (fun j i => gridW w m.nmesh.length (m.nmesh.getD j 0)
    (x.getD j 0 * ((m.nmesh.getD j 0 : ℕ) / m.box.getD j 0)) i) (by rw [← hn]; exact hg)]
  have h2 : ((removedAxes m.nmesh.length axes).map fun j => ((List.range (m.nmesh.getD j 0)).map fun i =>
      gridW w m.nmesh.length (m.nmesh.getD j 0) (x.getD j 0 * ((m.nmesh.getD j 0 : ℕ) / m.box.getD j 0)) i).sum).prod = 1 := by
    apply List.prod_eq_one
    intro y hy
    obtain ⟨j, hj, rfl⟩ := List.mem_map.1 hy
    unfold removedAxes at hj
    rw [List.mem_filter] at hj
    exact gridW_sum hw hk hsup _ (hm.nmesh_pos (List.mem_range.1 hj.1)) _
  rw [h2, mul_one, weightAt_prod hm' w (by simp [transposed, hl]) hg.len]
  congr 1
  apply List.ext_getElem
  · simp [hl]
  · intro i hi1 hi2
    have hi : i < axes.length := by simpa using hi1
    rw [List.getElem_map, List.getElem_map, List.getElem_range, hn, hb, transposed_getD _ _ hi, transposed_getD _ _ hi, transposed_getD _ _ hi,
      List.getD_eq_getElem axes _ hi, hnd.idxOf_getElem, gridW_axisWeight hw hconf, gridW_axisWeight hw hconf]

theorem phase_extended {nmesh axes : List ℕ} (hnd : axes.Nodup) (hlt : ∀ d ∈ axes, d < nmesh.length) {k c : List ℕ}
    (hk : k.length = axes.length) (hc : c.length = nmesh.length) :
    phase (transposed axes nmesh) k (transposed axes c) = phase nmesh (extended nmesh.length axes k) c := by
  unfold phase
  rw [phaseArg_range nmesh.length _ _ _ rfl (by simp [extended]) hc, phaseArg_range axes.length _ _ _ (by simp [transposed]) hk (by simp [transposed])]
  congr 3
  have h := prod_kept hnd hlt (M := Multiplicative ℝ) fun j => Multiplicative.ofAdd
    (((k.getD (axes.idxOf j) 0 : ℕ) : ℝ) * (c.getD j 0 : ℕ) / (nmesh.getD j 0 : ℕ))
  have e1 : ∀ (l : List ℕ) (f : ℕ → ℝ), (l.map fun j => Multiplicative.ofAdd (f j)).prod = Multiplicative.ofAdd (l.map f).sum := by
    intro l f
    induction l with
    | nil => rfl
    | cons a l ih => simp [ih]
  have e2 : (fun j => if j ∈ axes then Multiplicative.ofAdd (((k.getD (axes.idxOf j) 0 : ℕ) : ℝ) * (c.getD j 0 : ℕ) / (nmesh.getD j 0 : ℕ)) else 1) =
      fun j => Multiplicative.ofAdd (if j ∈ axes then ((k.getD (axes.idxOf j) 0 : ℕ) : ℝ) * (c.getD j 0 : ℕ) / (nmesh.getD j 0 : ℕ) else 0) := by
    funext j
    split_ifs <;> rfl
  rw [e2, e1, e1] at h
  have h := Multiplicative.ofAdd.injective h
  have e3 : ((List.range axes.length).map fun j => ((k.getD j 0 : ℕ) : ℝ) * ((transposed axes c).getD j 0 : ℕ) / ((transposed axes nmesh).getD j 0 : ℕ)) =
      axes.map fun j => ((k.getD (axes.idxOf j) 0 : ℕ) : ℝ) * (c.getD j 0 : ℕ) / (nmesh.getD j 0 : ℕ) := by
    apply List.ext_getElem
    · simp
    · intro i h1 h2
      have hi : i < axes.length := by simpa using h1
      rw [List.getElem_map, List.getElem_map, List.getElem_range, transposed_getD _ _ hi, transposed_getD _ _ hi, List.getD_eq_getElem axes _ hi,
        hnd.idxOf_getElem]
  rw [e3, ← h]
  congr 1
  apply List.map_congr_left
  intro j hj
  have hj := List.mem_range.1 hj
  unfold extended
  rw [getD_map_range _ _ _ _ hj]
  split_ifs <;> simp

/-- The transform of a projection is a slice of the transform. -/
theorem r2c_projection {nmesh axes : List ℕ} (hnd : axes.Nodup) (hlt : ∀ d ∈ axes, d < nmesh.length) (hpos : ∀ n ∈ nmesh, 0 < n)
    (f f' : List ℕ → ℝ) (h : ∀ g, ValidIndex (transposed axes nmesh) g → f' g = projection nmesh axes f g) {k : List ℕ}
    (hk : ValidIndex (transposed axes nmesh) k) :
    r2c (transposed axes nmesh) f' k =
      (((nmesh.prod : ℕ) : ℝ) / ((transposed axes nmesh).prod : ℕ) : ℝ) * r2c nmesh f (extended nmesh.length axes k) := by
  have hkl : k.length = axes.length := by rw [hk.len]; simp [transposed]
  unfold r2c
  rw [prod_inv, prod_inv]
  have hp : ((nmesh.prod : ℕ) : ℂ) ≠ 0 := by
    exact_mod_cast (List.prod_pos hpos).ne'
  have hmain : dftForward (transposed axes nmesh) (fun x => (f' x : ℂ)) k =
      dftForward nmesh (fun x => (f x : ℂ)) (extended nmesh.length axes k) := by
    rw [dftForward_eq, dftForward_eq]
    have e : ∀ g ∈ ndindex (transposed axes nmesh), ((f' g : ℝ) : ℂ) * (starRingEnd ℂ) (phase (transposed axes nmesh) k g) =
        ((ndindex nmesh).map fun c => if transposed axes c = g then (f c : ℂ) * (starRingEnd ℂ) (phase (transposed axes nmesh) k g) else 0).sum := by
      intro g hg
      rw [h g (mem_ndindex.1 hg)]
      unfold projection
      have e0 : ∀ l : List (List ℕ), (((l.map fun c => if (axes.map fun d => c.getD d 0) = g then f c else 0).sum : ℝ) : ℂ) *
          (starRingEnd ℂ) (phase (transposed axes nmesh) k g) =
          (l.map fun c => if transposed axes c = g then (f c : ℂ) * (starRingEnd ℂ) (phase (transposed axes nmesh) k g) else 0).sum := by
        intro l
        induction l with
        | nil => simp
        | cons a l ih =>
          rw [List.map_cons, List.sum_cons, List.map_cons, List.sum_cons, ← ih]
          unfold transposed
          split_ifs
          · push_cast; ring
          · push_cast; ring
      exact e0 _
    rw [List.map_congr_left e, sum_swapC]
    apply sum_congr'
    intro c hc
    have hc := mem_ndindex.1 hc
    have hcv : ValidIndex (transposed axes nmesh) (transposed axes c) := by
      rw [validIndex_iff]
      refine ⟨by simp [transposed], fun j hj => ?_⟩
      have hj : j < axes.length := by simpa [transposed] using hj
      rw [transposed_getD _ _ hj, transposed_getD _ _ hj]
      refine (validIndex_iff.1 hc).2 _ (hlt _ ?_)
      rw [List.getD_eq_getElem _ _ hj]
      exact List.getElem_mem _
    rw [sum_single _ hcv fun g => (f c : ℂ) * (starRingEnd ℂ) (phase (transposed axes nmesh) k g), phase_extended hnd hlt hkl hc.len]
  rw [hmain]
  generalize nmesh.prod = P at hp
  generalize (transposed axes nmesh).prod = Q
  push_cast
  field_simp

end Pmesh
