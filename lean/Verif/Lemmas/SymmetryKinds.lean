import Verif.Lemmas.Symmetry
import Verif.Lemmas.Preview

/-! # Exchange of axes, mirror images, and units are symmetries -/

namespace Pmesh

open Complex

/-! ### exchange of axes -/

theorem transposed_getD {α : Type} [Zero α] (axes : List ℕ) (l : List α) {j : ℕ} (hj : j < axes.length) :
    (transposed axes l).getD j 0 = l.getD (axes.getD j 0) 0 := by
  unfold transposed
  rw [List.getD_eq_getElem _ _ (by simpa using hj), List.getD_eq_getElem axes _ hj]
  simp

theorem phaseArg_range : ∀ (n : ℕ) (nmesh k x : List ℕ), nmesh.length = n → k.length = n → x.length = n →
    phaseArg nmesh k x = ((List.range n).map fun j => ((k.getD j 0 : ℕ) : ℝ) * (x.getD j 0 : ℕ) / (nmesh.getD j 0 : ℕ)).sum
  | 0, nmesh, k, x, h, _, _ => by simp [List.length_eq_zero_iff.1 h, phaseArg]
  | n + 1, m :: ms, k :: ks, x :: xs, h1, h2, h3 => by
    rw [phaseArg, phaseArg_range n ms ks xs (by simpa using h1) (by simpa using h2) (by simpa using h3), List.range_succ_eq_map,
      List.map_cons, List.sum_cons, List.map_map]
    rfl

section
variable {axes : List ℕ} {n : ℕ} (ha : axes.Perm (List.range n))
include ha

theorem axes_len : axes.length = n := by simpa using ha.length_eq

theorem axes_lt {j : ℕ} (hj : j < n) : axes.getD j 0 < n := by
  rw [List.getD_eq_getElem _ _ (by rw [axes_len ha]; exact hj)]
  exact List.mem_range.1 (ha.subset (List.getElem_mem _))

theorem sum_axes {M : Type} [AddCommMonoid M] (f : ℕ → M) :
    ((List.range n).map fun j => f (axes.getD j 0)).sum = ((List.range n).map f).sum := by
  rw [← (ha.map f).sum_eq]
  congr 1
  apply List.ext_getElem
  · simp [axes_len ha]
  · intro i h1 h2
    simp at h1 h2
    simp [h2]

theorem prod_axes {M : Type} [CommMonoid M] (f : ℕ → M) :
    ((List.range n).map fun j => f (axes.getD j 0)).prod = ((List.range n).map f).prod := by
  rw [← (ha.map f).prod_eq]
  congr 1
  apply List.ext_getElem
  · simp [axes_len ha]
  · intro i h1 h2
    simp at h1 h2
    simp [h2]

theorem transposed_valid {nmesh g : List ℕ} (hn : nmesh.length = n) (hg : ValidIndex nmesh g) :
    ValidIndex (transposed axes nmesh) (transposed axes g) := by
  rw [validIndex_iff] at hg ⊢
  refine ⟨by simp [transposed], fun j hj => ?_⟩
  have hj : j < axes.length := by simpa [transposed] using hj
  rw [transposed_getD _ _ hj, transposed_getD _ _ hj]
  exact hg.2 _ (by rw [hn]; exact axes_lt ha (by rw [← axes_len ha]; exact hj))

theorem transposed_inj {g g' : List ℕ} (h1 : g.length = n) (h2 : g'.length = n) (h : transposed axes g = transposed axes g') : g = g' := by
  apply List.ext_getElem (by omega)
  intro i hi hi'
  have hm : i ∈ axes := ha.symm.subset (List.mem_range.2 (by omega))
  have := List.map_inj_left.1 h i hm
  rwa [List.getD_eq_getElem _ _ hi, List.getD_eq_getElem _ _ hi'] at this

theorem prod_range (l : List ℕ) (hl : l.length = n) {M : Type} [CommMonoid M] (f : ℕ → M) :
    (l.map f).prod = ((List.range n).map fun j => f (l.getD j 0)).prod := by
  congr 1
  apply List.ext_getElem
  · simp [hl]
  · intro i h1 h2
    simp at h1 h2
    simp [h1]

theorem prod_transposed (l : List ℕ) (hl : l.length = n) {M : Type} [CommMonoid M] (f : ℕ → M) :
    ((transposed axes l).map f).prod = (l.map f).prod := by
  rw [prod_range ha l hl, ← prod_axes ha, prod_range ha (transposed axes l) (by simp [transposed, axes_len ha])]
  congr 1
  apply List.map_congr_left
  intro j hj
  rw [transposed_getD _ _ (by rw [axes_len ha]; exact List.mem_range.1 hj)]

end

theorem symmetry_transposed {w : Resampler ℝ} {m m' : PMesh ℝ} (hm : m.OK) (hm' : m'.OK) {axes : List ℕ}
    (ha : axes.Perm (List.range m.nmesh.length)) (hn : m'.nmesh = transposed axes m.nmesh) (hb : m'.box = transposed axes m.box) :
    Symmetry w m m' (transposed axes) (transposed axes) where
  perm := by
    rw [hn]
    refine (List.Subperm.perm_of_length_le (List.subperm_of_subset ?_ ?_) ?_)
    · refine List.Nodup.map_on (fun a h1 b h2 h => ?_) (ndindex_nodup _)
      exact transposed_inj ha (mem_ndindex.1 h1).len (mem_ndindex.1 h2).len h
    · intro c hc
      obtain ⟨g, hg, rfl⟩ := List.mem_map.1 hc
      exact mem_ndindex.2 (transposed_valid ha rfl (mem_ndindex.1 hg))
    · rw [List.length_map, ndindex_length, ndindex_length]
      have := prod_transposed ha m.nmesh rfl (fun n => n)
      simp at this
      exact this.le
  vol := by rw [hn, prod_transposed ha m.nmesh rfl]
  weight := by
    intro x hx g hg
    have hl : m'.nmesh.length = m.nmesh.length := by rw [hn]; simp [transposed, axes_len ha]
    rw [weightAt_prod hm w hx hg.len, weightAt_prod hm' w (by simp [transposed, hl, axes_len ha]) (by simp [transposed, hl, axes_len ha]), hl]
    refine Eq.trans ?_ (prod_axes ha fun j => gridW w m.nmesh.length (m.nmesh.getD j 0)
      (x.getD j 0 * ((m.nmesh.getD j 0 : ℕ) / m.box.getD j 0)) (g.getD j 0))
    congr 1
    apply List.map_congr_left
    intro j hj
    have hj : j < axes.length := by rw [axes_len ha]; exact List.mem_range.1 hj
    rw [hn, hb, transposed_getD _ _ hj, transposed_getD _ _ hj, transposed_getD _ _ hj, transposed_getD _ _ hj]
  phase := by
    intro k g hk hg
    unfold phase
    have hl : m'.nmesh.length = m.nmesh.length := by rw [hn]; simp [transposed, axes_len ha]
    rw [phaseArg_range m.nmesh.length _ _ _ rfl hk.len hg.len, phaseArg_range m.nmesh.length _ _ _ hl (by simp [transposed, axes_len ha])
      (by simp [transposed, axes_len ha]),
      ← sum_axes ha fun j => ((k.getD j 0 : ℕ) : ℝ) * (g.getD j 0 : ℕ) / (m.nmesh.getD j 0 : ℕ)]
    congr 4
    apply List.map_congr_left
    intro j hj
    have hj : j < axes.length := by rw [axes_len ha]; exact List.mem_range.1 hj
    rw [hn, transposed_getD _ _ hj, transposed_getD _ _ hj, transposed_getD _ _ hj]
  opp := by
    intro k hk
    rw [hn]
    unfold opposite transposed
    rw [List.zipWith_map, List.zipWith_self]
    apply List.map_congr_left
    intro a hax
    have := List.mem_range.1 (ha.subset hax)
    exact getD_zipWith _ _ _ _ _ _ _ this (by rw [hk.len]; exact this)

/-! ### mirror images -/

theorem mirrored_getD {K : Type} [Field K] : ∀ (flip : List Bool) (box x : List K) (j : ℕ), flip.length = x.length → box.length = x.length →
    j < x.length → (mirrored flip box x).getD j 0 = if flip.getD j false then box.getD j 0 - x.getD j 0 else x.getD j 0
  | f :: fs, b :: bs, x :: xs, 0, _, _, _ => rfl
  | f :: fs, b :: bs, x :: xs, j + 1, h1, h2, h3 => by
    have := mirrored_getD fs bs xs j (by simpa using h1) (by simpa using h2) (by simpa using h3)
    simpa [mirrored] using this
  | [], _, _ :: _, _, h, _, _ => by simp at h
  | _, [], _ :: _, _, _, h, _ => by simp at h
  | _, _, [], _, _, _, h => by simp at h

theorem mirroredCell_getD : ∀ (flip : List Bool) (nmesh x : List ℕ) (j : ℕ), flip.length = x.length → nmesh.length = x.length →
    j < x.length → (mirroredCell flip nmesh x).getD j 0 =
      if flip.getD j false then (nmesh.getD j 0 - x.getD j 0) % nmesh.getD j 0 else x.getD j 0
  | f :: fs, b :: bs, x :: xs, 0, _, _, _ => rfl
  | f :: fs, b :: bs, x :: xs, j + 1, h1, h2, h3 => by
    have := mirroredCell_getD fs bs xs j (by simpa using h1) (by simpa using h2) (by simpa using h3)
    simpa [mirroredCell] using this
  | [], _, _ :: _, _, h, _, _ => by simp at h
  | _, [], _ :: _, _, _, h, _ => by simp at h
  | _, _, [], _, _, _, h => by simp at h

theorem mirrored_length {K : Type} [Field K] : ∀ (flip : List Bool) (box x : List K), flip.length = x.length → box.length = x.length →
    (mirrored flip box x).length = x.length
  | [], [], [], _, _ => rfl
  | f :: fs, b :: bs, x :: xs, h1, h2 => by
    rw [mirrored, List.length_cons, List.length_cons, mirrored_length fs bs xs (by simpa using h1) (by simpa using h2)]
  | [], _, _ :: _, h, _ => by simp at h
  | _, [], _ :: _, _, h => by simp at h
  | _ :: _, _, [], h, _ => by simp at h
  | _, _ :: _, [], _, h => by simp at h

theorem mirroredCell_valid : ∀ {flip : List Bool} {nmesh g : List ℕ}, flip.length = nmesh.length → ValidIndex nmesh g →
    ValidIndex nmesh (mirroredCell flip nmesh g)
  | [], [], [], _, _ => .nil
  | f :: fs, n :: ns, i :: is, h, .cons h1 h2 => by
    refine .cons ?_ (mirroredCell_valid (by simpa using h) h2)
    split_ifs
    · exact Nat.mod_lt _ (by omega)
    · exact h1

theorem mod_neg_neg {n i : ℕ} (h : i < n) : (n - (n - i) % n) % n = i := by
  by_cases h0 : i = 0
  · subst h0; simp
  · rw [Nat.mod_eq_of_lt (a := n - i) (by omega), Nat.mod_eq_of_lt (by omega)]
    omega

theorem mirroredCell_twice : ∀ {flip : List Bool} {nmesh g : List ℕ}, flip.length = nmesh.length → ValidIndex nmesh g →
    mirroredCell flip nmesh (mirroredCell flip nmesh g) = g
  | [], [], [], _, _ => rfl
  | f :: fs, n :: ns, i :: is, h, .cons h1 h2 => by
    simp only [mirroredCell]
    rw [mirroredCell_twice (by simpa using h) h2]
    split_ifs
    · rw [mod_neg_neg h1]
    · rfl

theorem phase_mirrored : ∀ {flip : List Bool} {nmesh k g : List ℕ}, flip.length = nmesh.length → ValidIndex nmesh k → ValidIndex nmesh g →
    phase nmesh (mirroredCell flip nmesh k) (mirroredCell flip nmesh g) = phase nmesh k g
  | [], [], [], [], _, _, _ => rfl
  | f :: fs, n :: ns, k :: ks, g :: gs, h, .cons h1 h2, .cons h3 h4 => by
    rw [mirroredCell, mirroredCell, phase_cons, phase_cons, phase_mirrored (by simpa using h) h2 h4]
    congr 1
    split_ifs
    · have e1 := phase_opposite (nmesh := [n]) (k := [k]) (.cons h1 .nil) [(n - g) % n]
      have e2 := phase_opposite (nmesh := [n]) (k := [g]) (.cons h3 .nil) [k]
      have e3 : opposite [n] [k] = [(n - k) % n] := rfl
      have e4 : opposite [n] [g] = [(n - g) % n] := rfl
      rw [e3] at e1
      rw [e4, phase_comm _ [g]] at e2
      rw [phase_comm _ [k], e2, Complex.conj_conj] at e1
      simpa [phase_cons, phase, phaseArg] using e1
    · rfl

theorem opposite_mirrored : ∀ {flip : List Bool} {nmesh k : List ℕ}, flip.length = nmesh.length → ValidIndex nmesh k →
    mirroredCell flip nmesh (opposite nmesh k) = opposite nmesh (mirroredCell flip nmesh k)
  | [], [], [], _, _ => rfl
  | f :: fs, n :: ns, k :: ks, h, .cons h1 h2 => by
    have ih := opposite_mirrored (flip := fs) (by simpa using h) h2
    unfold opposite at ih ⊢
    simp only [List.zipWith_cons_cons, mirroredCell]
    rw [ih]
    split_ifs <;> rfl

theorem symmetry_mirrored {w : Resampler ℝ} (hw : w.Valid) (hk : Confined w.kern) (heven : ∀ x, w.kern.kernel (-x) = w.kern.kernel x)
    {m m' : PMesh ℝ} (hm : m.OK) (hm' : m'.OK) {flip : List Bool} (hf : flip.length = m.nmesh.length) (hn : m'.nmesh = m.nmesh)
    (hb : m'.box = m.box) : Symmetry w m m' (mirrored flip m.box) (mirroredCell flip m.nmesh) where
  perm := by
    rw [hn]
    refine (List.Subperm.perm_of_length_le (List.subperm_of_subset ?_ ?_) (by simp))
    · refine List.Nodup.map_on (fun a h1 b h2 h => ?_) (ndindex_nodup _)
      rw [← mirroredCell_twice hf (mem_ndindex.1 h1), h, mirroredCell_twice hf (mem_ndindex.1 h2)]
    · intro c hc
      obtain ⟨g, hg, rfl⟩ := List.mem_map.1 hc
      exact mem_ndindex.2 (mirroredCell_valid hf (mem_ndindex.1 hg))
  vol := by rw [hn]
  weight := by
    intro x hx g hg
    rw [weightAt_prod hm w hx hg.len, weightAt_prod hm' w (by rw [mirrored_length _ _ _ (by omega) (by rw [hm.box_len, hx]), hx, hn])
      (by rw [hn]; exact (mirroredCell_valid hf hg).len), hn, hb]
    congr 1
    apply List.map_congr_left
    intro j hj
    have hj := List.mem_range.1 hj
    rw [mirrored_getD _ _ _ _ (by omega) (by rw [hm.box_len, hx]) (by omega),
      mirroredCell_getD _ _ _ _ (by rw [hg.len, hf]) hg.len.symm (by rw [hg.len]; exact hj)]
    have hb0 : m.box.getD j 0 ≠ 0 := by
      rw [List.getD_eq_getElem _ _ (by rw [hm.box_len]; exact hj)]
      exact (hm.box_pos _ (List.getElem_mem _)).ne'
    split_ifs
    · rw [sub_mul, mul_div_cancel₀ _ hb0]
      exact gridW_mirror hw hk heven _ _ _ ((validIndex_iff.1 hg).2 j hj)
    · rfl
  phase := by
    intro k g hk hg
    rw [hn, phase_mirrored hf hk hg]
  opp := by
    intro k hk
    rw [hn, opposite_mirrored hf hk]

/-! ### units -/

theorem symmetry_units {w : Resampler ℝ} {m m' : PMesh ℝ} (hm : m.OK) (hm' : m'.OK) {lam : ℝ} (hl : lam ≠ 0) (hn : m'.nmesh = m.nmesh)
    (hb : m'.box = m.box.map (lam * ·)) : Symmetry w m m' (fun x => x.map (lam * ·)) (fun g => g) where
  perm := by rw [hn]; simp
  vol := by rw [hn]
  weight := by
    intro x hx g hg
    rw [weightAt_prod hm w hx hg.len, weightAt_prod hm' w (by rw [hn]; simpa using hx) (by rw [hn]; exact hg.len), hn, hb]
    congr 1
    apply List.map_congr_left
    intro j hj
    have hj := List.mem_range.1 hj
    have e : ∀ l : List ℝ, (l.map (lam * ·)).getD j 0 = lam * l.getD j 0 := by
      intro l
      by_cases h : j < l.length
      · rw [List.getD_eq_getElem _ _ (by simpa using h), List.getD_eq_getElem _ _ h]; simp
      · rw [List.getD_eq_default _ _ (by simpa using h), List.getD_eq_default _ _ (by simpa using h)]; simp
    rw [e, e]
    congr 1
    have hb0 : m.box.getD j 0 ≠ 0 := by
      rw [List.getD_eq_getElem _ _ (by rw [hm.box_len]; exact hj)]
      exact (hm.box_pos _ (List.getElem_mem _)).ne'
    field_simp
  phase := by intro k g _ _; rw [hn]
  opp := by intro k _; rw [hn]

end Pmesh
