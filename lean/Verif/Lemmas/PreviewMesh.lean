import Verif.Model.PreviewMesh
import Verif.Lemmas.Slice
import Verif.Lemmas.CheckGrad
import Verif.Lemmas.OldCicNumpy
import Verif.Lemmas.Translate
import Verif.Lemmas.Regrid

/-! # Lemmas on `preview` with another mesh -/

namespace Pmesh

section
variable {K : Type} [Field K] [LinearOrder K] [IsStrictOrderedRing K] [FloorRing K]

theorem previewField_eq {m : PMesh K} (hm : m.OK) {axes : List ℕ} (hnd : axes.Nodup) (hlt : ∀ d ∈ axes, d < m.nmesh.length)
    (hord : axes.length = m.nmesh.length → axes = List.range m.nmesh.length) {field : ℕ → ℤ → K} {G : List ℕ → K}
    (hf : ∀ r < m.nrank, ∀ c, ValidIndex (m.localShape r) c → field r (m.addr r c) = G (m.global r c)) :
    AllReturn m.nrank (fun r => previewField m axes r (field r)) (fun _ => .ok (projected m.nmesh axes G)) := by
  have h := C35_projection_partial m.tiling (tiling_ok hm) axes hnd hlt hord (fun r c => field r (m.addr r c)) G hf
  have h2 := AllReturn.mapRet (fun
    | .error e => .error (.numpy e)
    | .ok l => .ok l : Except String (List K) → Except PreviewErr (List K)) (AllReturn.embed (f := Msg.row) (g := Msg.getRow) (fun _ => rfl) h)
  exact h2

/-- The weight of a point of another mesh over the same box in terms of `weightAt`. -/
theorem regridWeight_weightAt {m : PMesh K} (n : List ℕ) (w : Resampler K) {g C : List ℕ} (hg : g.length = m.nmesh.length)
    (hC : C.length = m.nmesh.length) : regridWeight m n w g C = (m.withBox n).weightAt w (g.map Nat.cast) C := by
  unfold regridWeight PMesh.weightAt
  exact weight_strides (m.withBox n) w [] _ (by simpa [PMesh.withBox] using hg) (by simpa [PMesh.withBox] using hC)

theorem emod_shift_exists (a s n : ℤ) : ∃ t : ℤ, (a + s) % n = a + s - n * t := ⟨(a + s) / n, by have := Int.emod_add_mul_ediv (a + s) n; omega⟩

/-- The weights of a mesh that is `k` times finer move with whole cells of the coarse mesh. -/
theorem regridWeight_moved {m : PMesh K} (hm : m.OK) (w : Resampler K) {n k : List ℕ} (hn : n.length = m.nmesh.length) (hk : k.length = m.nmesh.length)
    (hnk : ∀ j < m.nmesh.length, n.getD j 0 = k.getD j 0 * m.nmesh.getD j 0) (hnp : ∀ x ∈ n, 0 < x) {g C : List ℕ} (hg : ValidIndex n g)
    (hC : ValidIndex m.nmesh C) {s : List ℤ} (hs : s.length = m.nmesh.length) :
    regridWeight m n w (movedCell n (List.zipWith (fun (s : ℤ) (k : ℕ) => s * k) s k) g) (movedCell m.nmesh s C) = regridWeight m n w g C := by
  have hsk : (List.zipWith (fun (s : ℤ) (k : ℕ) => s * k) s k).length = n.length := by simp [hs, hk, hn]
  have hb := withBox_ok hm hn hnp
  have hg' := movedCell_valid hsk hg
  have hgl := hg.len
  have hl : ∀ j < m.nmesh.length, ∃ t : ℤ, (((movedCell n (List.zipWith (fun (s : ℤ) (k : ℕ) => s * k) s k) g).getD j 0 : ℕ) : ℤ) =
      g.getD j 0 + k.getD j 0 * (s.getD j 0 - m.nmesh.getD j 0 * t) := by
    intro j hj
    have hnj : 0 < n.getD j 0 := by
      rw [List.getD_eq_getElem _ _ (by omega)]
      exact hnp _ (List.getElem_mem _)
    obtain ⟨t, ht⟩ := emod_shift_exists (g.getD j 0) ((List.zipWith (fun (s : ℤ) (k : ℕ) => s * k) s k).getD j 0) (n.getD j 0)
    refine ⟨t, ?_⟩
    rw [movedCell_getD hsk hgl (by omega), Int.toNat_of_nonneg (Int.emod_nonneg _ (by omega)), ht, hnk j hj]
    have e : (List.zipWith (fun (s : ℤ) (k : ℕ) => s * k) s k).getD j 0 = s.getD j 0 * k.getD j 0 := by
      rw [List.getD_eq_getElem _ _ (by omega), List.getElem_zipWith, List.getD_eq_getElem _ _ (by omega), List.getD_eq_getElem _ _ (by omega)]
    rw [e]
    push_cast
    ring
  choose! t ht using hl
  set s' : List ℤ := (List.range m.nmesh.length).map fun j => s.getD j 0 - m.nmesh.getD j 0 * t j with hs'
  have hs'l : s'.length = m.nmesh.length := by simp [hs']
  have hs'j : ∀ j < m.nmesh.length, s'.getD j 0 = s.getD j 0 - m.nmesh.getD j 0 * t j := by
    intro j hj
    rw [List.getD_eq_getElem _ _ (by omega)]
    simp [hs']
  have hCm := movedCell_valid hs hC
  have e1 : movedCell m.nmesh s C = movedCell m.nmesh s' C := by
    apply List.ext_getElem (by rw [hCm.len, (movedCell_valid hs'l hC).len])
    intro j h1 h2
    have hj : j < m.nmesh.length := by rw [← hCm.len]; exact h1
    have a1 := movedCell_getD hs hC.len hj
    have a2 := movedCell_getD hs'l hC.len hj
    rw [List.getD_eq_getElem _ _ h1] at a1
    rw [List.getD_eq_getElem _ _ h2] at a2
    rw [a1, a2, hs'j j hj]
    congr 1
    rw [show ((C.getD j 0 : ℕ) : ℤ) + (s.getD j 0 - (m.nmesh.getD j 0 : ℕ) * t j) = ((C.getD j 0 : ℕ) + s.getD j 0) + (m.nmesh.getD j 0 : ℕ) * (-t j) by ring,
      Int.add_mul_emod_self_left]
  have hgl' : (movedCell n (List.zipWith (fun (s : ℤ) (k : ℕ) => s * k) s k) g).length = m.nmesh.length := by rw [hg'.len]; exact hn
  have e2 : (movedCell n (List.zipWith (fun (s : ℤ) (k : ℕ) => s * k) s k) g).map (Nat.cast : ℕ → K) =
      shiftedPos m.nmesh (m.withBox n).box s' (g.map Nat.cast) := by
    have hgc : (g.map (Nat.cast : ℕ → K)).length = m.nmesh.length := by rw [List.length_map]; omega
    have hlen := shiftedPos_length (nmesh := m.nmesh) (box := (m.withBox n).box) hb.box_len hs'l hgc
    apply List.ext_getElem (by rw [hlen, List.length_map, hgl'])
    intro j h1 h2
    have hj : j < m.nmesh.length := by rw [hlen] at h2; exact h2
    have a := shiftedPos_getD (nmesh := m.nmesh) (box := (m.withBox n).box) hb.box_len hs'l hgc hj
    rw [List.getD_eq_getElem _ _ h2, hs'j j hj] at a
    have b := ht j hj
    rw [List.getD_eq_getElem _ _ (by omega)] at b
    rw [a, List.getElem_map, getD_map_cast _ (by omega)]
    have hbj : (m.withBox n).box.getD j 0 = ((n.getD j 0 : ℕ) : K) := getD_map_cast n (by omega)
    rw [hbj, hnk j hj]
    have hn0 : ((m.nmesh.getD j 0 : ℕ) : K) ≠ 0 := Nat.cast_ne_zero.2 (hm.nmesh_pos hj).ne'
    have b' : (((movedCell n (List.zipWith (fun (s : ℤ) (k : ℕ) => s * k) s k) g)[j]'(by omega) : ℕ) : K) =
        (((g.getD j 0 : ℕ) + (k.getD j 0 : ℕ) * (s.getD j 0 - (m.nmesh.getD j 0 : ℕ) * t j) : ℤ) : K) := by
      rw [← b]; push_cast; rfl
    rw [b']
    push_cast
    field_simp
  rw [regridWeight_weightAt n w hgl' hCm.len, regridWeight_weightAt (m := m) n w (by omega) hC.len, e1, e2]
  exact weightAt_moved hb w hs'l (by rw [List.length_map]; show g.length = m.nmesh.length; omega) hC

/-- The points of a mesh that is `k` times finer put the same weight into every cell. -/
theorem regridWeight_column {m : PMesh K} (hm : m.OK) {w : Resampler K} (hw : w.Valid) {kind : Tuned} (hkk : w.kern = Tuned.kern kind)
    (hsup : w.support = w.kern.native) {n k : List ℕ} (hn : n.length = m.nmesh.length) (hk : k.length = m.nmesh.length)
    (hnk : ∀ j < m.nmesh.length, n.getD j 0 = k.getD j 0 * m.nmesh.getD j 0) (hnp : ∀ x ∈ n, 0 < x) {C : List ℕ} (hC : ValidIndex m.nmesh C) :
    ((ndindex n).map fun g => regridWeight m n w g C).sum = (n.prod : ℕ) / (m.nmesh.prod : ℕ) := by
  set D : List ℕ → K := fun C => ((ndindex n).map fun g => regridWeight m n w g C).sum with hD
  have h0 : ValidIndex m.nmesh (m.nmesh.map fun _ => 0) := by
    rw [validIndex_iff]
    refine ⟨by simp, fun j hj => ?_⟩
    have := hm.nmesh_pos hj
    simpa [List.getD_eq_getElem?_getD, hj] using this
  have hconst : ∀ C, ValidIndex m.nmesh C → D C = D (m.nmesh.map fun _ => 0) := by
    intro C hC
    set s : List ℤ := C.map Nat.cast with hs
    have hsl : s.length = m.nmesh.length := by rw [hs, List.length_map, hC.len]
    have e : movedCell m.nmesh s (m.nmesh.map fun _ => 0) = C := by
      apply List.ext_getElem (by rw [(movedCell_valid hsl h0).len, hC.len])
      intro j h1 h2
      have hj : j < m.nmesh.length := by rw [← hC.len]; exact h2
      have a := movedCell_getD hsl h0.len hj
      rw [List.getD_eq_getElem _ _ h1] at a
      rw [a]
      have hlt := (validIndex_iff.1 hC).2 j hj
      rw [List.getD_eq_getElem _ _ h2] at hlt
      have e1 : s.getD j 0 = ((C[j] : ℕ) : ℤ) := by rw [List.getD_eq_getElem _ _ (by omega)]; simp [hs]
      have e2 : (m.nmesh.map fun _ => 0).getD j 0 = 0 := by simp [List.getD_eq_getElem?_getD, hj]
      rw [e1, e2, Int.emod_eq_of_lt (by omega) (by push_cast; omega)]
      simp
    rw [hD]
    simp only
    rw [← sum_movedCell n (List.zipWith (fun (s : ℤ) (k : ℕ) => s * k) s k) (by simp [hsl, hk, hn])]
    congr 1
    apply List.map_congr_left
    intro g hg
    have := regridWeight_moved hm w hn hk hnk hnp (mem_ndindex.1 hg) h0 hsl
    rw [e] at this
    exact this
  have htot : ((ndindex m.nmesh).map D).sum = (n.prod : ℕ) := by
    rw [hD]
    rw [list_sum_comm]
    have : ((ndindex n).map fun g => ((ndindex m.nmesh).map fun C => regridWeight m n w g C).sum) = (ndindex n).map fun _ => (1 : K) := by
      apply List.map_congr_left
      intro g hg
      exact regridWeight_sum hm hn hnp hw hkk hsup (by rw [(mem_ndindex.1 hg).len]; exact hn)
    rw [this]
    simp [ndindex_length]
  have hall : ((ndindex m.nmesh).map D).sum = (m.nmesh.prod : ℕ) * D C := by
    have : (ndindex m.nmesh).map D = (ndindex m.nmesh).map fun _ => D C := by
      apply List.map_congr_left
      intro C' hC'
      rw [hconst _ (mem_ndindex.1 hC'), hconst _ hC]
    rw [this]
    simp [ndindex_length]
  have hp : ((m.nmesh.prod : ℕ) : K) ≠ 0 := by
    have : 0 < m.nmesh.prod := List.prod_pos (nmesh_pos' hm)
    exact_mod_cast this.ne'
  rw [eq_div_iff hp, mul_comm, ← hall, htot]

/-- A point that is on a mesh point, seen by the windows `nnb` and `cic`. -/
theorem grid_weight {w : Resampler K} (hw : w.Valid) {kind : Tuned} (hkind : kind = .nnb ∨ kind = .cic) (hkk : w.kern = Tuned.kern kind)
    (hsup : w.support = w.kern.native) {m : PMesh K} (hm : m.OK) (st : List ℤ) {x : List K} (hx : x.length = m.nmesh.length) {g : List ℕ}
    (hg : ValidIndex m.nmesh g) (hxg : ∀ j < m.nmesh.length, m.scale.getD j 0 * x.getD j 0 = (g.getD j 0 : ℕ)) {C : List ℕ}
    (hC : ValidIndex m.nmesh C) :
    cwProd (List.zipWith (axisStencil ((m.serial st).painter w none 0) 1)
      ((m.serial st).painter w none 0).axes x) C = if g = C then 1 else 0 := by
  have hgl := hg.len
  have hCl := hC.len
  rw [cwProd_painter (m.serial st) w none 0 1 x hx C hCl, ← prod_ite_eq (K := K) hgl hCl]
  congr 1
  apply List.map_congr_left
  intro j hj
  have hj : j < m.nmesh.length := List.mem_range.1 hj
  have hP : ((m.serial st).painter w none 0).Valid := painter_valid (m := m.serial st) hw hm.dim none 0
  rw [axisStencil_native hP kind hkk 1 (by
      unfold windowSize
      show (if (w.support : K) * 1 ≤ 0 then (w.kern.native : K) else w.support * 1) = w.kern.native
      rw [hsup]
      split <;> simp) _ (by simp)]
  unfold tunedStencil cw
  have hs0 : (((m.serial st).start 0).getD j 0 : ℕ) = 0 := by
    rw [serial_start, getD_map' _ _ 0 _ _ hj]
  have hgr : (PAxis.mk (if (none : Option ℕ) = some j then 1 else 0) ((m.serial st).scale.getD j 0)
      (-((((m.serial st).start 0).getD j 0 : ℕ) : K)) ((m.serial st).nmesh.getD j 0) (((m.serial st).localShape 0).getD j 0)
      (((m.serial st).strides 0).getD j 0)).grid (x.getD j 0) = (g.getD j 0 : ℕ) := by
    unfold PAxis.grid
    rw [hs0, ← hxg j hj]
    show x.getD j 0 * m.scale.getD j 0 + _ = _
    push_cast
    ring
  have hlt := (validIndex_iff.1 hg).2 j hj
  have hw : tunedWrap ((m.serial st).nmesh.getD j 0) ((g.getD j 0 : ℕ) : ℤ) = ((g.getD j 0 : ℕ) : ℤ) := by
    have : (m.serial st).nmesh = m.nmesh := rfl
    rw [this, tunedWrap_eq, genWrap_isCell]
    unfold IsCell
    rw [if_neg (by omega)]
    exact (Int.emod_eq_of_lt (by omega) (by exact_mod_cast hlt)).symm
  rcases hkind with rfl | rfl
  · simp only [tunedSetup, hgr]
    have hfl : ⌊((g.getD j 0 : ℕ) : K) + 1 / 2⌋ = ((g.getD j 0 : ℕ) : ℤ) := by
      rw [Int.floor_eq_iff]
      constructor
      · push_cast; linarith [show (0 : K) < 1 / 2 by norm_num]
      · push_cast; linarith [show (1 / 2 : K) < 1 by norm_num]
    rw [hfl]
    simp only [reduceCtorEq, if_false, if_true, List.map_cons, List.map_nil, hw, List.zip_cons_cons, List.zip_nil_right, List.sum_cons,
      List.sum_nil, add_zero, Nat.cast_inj]
  · simp only [tunedSetup, hgr]
    have hfl : ⌊((g.getD j 0 : ℕ) : K)⌋ = ((g.getD j 0 : ℕ) : ℤ) := Int.floor_natCast _
    rw [hfl]
    simp only [reduceCtorEq, if_false, if_true, List.map_cons, List.map_nil, hw, List.zip_cons_cons, List.zip_nil_right, List.sum_cons,
      List.sum_nil, add_zero, Nat.cast_inj, Int.cast_natCast, sub_self, sub_zero, ite_self]

theorem projected_sum {shape axes : List ℕ} (hlt : ∀ d ∈ axes, d < shape.length) (G : List ℕ → K) :
    (projected shape axes G).sum = ((ndindex shape).map G).sum := by
  unfold projected projection
  rw [list_sum_comm]
  congr 1
  apply List.map_congr_left
  intro c hc
  rw [mem_ndindex] at hc
  refine sum_single _ (x := axes.map fun d => c.getD d 0) ?_ (fun _ => G c)
  rw [validIndex_iff]
  refine ⟨by simp, fun j hj => ?_⟩
  rw [List.length_map] at hj
  have h := (validIndex_iff.1 hc).2 (axes[j]) (hlt _ (List.getElem_mem _))
  simpa [List.getD_eq_getElem?_getD, hj] using h

theorem projected_congr {shape axes : List ℕ} {F G : List ℕ → K} (h : ∀ c, ValidIndex shape c → F c = G c) :
    projected shape axes F = projected shape axes G := by
  unfold projected projection
  apply List.map_congr_left
  intro g _
  congr 1
  apply List.map_congr_left
  intro c hc
  rw [h c (mem_ndindex.1 hc)]

end
end Pmesh
