import Verif.Lemmas.PreviewMesh
import Verif.Spec.PreviewMesh
import Verif.Props.Regrid

/-! # C110: `preview` at another resolution -/

namespace Pmesh

theorem all_eq_iff {old new : List ℕ} (hl : new.length = old.length) :
    (List.zipWith (fun (a b : ℕ) => decide (a = b)) new old).all id = true ↔ new = old := by
  constructor
  · intro h
    apply List.ext_getElem hl
    intro j h1 h2
    rw [List.all_eq_true] at h
    have := h _ (List.getElem_mem (l := List.zipWith (fun (a b : ℕ) => decide (a = b)) new old) (n := j) (by simp; omega))
    simpa using this
  · rintro rfl
    rw [List.all_eq_true]
    intro b hb
    obtain ⟨j, hj, rfl⟩ := List.getElem_of_mem hb
    simp

theorem any_lt_iff {old new : List ℕ} (hl : new.length = old.length) :
    (List.zipWith (fun (a b : ℕ) => decide (a < b)) new old).any id = true ↔ ∃ d < new.length, new.getD d 0 < old.getD d 0 := by
  rw [List.any_eq_true]
  constructor
  · rintro ⟨b, hb, h⟩
    obtain ⟨j, hj, rfl⟩ := List.getElem_of_mem hb
    have h1 : j < new.length := by simp at hj; omega
    refine ⟨j, h1, ?_⟩
    rw [List.getD_eq_getElem _ _ h1, List.getD_eq_getElem _ _ (by omega)]
    simpa using h
  · rintro ⟨d, hd, h⟩
    refine ⟨_, List.getElem_mem (l := List.zipWith (fun (a b : ℕ) => decide (a < b)) new old) (n := d) (by simp; omega), ?_⟩
    rw [List.getD_eq_getElem _ _ hd, List.getD_eq_getElem _ _ (by omega)] at h
    simpa using h

theorem previewMethod_down {old new : List ℕ} (hl : new.length = old.length) {method : Option String} (h : AsksDown old new method) :
    previewMethod old new method = .ok (some true) := by
  unfold previewMethod
  rw [if_neg fun e => h.1 ((all_eq_iff hl).1 e)]
  rcases h.2 with rfl | ⟨rfl, hd⟩
  · simp
  · simp only [(any_lt_iff hl).2 hd, if_true]

theorem previewMethod_up {old new : List ℕ} (hl : new.length = old.length) {method : Option String} (h : AsksUp old new method) :
    previewMethod old new method = .ok (some false) := by
  unfold previewMethod
  rw [if_neg fun e => h.1 ((all_eq_iff hl).1 e)]
  rcases h.2 with rfl | ⟨rfl, hd⟩
  · simp
  · have : ¬ (List.zipWith (fun (a b : ℕ) => decide (a < b)) new old).any id = true := by
      rw [any_lt_iff hl]
      push Not
      exact hd
    simp only [this]
    simp

section
variable {K : Type} [Field K] [LinearOrder K] [IsStrictOrderedRing K] [FloorRing K]

/-- **C110**: if the mesh already has the requested number of cells, `preview` returns the field itself, or its projection, on every rank, whatever the
window and the method. -/
theorem C110_same_partial (src dst : PMesh K) (hs : src.OK) (hsame : dst.nmesh = src.nmesh) (w : Resampler K) (method : Option String) (axes : List ℕ)
    (hnd : axes.Nodup) (hlt : ∀ d ∈ axes, d < src.nmesh.length) (hord : axes.length = src.nmesh.length → axes = List.range src.nmesh.length)
    (field : ℕ → ℤ → K) (G : List ℕ → K) (hf : src.HoldsField field G) :
    AllReturn src.nrank (fun r => previewMesh src dst w method axes r (field r)) (fun _ => .ok (projected src.nmesh axes G)) := by
  have e : previewMethod src.nmesh dst.nmesh method = .ok none := by
    unfold previewMethod
    rw [if_pos ((all_eq_iff (by rw [hsame])).2 hsame)]
  simp only [previewMesh, e]
  exact previewField_eq hs hnd hlt hord hf

/-- **C110**: an unknown method raises `ValueError` on all ranks, before any communication. -/
theorem C110_unknown (src dst : PMesh K) (hl : dst.nmesh.length = src.nmesh.length) (hne : dst.nmesh ≠ src.nmesh) (w : Resampler K) (s : String)
    (h1 : s ≠ "downsample") (h2 : s ≠ "upsample") (axes : List ℕ) (field : ℕ → ℤ → K) (r : ℕ) :
    previewMesh src dst w (some s) axes r (field r) = .ret (.error .value) := by
  have e : previewMethod src.nmesh dst.nmesh (some s) = .error .value := by
    unfold previewMethod
    rw [if_neg fun e => hne ((all_eq_iff hl).1 e)]
    simp [h1, h2]
  simp only [previewMesh, e]

theorem preview_down {src dst : PMesh K} (hs : src.OK) (hd : dst.OK) (hp : dst.PlainRanks)
    (hr : dst.nrank = src.nrank) (hdim : src.nmesh.length = dst.nmesh.length) {w : Resampler K} (hw : w.Valid)
    (hh : dst.HaloFits (dst.smoothing w)) (hcov : w.Covers ((w.support : K) * (1 / 2)) 1) {method : Option String}
    (hmeth : AsksDown src.nmesh dst.nmesh method) {axes : List ℕ} (hnd : axes.Nodup) (hlt : ∀ d ∈ axes, d < src.nmesh.length)
    (hord : axes.length = src.nmesh.length → axes = List.range src.nmesh.length) (field : ℕ → ℤ → K) (G : List ℕ → K) (hf : src.HoldsField field G) :
    AllReturn src.nrank (fun r => previewMesh src dst w method axes r (field r)) (fun _ => .ok (projected dst.nmesh axes fun C =>
      ((ndindex src.nmesh).map fun g => G g / densityRatio src dst * regridWeight dst src.nmesh w g C).sum)) := by
  obtain ⟨mem, h1, h2⟩ := downsample_eq hs hd hp hr hdim hw hh hcov true field G hf
  simp only [previewMesh, previewMethod_down hdim.symm hmeth]
  refine AllReturn.andThen (f := mem) (AllReturn.mapRet _ h1) ?_
  rw [← hr]
  exact previewField_eq hd hnd (fun d hd => by rw [← hdim]; exact hlt d hd) (by rw [← hdim]; exact hord) fun r hr' c hc => h2 r (by omega) c hc

theorem preview_up {src dst : PMesh K} (hs : src.OK) (hd : dst.OK) (hp : src.PlainRanks)
    (hr : dst.nrank = src.nrank) (hdim : src.nmesh.length = dst.nmesh.length) {w : Resampler K} (hw : w.Valid)
    (h3 : w.support ≤ 3) (hh : src.HaloFits (List.replicate src.nmesh.length (8 / 5))) (hcov : w.Covers (8 / 5) 1) {method : Option String}
    (hmeth : AsksUp src.nmesh dst.nmesh method) {axes : List ℕ} (hnd : axes.Nodup) (hlt : ∀ d ∈ axes, d < src.nmesh.length)
    (hord : axes.length = src.nmesh.length → axes = List.range src.nmesh.length) (field : ℕ → ℤ → K) (G : List ℕ → K) (hf : src.HoldsField field G) :
    AllReturn src.nrank (fun r => previewMesh src dst w method axes r (field r)) (fun _ => .ok (projected dst.nmesh axes fun C =>
      ((ndindex src.nmesh).map fun g => regridWeight src dst.nmesh w C g * G g).sum)) := by
  obtain ⟨mem, h1, h2⟩ := upsample_eq hs hd hp hr hdim hw (halo_support h3 hh) hh hcov true field G hf
  simp only [previewMesh, previewMethod_up hdim.symm hmeth]
  refine AllReturn.andThen (f := mem) (AllReturn.mapRet _ h1) ?_
  rw [← hr]
  exact previewField_eq hd hnd (fun d hd => by rw [← hdim]; exact hlt d hd) (by rw [← hdim]; exact hord) fun r hr' c hc => by
    rw [h2 r (by omega) c hc]; simp

/-- **C110**, painting the mesh points (`downsample`; partial: `PlainRanks`, `HaloFits`, and the axes as in C35): all ranks get the array that a single
process gets; and if the boxes agree and the window is nnb, cic, tsc or pcs, its mean is that of the field. -/
theorem C110_down_partial (src dst : PMesh K) (hs : src.OK) (hd : dst.OK) (hp : dst.PlainRanks)
    (hr : dst.nrank = src.nrank) (hdim : src.nmesh.length = dst.nmesh.length) (w : Resampler K) (hw : w.Valid)
    (hh : dst.HaloFits (dst.smoothing w)) (hcov : w.Covers ((w.support : K) * (1 / 2)) 1) (method : Option String)
    (hmeth : AsksDown src.nmesh dst.nmesh method) (axes : List ℕ) (hnd : axes.Nodup) (hlt : ∀ d ∈ axes, d < src.nmesh.length)
    (hord : axes.length = src.nmesh.length → axes = List.range src.nmesh.length) (ss ds : List ℤ) (hss : (src.serial ss).Distinct 0)
    (hds : (dst.serial ds).Distinct 0) (field : ℕ → ℤ → K) (glob : ℤ → K) (hf : src.Spread ss field glob) :
    ∃ res : List K,
      AllReturn src.nrank (fun r => previewMesh src dst w method axes r (field r)) (fun _ => .ok res) ∧
      AllReturn 1 (fun r => previewMesh (src.serial ss) (dst.serial ds) w method axes r glob) (fun _ => .ok res) ∧
      ∀ kind, w.kern = Tuned.kern kind → w.support = w.kern.native → dst.box = src.box →
        res.sum / (dst.nmesh.prod : ℕ) = src.fieldSum field / (src.nmesh.prod : ℕ) := by
  have h1 := preview_down hs hd hp hr hdim hw hh hcov hmeth hnd hlt hord field (fun g => glob ((src.serial ss).addr 0 g)) hf
  have h2 := preview_down (src := src.serial ss) (dst := dst.serial ds) (serial_ok hs hss) (serial_ok hd hds)
    (serial_plain dst hd ds) rfl hdim hw (serial_halo dst ds _) hcov hmeth hnd hlt hord (fun _ => glob)
    (fun g => glob ((src.serial ss).addr 0 g)) (by
      intro r hr' c hc
      have hr0 : r = 0 := by have : r < 1 := hr'; omega
      subst hr0
      rw [serial_localShape] at hc
      rw [serial_global src ss hc])
  refine ⟨_, h1, h2, fun kind hk hsup hbox => ?_⟩
  rw [projected_sum (fun d hd => by rw [← hdim]; exact hlt d hd), list_sum_comm, fieldSum_eq hs (G := fun g => glob ((src.serial ss).addr 0 g)) hf]
  have e : ((ndindex src.nmesh).map fun g => ((ndindex dst.nmesh).map fun C =>
      glob ((src.serial ss).addr 0 g) / densityRatio src dst * regridWeight dst src.nmesh w g C).sum) =
      (ndindex src.nmesh).map fun g => glob ((src.serial ss).addr 0 g) * (densityRatio src dst)⁻¹ := by
    apply List.map_congr_left
    intro g hg
    rw [List.sum_map_mul_left, regridWeight_sum hd hdim (nmesh_pos' hs) hw hk hsup (by rw [(mem_ndindex.1 hg).len, hdim]), mul_one, div_eq_mul_inv]
  rw [e, List.sum_map_mul_right]
  have hp1 : ((src.nmesh.prod : ℕ) : K) ≠ 0 := by exact_mod_cast (List.prod_pos (nmesh_pos' hs)).ne'
  have hp2 : ((dst.nmesh.prod : ℕ) : K) ≠ 0 := by exact_mod_cast (List.prod_pos (nmesh_pos' hd)).ne'
  have hb : src.box.prod ≠ 0 := (List.prod_pos hs.box_pos).ne'
  unfold densityRatio
  rw [hbox]
  field_simp

/-- **C110**: a constant field, painted on a mesh with a whole fraction of the cells along each axis, stays the same constant (partial: as above). -/
theorem C110_down_constant_partial (src dst : PMesh K) (hs : src.OK) (hd : dst.OK) (hp : dst.PlainRanks)
    (hr : dst.nrank = src.nrank) (hdim : src.nmesh.length = dst.nmesh.length) (hbox : dst.box = src.box) (w : Resampler K) (hw : w.Valid)
    (hh : dst.HaloFits (dst.smoothing w)) (kind : Tuned) (hk : w.kern = Tuned.kern kind) (hsup : w.support = w.kern.native) (method : Option String)
    (hmeth : AsksDown src.nmesh dst.nmesh method) (axes : List ℕ) (hnd : axes.Nodup) (hlt : ∀ d ∈ axes, d < src.nmesh.length)
    (hord : axes.length = src.nmesh.length → axes = List.range src.nmesh.length)
    (hdvd : ∀ d < src.nmesh.length, dst.nmesh.getD d 0 ∣ src.nmesh.getD d 0) (field : ℕ → ℤ → K) (v : K) (hf : src.HoldsField field fun _ => v) :
    AllReturn src.nrank (fun r => previewMesh src dst w method axes r (field r)) (fun _ => .ok (projected dst.nmesh axes fun _ => v)) := by
  have h1 := preview_down hs hd hp hr hdim hw hh (tuned_covers hk hsup (by linarith)) hmeth hnd hlt hord field (fun _ => v) hf
  refine AllReturn.congr (fun _ _ => rfl) (fun _ _ => ?_) h1
  congr 1
  refine (projected_congr fun C hC => ?_).symm
  rw [List.sum_map_mul_left, regridWeight_column hd hw hk hsup (n := src.nmesh)
    (k := (List.range dst.nmesh.length).map fun d => src.nmesh.getD d 0 / dst.nmesh.getD d 0) hdim (by simp) (fun j hj => by
      have e : ((List.range dst.nmesh.length).map fun d => src.nmesh.getD d 0 / dst.nmesh.getD d 0).getD j 0 =
          src.nmesh.getD j 0 / dst.nmesh.getD j 0 := by
        rw [List.getD_eq_getElem _ _ (by simpa using hj)]
        simp
      rw [e]
      exact (Nat.div_mul_cancel (hdvd j (by omega))).symm) (nmesh_pos' hs) hC]
  have hp1 : ((src.nmesh.prod : ℕ) : K) ≠ 0 := by exact_mod_cast (List.prod_pos (nmesh_pos' hs)).ne'
  have hp2 : ((dst.nmesh.prod : ℕ) : K) ≠ 0 := by exact_mod_cast (List.prod_pos (nmesh_pos' hd)).ne'
  have hb : src.box.prod ≠ 0 := (List.prod_pos hs.box_pos).ne'
  unfold densityRatio
  rw [hbox]
  field_simp

/-- **C110**, reading at the points of the new mesh (`upsample`; partial: windows of support at most 3, `PlainRanks`, `HaloFits`, the axes as in C35): all
ranks get the array that a single process gets. -/
theorem C110_up_partial (src dst : PMesh K) (hs : src.OK) (hd : dst.OK) (hp : src.PlainRanks)
    (hr : dst.nrank = src.nrank) (hdim : src.nmesh.length = dst.nmesh.length) (w : Resampler K) (hw : w.Valid)
    (h3 : w.support ≤ 3) (hh : src.HaloFits (List.replicate src.nmesh.length (8 / 5))) (hcov : w.Covers (8 / 5) 1) (method : Option String)
    (hmeth : AsksUp src.nmesh dst.nmesh method) (axes : List ℕ) (hnd : axes.Nodup) (hlt : ∀ d ∈ axes, d < src.nmesh.length)
    (hord : axes.length = src.nmesh.length → axes = List.range src.nmesh.length) (ss ds : List ℤ) (hss : (src.serial ss).Distinct 0)
    (hds : (dst.serial ds).Distinct 0) (field : ℕ → ℤ → K) (glob : ℤ → K) (hf : src.Spread ss field glob) :
    ∃ res : List K,
      AllReturn src.nrank (fun r => previewMesh src dst w method axes r (field r)) (fun _ => .ok res) ∧
      AllReturn 1 (fun r => previewMesh (src.serial ss) (dst.serial ds) w method axes r glob) (fun _ => .ok res) := by
  have h1 := preview_up hs hd hp hr hdim hw h3 hh hcov hmeth hnd hlt hord field (fun g => glob ((src.serial ss).addr 0 g)) hf
  have h2 := preview_up (src := src.serial ss) (dst := dst.serial ds) (serial_ok hs hss) (serial_ok hd hds)
    (serial_plain src hs ss) rfl hdim hw h3 (serial_halo src ss _) hcov hmeth hnd hlt hord (fun _ => glob)
    (fun g => glob ((src.serial ss).addr 0 g)) (by
      intro r hr' c hc
      have hr0 : r = 0 := by have : r < 1 := hr'; omega
      subst hr0
      rw [serial_localShape] at hc
      rw [serial_global src ss hc])
  exact ⟨_, h1, h2⟩

/-- **C110**: with nnb, cic or tsc a constant field stays the same constant at any resolution (partial: as above). -/
theorem C110_up_constant_partial (src dst : PMesh K) (hs : src.OK) (hd : dst.OK) (hp : src.PlainRanks)
    (hr : dst.nrank = src.nrank) (hdim : src.nmesh.length = dst.nmesh.length) (w : Resampler K) (hw : w.Valid)
    (h3 : w.support ≤ 3) (hh : src.HaloFits (List.replicate src.nmesh.length (8 / 5))) (kind : Tuned) (hk : w.kern = Tuned.kern kind)
    (hsup : w.support = w.kern.native) (method : Option String)
    (hmeth : AsksUp src.nmesh dst.nmesh method) (axes : List ℕ) (hnd : axes.Nodup) (hlt : ∀ d ∈ axes, d < src.nmesh.length)
    (hord : axes.length = src.nmesh.length → axes = List.range src.nmesh.length) (field : ℕ → ℤ → K) (v : K) (hf : src.HoldsField field fun _ => v) :
    AllReturn src.nrank (fun r => previewMesh src dst w method axes r (field r)) (fun _ => .ok (projected dst.nmesh axes fun _ => v)) := by
  have h3' : (w.support : K) ≤ 3 := by exact_mod_cast h3
  have h1 := preview_up hs hd hp hr hdim hw h3 hh (tuned_covers hk hsup (by linarith)) hmeth hnd hlt hord field (fun _ => v) hf
  refine AllReturn.congr (fun _ _ => rfl) (fun _ _ => ?_) h1
  congr 1
  refine (projected_congr fun C hC => ?_).symm
  rw [List.sum_map_mul_right, regridWeight_sum hs hdim.symm (nmesh_pos' hd) hw hk hsup (by rw [hC.len, hdim]), one_mul]

/-- **C110**: with nnb or cic, reading on a mesh with a whole fraction of the cells along each axis picks the values of the field at these points, unchanged
(partial: as above). -/
theorem C110_subsample_partial (src dst : PMesh K) (hs : src.OK) (hd : dst.OK) (hp : src.PlainRanks)
    (hr : dst.nrank = src.nrank) (hdim : src.nmesh.length = dst.nmesh.length) (w : Resampler K) (hw : w.Valid)
    (hh : src.HaloFits (List.replicate src.nmesh.length (8 / 5))) (kind : Tuned) (hkind : kind = .nnb ∨ kind = .cic) (hk : w.kern = Tuned.kern kind)
    (hsup : w.support = w.kern.native)
    (hmeth : dst.nmesh ≠ src.nmesh) (axes : List ℕ) (hnd : axes.Nodup) (hlt : ∀ d ∈ axes, d < src.nmesh.length)
    (hord : axes.length = src.nmesh.length → axes = List.range src.nmesh.length)
    (k : List ℕ) (hkl : k.length = src.nmesh.length) (hfac : ∀ d < src.nmesh.length, src.nmesh.getD d 0 = k.getD d 0 * dst.nmesh.getD d 0)
    (field : ℕ → ℤ → K) (G : List ℕ → K) (hf : src.HoldsField field G) :
    AllReturn src.nrank (fun r => previewMesh src dst w (some "upsample") axes r (field r))
      (fun _ => .ok (projected dst.nmesh axes fun C => G (List.zipWith (· * ·) k C))) := by
  have h3 : w.support ≤ 3 := by
    rw [hsup, hk]
    rcases hkind with rfl | rfl <;> simp [Tuned.kern, nearestK, linearK]
  have h3' : (w.support : K) ≤ 3 := by exact_mod_cast h3
  have h1 := preview_up hs hd hp hr hdim hw h3 hh (tuned_covers hk hsup (by linarith)) ⟨hmeth, Or.inl rfl⟩ hnd hlt hord field G hf
  refine AllReturn.congr (fun _ _ => rfl) (fun _ _ => ?_) h1
  congr 1
  refine (projected_congr fun C hC => ?_).symm
  have hCl : C.length = dst.nmesh.length := hC.len
  have hv : ValidIndex src.nmesh (List.zipWith (· * ·) k C) := by
    rw [validIndex_iff]
    refine ⟨by simp; omega, fun j hj => ?_⟩
    have hlt := (validIndex_iff.1 hC).2 j (by omega)
    have hk0 : 0 < k.getD j 0 := by
      have h1 := hs.nmesh_pos hj
      rw [hfac j hj] at h1
      exact Nat.pos_of_mul_pos_right h1
    rw [hfac j hj, List.getD_eq_getElem _ _ (by simp; omega), List.getElem_zipWith]
    rw [List.getD_eq_getElem _ _ (by omega)] at hk0 hlt ⊢
    exact Nat.mul_lt_mul_of_pos_left hlt hk0
  have hb := withBox_ok hs hdim.symm (nmesh_pos' hd)
  have e : ((ndindex src.nmesh).map fun g => regridWeight src dst.nmesh w C g * G g) =
      (ndindex src.nmesh).map fun g => if List.zipWith (· * ·) k C = g then G g else 0 := by
    apply List.map_congr_left
    intro g hg
    unfold regridWeight
    rw [grid_weight (m := src.withBox dst.nmesh) hw hkind hk hsup hb [] (g := List.zipWith (· * ·) k C)
      (by rw [List.length_map, hCl, ← hdim]; rfl) hv ?_ (mem_ndindex.1 hg)]
    · split <;> simp
    · intro j hj
      have hj : j < src.nmesh.length := hj
      rw [scale_getD hb hj, getD_map_cast _ (by omega)]
      have hbj : (src.withBox dst.nmesh).box.getD j 0 = ((dst.nmesh.getD j 0 : ℕ) : K) := getD_map_cast dst.nmesh (by omega)
      have hnn : (src.withBox dst.nmesh).nmesh.getD j 0 = k.getD j 0 * dst.nmesh.getD j 0 := hfac j hj
      rw [hbj, hnn, List.getD_eq_getElem (List.zipWith _ _ _) _ (by simp; omega), List.getElem_zipWith]
      have h0 : ((dst.nmesh.getD j 0 : ℕ) : K) ≠ 0 := Nat.cast_ne_zero.2 (hd.nmesh_pos (by omega)).ne'
      rw [List.getD_eq_getElem k _ (by omega), List.getD_eq_getElem C _ (by omega)]
      push_cast
      field_simp
  rw [e]
  exact sum_single src.nmesh hv G

end
/-- **C110 violated** for the constant if the numbers of cells do not divide: `preview(Nmesh=2)` of the field 1 on three cells with the cic window, by default painted,
has the mean 1 but is not constant. -/
theorem C110_violated_ratio : AllReturn 1 (fun r => previewMesh (⟨[3], [6], [[0, 3]], 1, fun _ => [0], fun _ => [1], fun _ => 77⟩ : PMesh ℚ)
      ⟨[2], [6], [[0, 2]], 1, fun _ => [0], fun _ => [1], fun _ => 77⟩ ⟨linearK, some .cic, 2⟩ none [0] r fun _ => 1)
    (fun _ => .ok [10 / 9, 8 / 9]) :=
  AllReturn.of_runAll 60 (by decide +kernel)

/-- **C110 violated** by the default method if only some axes get fewer cells: the field is painted also along the axes that get more cells, and half of these cells
stay empty. -/
theorem C110_violated_mixed : AllReturn 1 (fun r => previewMesh (⟨[2, 2], [2, 2], [[0, 2], [0, 2]], 1, fun _ => [0, 0], fun _ => [2, 1], fun _ => 77⟩ : PMesh ℚ)
      ⟨[1, 4], [2, 2], [[0, 1], [0, 4]], 1, fun _ => [0, 0], fun _ => [4, 1], fun _ => 77⟩ ⟨linearK, some .cic, 2⟩ none [0, 1] r fun _ => 1)
    (fun _ => .ok [2, 0, 2, 0]) :=
  AllReturn.of_runAll 60 (by decide +kernel)

/-! ## Examples -/

/-- Four cells on two ranks. -/
def exDst4 : PMesh ℚ := ⟨[4], [8], [[0, 2, 4]], 2, fun r => [r], fun _ => [1], fun _ => 77⟩

theorem exDst4_ok : exDst4.OK where
  dim := by decide
  box_len := by decide
  box_pos := by decide +kernel
  edges := .cons (slabEdges_of_decide (by decide)) .nil
  ranks := by decide
  coord_valid := by decide
  coord_inj := by decide
  distinct := by
    intro r hr
    apply distinct_of_decide
    revert r
    decide +kernel

theorem exSrc8_holds : exSrc8.HoldsField (fun r a => (r : ℚ) * 4 + a) fun g => (g.getD 0 0 : ℕ) := by
  intro r hr c hc
  replace hc := mem_ndindex.2 hc
  revert c
  revert r
  decide +kernel

example := C110_same_partial exSrc8 exSrc8 exSrc8_ok rfl exWin (some "downsample") [0] (by decide) (by decide) (by decide) _ _ exSrc8_holds

example := C110_unknown exSrc8 exDst7 rfl (by decide) exWin "average" (by decide) (by decide) [0] (fun _ _ => (5 : ℚ)) 1

example := C110_down_partial exSrc8 exDst7 exSrc8_ok exDst7_ok (Or.inl (by decide)) rfl rfl exTscWin exTscWin_valid
  (by intro j hj d hd; have : j = 0 := by simpa [exDst7] using hj
      subst this; revert d; decide +kernel)
  (tuned_covers (kind := .tsc) rfl rfl (by decide +kernel)) none ⟨by decide, Or.inr ⟨rfl, 0, by decide⟩⟩ [0] (by decide) (by decide) (by decide)
  [1] [1] (distinct_of_decide (by decide +kernel))
  (distinct_of_decide (by decide +kernel)) (fun r a => (r : ℚ) * 4 + a) (fun a => a) (by
    intro r hr c hc
    replace hc := mem_ndindex.2 hc
    revert c
    revert r
    decide +kernel)

example := C110_down_constant_partial exSrc8 exDst4 exSrc8_ok exDst4_ok (Or.inl (by decide)) rfl rfl rfl exWin exWin_valid
  (by intro j hj d hd; have : j = 0 := by simpa [exDst4] using hj
      subst this; revert d; decide +kernel) .cic rfl rfl none ⟨by decide, Or.inr ⟨rfl, 0, by decide⟩⟩ [0] (by decide) (by decide) (by decide) (by decide)
  (fun _ _ => 5) 5 (fun _ _ _ _ => rfl)

example := C110_up_partial exSrc8 exDst7 exSrc8_ok exDst7_ok (Or.inl (by decide)) rfl rfl exTscWin exTscWin_valid
  (by decide) (by intro j hj d hd; have : j = 0 := by simpa [exSrc8] using hj
                  subst this; revert d; decide +kernel)
  (tuned_covers (kind := .tsc) rfl rfl (by decide +kernel)) (some "upsample") ⟨by decide, Or.inl rfl⟩ [0] (by decide) (by decide) (by decide)
  [1] [1] (distinct_of_decide (by decide +kernel))
  (distinct_of_decide (by decide +kernel)) (fun r a => (r : ℚ) * 4 + a) (fun a => a) (by
    intro r hr c hc
    replace hc := mem_ndindex.2 hc
    revert c
    revert r
    decide +kernel)

example := C110_up_constant_partial exSrc8 exDst7 exSrc8_ok exDst7_ok (Or.inl (by decide)) rfl rfl exTscWin exTscWin_valid
  (by decide) (by intro j hj d hd; have : j = 0 := by simpa [exSrc8] using hj
                  subst this; revert d; decide +kernel)
  .tsc rfl rfl (some "upsample") ⟨by decide, Or.inl rfl⟩ [0] (by decide) (by decide) (by decide) (fun _ _ => 5) 5 (fun _ _ _ _ => rfl)

example := C110_subsample_partial exSrc8 exDst4 exSrc8_ok exDst4_ok (Or.inl (by decide)) rfl rfl exWin exWin_valid
  (by intro j hj d hd; have : j = 0 := by simpa [exSrc8] using hj
      subst this; revert d; decide +kernel)
  .cic (Or.inr rfl) rfl rfl (by decide) [0] (by decide) (by decide) (by decide) [2] rfl (by decide) _ _ exSrc8_holds

#print axioms C110_same_partial
#print axioms C110_unknown
#print axioms C110_down_partial
#print axioms C110_down_constant_partial
#print axioms C110_up_partial
#print axioms C110_up_constant_partial
#print axioms C110_subsample_partial
#print axioms C110_violated_ratio
#print axioms C110_violated_mixed

end Pmesh
