import Verif.Model.Regrid
import Verif.Lemmas.UniformGrid
import Verif.Lemmas.MeshPaint
import Verif.Lemmas.Preview
import Verif.Props.Mesh
import Verif.Props.Window
import Verif.Spec.Regrid

set_option linter.unusedSectionVars false

namespace Pmesh
section
variable {K : Type} [Field K] [LinearOrder K] [IsStrictOrderedRing K] [FloorRing K]

theorem nnbWindow_valid : (nnbWindow : Resampler K).Valid := ⟨by simp [nnbWindow, nearestK], by
  intro t ht
  simp only [nnbWindow, Option.some.injEq] at ht
  subst ht
  rfl⟩

theorem fastMethod_tuned {P : Painter K} {w : Win K} {t : Tuned} (h : fastMethod P w = some t) : P.tuned = some t := by
  unfold fastMethod at h
  cases hP : P.tuned with
  | none => rw [hP] at h; simp at h
  | some t' =>
    rw [hP] at h
    dsimp only at h
    split_ifs at h
    exact h

/-- The nearest neighbour window, tuned ('nnb') or not ('nearest'). -/
structure IsNearest (w : Resampler K) : Prop where
  kern : w.kern = nearestK
  support : w.support = 1
  tuned : ∀ t, w.tuned = some t → t = .nnb

theorem IsNearest.valid {w : Resampler K} (h : IsNearest w) : w.Valid where
  native_pos := by rw [h.kern]; simp [nearestK]
  tuned_kern t ht := by rw [h.tuned t ht, h.kern]; rfl

theorem nnb_isNearest : IsNearest (nnbWindow : Resampler K) := ⟨rfl, rfl, by intro t ht; simpa [nnbWindow] using ht.symm⟩

theorem axisStencil_nnb {w : Resampler K} (hnw : IsNearest w) (m : PMesh K) (r : ℕ) (ax : PAxis K) (x : K) :
    axisStencil (m.painter w none r) 1 ax x = tunedStencil .nnb ax x := by
  unfold axisStencil
  split
  · next t ht => rw [hnw.tuned t (fastMethod_tuned ht)]
  · rw [tunedStencil_nnb ax x 1 (by simp)]
    simp [partWin, PMesh.painter, hnw.kern, hnw.support, nearestK]

theorem sum_one_of_nodup {α : Type*} [DecidableEq α] (l : List α) (hnd : l.Nodup) (f : α → K) (c : α) (hc : c ∈ l) :
    (l.map fun x => if x = c then f x else 0).sum = f c := by
  rw [← sum_ite_eq_of_nodup l hnd f (fun x => x = c) c hc (fun _ _ => Iff.rfl)]
  congr 1
  apply List.map_congr_left
  intro x _
  split <;> simp

theorem prod_ite_eq {n : ℕ} {a b : List ℕ} (ha : a.length = n) (hb : b.length = n) :
    ((List.range n).map fun j => if a.getD j 0 = b.getD j 0 then (1 : K) else 0).prod = if a = b then 1 else 0 := by
  split
  · next h =>
    subst h
    apply List.prod_eq_one
    intro y hy
    obtain ⟨j, _, rfl⟩ := List.mem_map.1 hy
    simp
  · next h =>
    apply List.prod_eq_zero
    have : ∃ j < n, a.getD j 0 ≠ b.getD j 0 := by
      by_contra hne
      apply h
      push Not at hne
      apply List.ext_getElem (by omega)
      intro j h1 h2
      have := hne j (by omega)
      rwa [List.getD_eq_getElem _ _ h1, List.getD_eq_getElem _ _ h2] at this
    obtain ⟨j, hj, hne⟩ := this
    exact List.mem_map.2 ⟨j, List.mem_range.2 hj, by rw [if_neg hne]⟩

/-- A particle at a grid point, seen by the nearest neighbour window in a single process. -/
theorem nnb_weight {w : Resampler K} (hnw : IsNearest w) {m : PMesh K} (hm : m.OK) (st : List ℤ) {x : List K} (hx : x.length = m.nmesh.length) {g : List ℕ}
    (hg : ValidIndex m.nmesh g) (hxg : ∀ j < m.nmesh.length, m.scale.getD j 0 * x.getD j 0 = (g.getD j 0 : ℕ)) {C : List ℕ}
    (hC : ValidIndex m.nmesh C) :
    cwProd (List.zipWith (axisStencil ((m.serial st).painter w none 0) 1)
      ((m.serial st).painter w none 0).axes x) C = if g = C then 1 else 0 := by
  have hgl := hg.len
  have hCl := hC.len
  rw [cwProd_painter (m.serial st) w none 0 1 x hx C hCl, ← prod_ite_eq (K := K) hgl hCl]
  congr 1
  apply List.map_congr_left
  intro j hj
  have hj : j < m.nmesh.length := List.mem_range.1 hj
  rw [axisStencil_nnb hnw]
  unfold tunedStencil cw
  have hs0 : (((m.serial st).start 0).getD j 0 : ℕ) = 0 := by
    rw [serial_start, getD_map' _ _ 0 _ _ hj]
  have hgr : (PAxis.mk (if (none : Option ℕ) = some j then 1 else 0) ((m.serial st).scale.getD j 0)
      (-((((m.serial st).start 0).getD j 0 : ℕ) : K)) ((m.serial st).nmesh.getD j 0) (((m.serial st).localShape 0).getD j 0)
      (((m.serial st).strides 0).getD j 0)).grid (x.getD j 0) = (g.getD j 0 : ℕ) := by
    unfold PAxis.grid
    rw [hs0, ← hxg j hj]
    show x.getD j 0 * m.scale.getD j 0 + _ = _
    push_cast
    ring
  have hlt := (validIndex_iff.1 hg).2 j hj
  simp only [tunedSetup, hgr]
  have hfl : ⌊((g.getD j 0 : ℕ) : K) + 1 / 2⌋ = ((g.getD j 0 : ℕ) : ℤ) := by
    rw [Int.floor_eq_iff]
    constructor
    · push_cast; linarith [show (0 : K) < 1 / 2 by norm_num]
    · push_cast; linarith [show (1 / 2 : K) < 1 by norm_num]
  rw [hfl]
  have hw : tunedWrap ((m.serial st).nmesh.getD j 0) ((g.getD j 0 : ℕ) : ℤ) = ((g.getD j 0 : ℕ) : ℤ) := by
    have : (m.serial st).nmesh = m.nmesh := rfl
    rw [this, tunedWrap_eq, genWrap_isCell]
    unfold IsCell
    rw [if_neg (by omega)]
    exact (Int.emod_eq_of_lt (by omega) (by exact_mod_cast hlt)).symm
  simp only [reduceCtorEq, if_false, if_true, List.map_cons, List.map_nil, hw, List.zip_cons_cons, List.zip_nil_right, List.sum_cons,
    List.sum_nil, add_zero, Nat.cast_inj]

/-- The same on a rank. -/
theorem nnb_weight_local {w : Resampler K} (hnw : IsNearest w) {m : PMesh K} (hm : m.OK) {r : ℕ} (hr : r < m.nrank) {x : List K} (hx : x.length = m.nmesh.length)
    {g : List ℕ} (hg : ValidIndex m.nmesh g) (hxg : ∀ j < m.nmesh.length, m.scale.getD j 0 * x.getD j 0 = (g.getD j 0 : ℕ))
    {c : List ℕ} (hc : ValidIndex (m.localShape r) c) :
    cwProd (List.zipWith (axisStencil (m.painter w none r) 1) (m.painter w none r).axes x) c =
      if g = m.global r c then 1 else 0 := by
  rw [cwProd_local_serial hm [] w none hr 1 hx hc]
  exact nnb_weight hnw hm [] hx hg hxg (hm.global_valid hr hc)

theorem global_inj' {m : PMesh K} (hm : m.OK) {r : ℕ} (hr : r < m.nrank) {c c' : List ℕ} (hc : ValidIndex (m.localShape r) c)
    (hc' : ValidIndex (m.localShape r) c') (h : m.global r c = m.global r c') : c = c' := by
  have h1 := hc.len
  have h2 := hc'.len
  rw [hm.localShape_len hr, ← hm.start_len hr] at h1 h2
  have e := congrArg (fun l => List.zipWith (· - ·) l (m.start r)) h
  simp only [PMesh.global] at e
  rwa [zipWith_add_sub h1, zipWith_add_sub h2] at e

theorem getD_map_ndindex {α : Type*} (shape : List ℕ) (X : List ℕ → α) (a : α) {i : ℕ} (hi : i < (ndindex shape).length) :
    ((ndindex shape).map X).getD i a = X (ndindex shape)[i] := by
  rw [List.getD_eq_getElem _ _ (by simpa using hi), List.getElem_map]

/-- Each local cell of rank `r` has a position `X r c` at its grid point. -/
def PMesh.AtGrid (m : PMesh K) (X : ℕ → List ℕ → List K) : Prop :=
  ∀ r < m.nrank, ∀ c, ValidIndex (m.localShape r) c → (X r c).length = m.nmesh.length ∧
    ∀ j < m.nmesh.length, m.scale.getD j 0 * (X r c).getD j 0 = ((m.global r c).getD j 0 : ℕ)

theorem PMesh.AtGrid.len {m : PMesh K} {X : ℕ → List ℕ → List K} (hX : m.AtGrid X) :
    ∀ r < m.nrank, ∀ x ∈ (ndindex (m.localShape r)).map (X r), x.length = m.nmesh.length := by
  intro r hr x hx
  obtain ⟨c, hc, rfl⟩ := List.mem_map.1 hx
  exact (hX r hr c (mem_ndindex.1 hc)).1

/-- Reading the values at the own grid points with the nearest neighbour window, without a layout. -/
theorem readout_own {w : Resampler K} (hnw : IsNearest w) {m : PMesh K} (hm : m.OK) {X : ℕ → List ℕ → List K} (hX : m.AtGrid X) (field : ℕ → ℤ → K) :
    AllReturn m.nrank (fun r => pmReadout m w none r none ((ndindex (m.localShape r)).map (X r)) .none (field r))
      (fun r => .ok ((ndindex (m.localShape r)).map fun c => field r (m.addr r c))) := by
  obtain ⟨res, hres, hlen, hent⟩ := pmReadout_return hm.dim (hnw.valid) none hm.nrank_pos
    (.none (len := fun q => ((ndindex (m.localShape q)).map (X q)).length)) hX.len
    (hsml := fun _ => .none) (Or.inl fun _ _ => rfl) field
  refine AllReturn.congr (fun _ _ => rfl) (fun r hr => ?_) hres
  congr 1
  apply List.ext_getElem
  · rw [hlen r hr]; simp
  · intro i h1 h2
    have hi : i < (ndindex (m.localShape r)).length := by simpa using h1
    have hcv := mem_ndindex.1 (List.getElem_mem hi)
    have h := hent r hr i (by simpa using hi)
    rw [List.getD_eq_getElem _ _ h2] at h
    rw [h, List.getElem_map]
    have e : ∀ q ∈ List.range m.nrank, ((if r = q then List.range ((ndindex (m.localShape r)).map (X r)).length else []).map fun j =>
        if j = i then readOn m w none (field q) q (partAt (fun q => (ndindex (m.localShape q)).map (X q))
          (fun _ => .none) (fun _ => .none) r j) else 0).sum = if q = r then field r (m.addr r (ndindex (m.localShape r))[i]) else 0 := by
      intro q _
      by_cases hq : r = q
      · subst hq
        rw [if_pos rfl, if_pos rfl, sum_pick (by simpa using hi)]
        unfold readOn weightOn
        rw [shapeOf_painter w none r (hm.localShape_len hr)]
        have hx := hX r hr _ hcv
        have hw : ∀ c ∈ ndindex (m.localShape r), cwProd (List.zipWith (axisStencil (m.painter w none r)
            (partAt (fun q => (ndindex (m.localShape q)).map (X q)) (fun _ => .none) (fun _ => .none) r i).hsml)
            (m.painter w none r).axes
            (partAt (fun q => (ndindex (m.localShape q)).map (X q)) (fun _ => .none) (fun _ => .none) r i).pos) c *
            field r (elemAddr (m.painter w none r).axes c) =
            if c = (ndindex (m.localShape r))[i] then field r (m.addr r (ndindex (m.localShape r))[i]) else 0 := by
          intro c hc
          have hc' := mem_ndindex.1 hc
          show cwProd (List.zipWith (axisStencil (m.painter w none r) 1) _ (((ndindex (m.localShape r)).map (X r)).getD i [])) c *
            _ = _
          rw [getD_map_ndindex _ _ _ hi, nnb_weight_local hnw hm hr hx.1 (hm.global_valid hr hcv) hx.2 hc',
            elemAddr_painter w none r (by have := hc'.len; rw [hm.localShape_len hr] at this; exact this)]
          by_cases h : c = (ndindex (m.localShape r))[i]
          · rw [if_pos h, if_pos (by rw [h]), one_mul, h]
          · rw [if_neg h, if_neg (fun h' => h (global_inj' hm hr hc' hcv h'.symm)), zero_mul]
        rw [List.map_congr_left hw]
        exact sum_one_of_nodup _ (ndindex_nodup _) (fun _ => field r (m.addr r (ndindex (m.localShape r))[i])) _ (List.getElem_mem hi)
      · rw [if_neg hq, if_neg (Ne.symm hq)]; rfl
    rw [List.map_congr_left e]
    exact (sum_pick hr fun _ => field r (m.addr r (ndindex (m.localShape r))[i])).symm

/-- Painting values at the own grid points with the nearest neighbour window, without a layout. -/
theorem paint_own {w : Resampler K} (hnw : IsNearest w) {m : PMesh K} (hm : m.OK) {X : ℕ → List ℕ → List K} (hX : m.AtGrid X) (val : ℕ → List ℕ → K) (out : ℕ → ℤ → K) :
    ∃ mem : ℕ → ℤ → K,
      AllReturn m.nrank (fun r => pmPaint m w none false r none ((ndindex (m.localShape r)).map (X r))
        (.array ((ndindex (m.localShape r)).map (val r))) .none (out r)) (fun r => .ok (mem r)) ∧
      ∀ r < m.nrank, ∀ c, ValidIndex (m.localShape r) c → mem r (m.addr r c) = val r c := by
  refine ⟨_, pmPaint_return hm.dim (hnw.valid) none false hm.nrank_pos
    (.none (len := fun q => ((ndindex (m.localShape q)).map (X q)).length)) hX.len
    (Or.inr (Or.inr fun r _ => ⟨_, rfl, by simp⟩)) (Or.inl fun _ _ => rfl) out, ?_⟩
  intro r hr c hc
  have hshl := hm.localShape_len hr
  have e : ∀ q, (if q = r then List.range ((ndindex (m.localShape q)).map (X q)).length else []).map
      (partAt (fun q => (ndindex (m.localShape q)).map (X q)) (fun q => .array ((ndindex (m.localShape q)).map (val q)))
        (fun _ => .none) q) =
      if q = r then (List.range ((ndindex (m.localShape q)).map (X q)).length).map
      (partAt (fun q => (ndindex (m.localShape q)).map (X q)) (fun q => .array ((ndindex (m.localShape q)).map (val q)))
        (fun _ => .none) q) else [] := by
    intro q; split <;> rfl
  simp only [e]
  rw [sum_own hr, List.map_map]
  have e2 : (List.range ((ndindex (m.localShape r)).map (X r)).length).map ((fun p : Particle K => p.mass *
      unitDeposit (m.painter w none r) p (m.addr r c)) ∘ partAt (fun q => (ndindex (m.localShape q)).map (X q))
        (fun q => .array ((ndindex (m.localShape q)).map (val q))) (fun _ => .none) r) =
      (ndindex (m.localShape r)).map fun c' => if c' = c then val r c' else 0 := by
    apply List.ext_getElem
    · simp
    · intro i h1 h2
      have hi : i < (ndindex (m.localShape r)).length := by simpa using h2
      have hcv := mem_ndindex.1 (List.getElem_mem hi)
      have hx := hX r hr _ hcv
      simp only [List.getElem_map, List.getElem_range, Function.comp]
      have h3 : unitDeposit (m.painter w none r) (partAt (fun q => (ndindex (m.localShape q)).map (X q))
          (fun q => .array ((ndindex (m.localShape q)).map (val q))) (fun _ => .none) r i) (m.addr r c) =
          if (ndindex (m.localShape r))[i] = c then 1 else 0 := by
        rw [← elemAddr_painter w none r (by have := hc.len; rw [hshl] at this; exact this),
          unitDeposit_elem _ (distinct_painter w none r hshl (hm.distinct r hr)) _ c
            (by rw [shapeOf_painter w none r hshl]; exact hc)]
        show cwProd (List.zipWith (axisStencil (m.painter w none r) 1) _ (((ndindex (m.localShape r)).map (X r)).getD i [])) c = _
        rw [getD_map_ndindex _ _ _ hi, nnb_weight_local hnw hm hr hx.1 (hm.global_valid hr hcv) hx.2 hc]
        exact if_congr ⟨fun h => global_inj' hm hr hcv hc h, fun h => by rw [h]⟩ rfl rfl
      rw [h3]
      show ((ndindex (m.localShape r)).map (val r)).getD i 0 * _ = _
      rw [getD_map_ndindex _ _ _ hi]
      split <;> simp
  rw [e2, sum_one_of_nodup _ (ndindex_nodup _) (val r) _ (mem_ndindex.2 hc)]
  simp

/-- The particles of all ranks, if they come from cells. -/
theorem allParticles_sum {n : ℕ} (ls : ℕ → List ℕ) (X : ℕ → List ℕ → List K) (val : ℕ → List ℕ → K) (F : Particle K → K) :
    ((allParticles n (fun r => (ndindex (ls r)).map (X r)) (fun r => .array ((ndindex (ls r)).map (val r))) (fun _ => .none)).map F).sum =
      ((List.range n).map fun r => ((ndindex (ls r)).map fun c => F ⟨X r c, val r c, 1⟩).sum).sum := by
  unfold allParticles particlesOf
  rw [sum_flatMap']
  congr 1
  apply List.map_congr_left
  intro r _
  congr 1
  rw [List.map_map]
  apply List.ext_getElem
  · simp
  · intro i h1 h2
    have hi : i < (ndindex (ls r)).length := by simpa using h2
    simp only [List.getElem_map, List.getElem_range, Function.comp]
    rw [getD_map_ndindex _ _ _ hi]
    show F ⟨_, ((ndindex (ls r)).map (val r)).getD i 0, 1⟩ = _
    rw [getD_map_ndindex _ _ _ hi]

/-- C-order strides. -/
def cStrides : List ℕ → List ℤ
  | [] => []
  | _ :: ns => (ns.prod : ℤ) :: cStrides ns

theorem addr_cStrides : ∀ (shape c : List ℕ), c.length = shape.length →
    (List.zipWith (fun (i : ℕ) (s : ℤ) => (i : ℤ) * s) c (cStrides shape)).sum = (cOrder shape c : ℕ)
  | [], [], _ => by simp [cStrides, cOrder]
  | n :: ns, i :: is, h => by
    rw [cStrides, List.zipWith_cons_cons, List.sum_cons, addr_cStrides ns is (by simpa using h), cOrder]
    push_cast
    ring
  | [], _ :: _, h => by simp at h
  | _ :: _, [], h => by simp at h

theorem serial_distinct (m : PMesh K) : (m.serial (cStrides m.nmesh)).Distinct 0 := by
  intro c c' hc hc' h
  rw [serial_localShape] at hc hc'
  unfold PMesh.addr at h
  have e : (m.serial (cStrides m.nmesh)).strides 0 = cStrides m.nmesh := rfl
  rw [e, addr_cStrides _ _ hc.len, addr_cStrides _ _ hc'.len] at h
  exact cOrder_inj hc hc' (by exact_mod_cast h)

/-- `decompose` and `paint` in closed form. -/
theorem paint_all {m : PMesh K} (hm : m.OK) (hp : m.PlainRanks) {w : Resampler K} (hw : w.Valid)
    {sm : List K} (hsm : m.SmoothingOK sm) (hh : m.HaloFits sm)
    {pos : ℕ → List (List K)} (hpos : ∀ r < m.nrank, ∀ x ∈ pos r, x.length = m.nmesh.length) {mass hsml : ℕ → Quant K}
    (hmass : QuantOK m.nrank (fun r => (pos r).length) mass) (hhsml : QuantOK m.nrank (fun r => (pos r).length) hsml)
    (hcov : ∀ p ∈ allParticles m.nrank pos mass hsml, ∀ s ∈ sm, w.Covers s p.hsml) (out : ℕ → ℤ → K) (st : List ℤ) :
    ∃ mem : ℕ → ℤ → K,
      AllReturn m.nrank (fun r => (pmDecompose m sm r (pos r)).andThen fun lay =>
          pmPaint m w none false r (some lay) (pos r) (mass r) (hsml r) (out r)) (fun r => .ok (mem r)) ∧
      ∀ r < m.nrank, ∀ c, ValidIndex (m.localShape r) c → mem r (m.addr r c) =
        ((allParticles m.nrank pos mass hsml).map fun p => p.mass *
          cwProd (List.zipWith (axisStencil ((m.serial st).painter w none 0) p.hsml)
            ((m.serial st).painter w none 0).axes p.pos) (m.global r c)).sum := by
  obtain ⟨memS, mem, hS, hret, hpiece⟩ := C23_paint_partial m hm hp w hw sm hsm hh none false pos hpos mass hsml hmass hhsml hcov
    (cStrides m.nmesh) (serial_distinct m) out (fun _ => 0) (by simp)
  refine ⟨mem, hret, ?_⟩
  intro r hr c hc
  rw [(hpiece r hr).1 c hc]
  have hlen : ∀ p ∈ allParticles m.nrank pos mass hsml, p.pos.length = m.nmesh.length := by
    intro p hp
    obtain ⟨r, hr, hp⟩ := List.mem_flatMap.1 hp
    obtain ⟨i, hi, rfl⟩ := List.mem_map.1 hp
    rw [List.mem_range] at hr hi
    simp only
    rw [List.getD_eq_getElem _ _ hi]
    exact hpos r hr _ (List.getElem_mem _)
  rw [paint_eq _ (painter_valid (m := m.serial (cStrides m.nmesh)) hw hm.dim none 0) _
    (fun p hp => by rw [painter_len]; exact hlen p hp) _, Option.some.injEq] at hS
  rw [← hS]
  simp only [Bool.false_eq_true, if_false, zero_add]
  congr 1
  apply List.map_congr_left
  intro p hpm
  congr 1
  have hgv := hm.global_valid hr hc
  have hsl : ((m.serial (cStrides m.nmesh)).localShape 0).length = (m.serial (cStrides m.nmesh)).nmesh.length := by
    rw [serial_localShape]; rfl
  rw [← elemAddr_painter w none 0 (m := m.serial (cStrides m.nmesh)) hgv.len,
    unitDeposit_elem _ (distinct_painter w none 0 hsl (serial_distinct m)) p _
      (by rw [shapeOf_painter w none 0 hsl, serial_localShape]; exact hgv),
    cwProd_painter (m.serial (cStrides m.nmesh)) w none 0 _ _ (hlen p hpm) _ hgv.len,
    cwProd_painter (m.serial st) w none 0 _ _ (hlen p hpm) _ hgv.len]
  congr 1
  apply List.map_congr_left
  intro j hj
  congr 1
  refine axisStencil_congr ((m.serial st).painter w none 0) ((m.serial (cStrides m.nmesh)).painter w none 0) rfl rfl rfl ?_ _ ?_ ?_ ?_ ?_
  · exact (orders_serial m _ w none 0).trans (orders_serial m st w none 0).symm
  all_goals rfl

end
end Pmesh

namespace Pmesh
section
variable {K : Type} [Field K] [LinearOrder K] [IsStrictOrderedRing K] [FloorRing K]

theorem withBox_ok {m : PMesh K} (hm : m.OK) {b : List ℕ} (hl : b.length = m.nmesh.length) (hb : ∀ n ∈ b, 0 < n) :
    (m.withBox b).OK where
  dim := hm.dim
  box_len := by show (b.map Nat.cast).length = _; rw [List.length_map, hl]; rfl
  box_pos := by
    intro x hx
    obtain ⟨n, hn, rfl⟩ := List.mem_map.1 hx
    exact_mod_cast hb n hn
  edges := hm.edges
  ranks := hm.ranks
  coord_valid := hm.coord_valid
  coord_inj := hm.coord_inj
  distinct := hm.distinct

theorem nmesh_pos' {m : PMesh K} (hm : m.OK) : ∀ n ∈ m.nmesh, 0 < n := by
  intro n hn
  obtain ⟨j, hj, rfl⟩ := List.getElem_of_mem hn
  have := hm.nmesh_pos hj
  rwa [List.getD_eq_getElem _ _ hj] at this

theorem serial_ok {m : PMesh K} (hm : m.OK) {st : List ℤ} (hd : (m.serial st).Distinct 0) : (m.serial st).OK where
  dim := hm.dim
  box_len := hm.box_len
  box_pos := hm.box_pos
  edges := by
    show List.Forall₂ SlabEdges m.nmesh (m.nmesh.map fun n => [0, n])
    have h := nmesh_pos' hm
    revert h
    induction m.nmesh with
    | nil => intro _; exact .nil
    | cons n ns ih =>
      intro h
      refine .cons ⟨by simp, by simp, by simp, h n (by simp), by simp, by simp⟩ (ih fun x hx => h x (by simp [hx]))
  ranks := by
    show 1 = ((m.nmesh.map fun n => [0, n]).map fun e => e.length - 1).prod
    rw [List.map_map, List.prod_eq_one]
    intro x hx
    obtain ⟨n, _, rfl⟩ := List.mem_map.1 hx
    rfl
  coord_valid := by
    intro r _
    show ValidIndex ((m.nmesh.map fun n => [0, n]).map fun e => e.length - 1) (m.nmesh.map fun _ => 0)
    unfold ValidIndex
    rw [List.map_map, List.forall₂_map_left_iff, List.forall₂_map_right_iff, List.forall₂_same]
    intro n _
    simp
  coord_inj := by
    intro r hr r' hr' _
    have h1 : r < 1 := hr
    have h2 : r' < 1 := hr'
    omega
  distinct := by
    intro r hr
    have h1 : r < 1 := hr
    have : r = 0 := by omega
    subst this
    exact hd

theorem serial_plain (m : PMesh K) (hm : m.OK) (st : List ℤ) : (m.serial st).PlainRanks := by
  left
  intro e he
  obtain ⟨n, hn, rfl⟩ := List.mem_map.1 he
  have := nmesh_pos' hm n hn
  simpa using this

theorem serial_halo (m : PMesh K) (st : List ℤ) (sm : List K) : (m.serial st).HaloFits sm := by
  intro j hj d hd
  right
  have hj : j < m.nmesh.length := hj
  have e : (m.serial st).edges.getD j [] = [0, m.nmesh.getD j 0] := by
    show (m.nmesh.map fun n => [0, n]).getD j [] = _
    rw [getD_map' _ _ 0 _ _ hj]
  rw [e] at hd ⊢
  have : d = 0 := by simpa using hd
  subst this
  simp [PMesh.serial]

theorem serial_global (m : PMesh K) (st : List ℤ) {c : List ℕ} (hc : ValidIndex m.nmesh c) : (m.serial st).global 0 c = c := by
  unfold PMesh.global
  rw [serial_start]
  have hl := hc.len
  apply List.ext_getElem
  · simp; omega
  · intro j h1 h2
    simp

/-- Positions at the own grid points, in units of cells. -/
theorem coordPositions_eq (m : PMesh K) (r : ℕ) :
    m.coordPositions r = (ndindex (m.localShape r)).map fun c => (m.global r c).map (Nat.cast : ℕ → K) := by
  unfold PMesh.coordPositions
  rw [meshCoordinates_eq, List.map_map]
  rfl

theorem getD_map_cast (l : List ℕ) {j : ℕ} (hj : j < l.length) : (l.map (Nat.cast : ℕ → K)).getD j 0 = (l.getD j 0 : ℕ) := by
  rw [getD_map' _ _ 0 _ _ hj]

theorem atGrid_coords {m : PMesh K} (hm : m.OK) :
    (m.withBox m.nmesh).AtGrid fun r c => (m.global r c).map (Nat.cast : ℕ → K) := by
  intro r hr c hc
  have hgl := (hm.global_valid hr hc).len
  refine ⟨by rw [List.length_map, hgl]; rfl, fun j hj => ?_⟩
  have hj : j < m.nmesh.length := hj
  rw [scale_getD (withBox_ok hm rfl (nmesh_pos' hm)) hj, getD_map_cast _ (by omega)]
  show (((m.nmesh.getD j 0 : ℕ) : K) / (m.nmesh.map Nat.cast).getD j 0) * _ = _
  rw [getD_map_cast _ hj]
  have : ((m.nmesh.getD j 0 : ℕ) : K) ≠ 0 := by
    have := hm.nmesh_pos hj
    exact_mod_cast this.ne'
  rw [div_self this, one_mul]
  rfl

/-- Weight in cell `C` of mesh `m` of the window of a particle at point `g` of a mesh with `n` cells per axis over the same
box. -/
def regridWeight (m : PMesh K) (n : List ℕ) (w : Resampler K) (g C : List ℕ) : K :=
  cwProd (List.zipWith (axisStencil (((m.withBox n).serial []).painter w none 0) 1)
    (((m.withBox n).serial []).painter w none 0).axes (g.map Nat.cast)) C

theorem smoothing_ok (m : PMesh K) (w : Resampler K) : m.SmoothingOK (m.smoothing w) := by
  refine ⟨by simp [PMesh.smoothing], fun s hs => ?_⟩
  unfold PMesh.smoothing at hs
  rw [List.eq_of_mem_replicate hs]
  positivity

theorem allParticles_hsml {n : ℕ} {pos : ℕ → List (List K)} {mass : ℕ → Quant K} {p : Particle K}
    (hp : p ∈ allParticles n pos mass fun _ => .none) : p.hsml = 1 := by
  obtain ⟨r, _, hpm⟩ := List.mem_flatMap.1 hp
  obtain ⟨i, _, rfl⟩ := List.mem_map.1 hpm
  rfl

/-- `downsample` in closed form. -/
theorem downsample_eq {src dst : PMesh K} (hs : src.OK) (hd : dst.OK) (hp : dst.PlainRanks) (hr : dst.nrank = src.nrank)
    (hdim : src.nmesh.length = dst.nmesh.length) {w : Resampler K} (hw : w.Valid) (hh : dst.HaloFits (dst.smoothing w))
    (hcov : w.Covers ((w.support : K) * (1 / 2)) 1) (keepMean : Bool) (field : ℕ → ℤ → K) (G : List ℕ → K)
    (hf : ∀ r < src.nrank, ∀ c, ValidIndex (src.localShape r) c → field r (src.addr r c) = G (src.global r c)) :
    ∃ mem : ℕ → ℤ → K,
      AllReturn src.nrank (fun r => downsample src dst w keepMean r (field r)) (fun r => .ok (mem r)) ∧
      ∀ r < src.nrank, ∀ c, ValidIndex (dst.localShape r) c → mem r (dst.addr r c) =
        ((ndindex src.nmesh).map fun g => (if keepMean then G g / densityRatio src dst else G g) *
          regridWeight dst src.nmesh w g (dst.global r c)).sum := by
  have hsb := withBox_ok hs rfl (nmesh_pos' hs)
  have hdb := withBox_ok hd hdim (nmesh_pos' hs)
  have hread := readout_own nnb_isNearest hsb (atGrid_coords hs) field
  set val : ℕ → List ℕ → K := fun r c => if keepMean then field r (src.addr r c) / densityRatio src dst else field r (src.addr r c) with hval
  set pos : ℕ → List (List K) := fun r => (ndindex (src.localShape r)).map fun c => (src.global r c).map (Nat.cast : ℕ → K) with hpos
  have hposlen : ∀ r < (dst.withBox src.nmesh).nrank, ∀ x ∈ pos r, x.length = (dst.withBox src.nmesh).nmesh.length := by
    intro r hrr x hx
    obtain ⟨c, hc, rfl⟩ := List.mem_map.1 hx
    have hrr : r < dst.nrank := hrr
    rw [List.length_map, (hs.global_valid (by omega) (mem_ndindex.1 hc)).len, hdim]
    rfl
  obtain ⟨mem, hpaint, hmem⟩ := paint_all hdb hp hw (sm := dst.smoothing w) (smoothing_ok (dst.withBox src.nmesh) w) hh hposlen
    (mass := fun r => .array ((ndindex (src.localShape r)).map (val r))) (hsml := fun _ => .none)
    (Or.inr (Or.inr fun r _ => ⟨_, rfl, by simp [hpos]⟩)) (Or.inl fun _ _ => rfl)
    (by
      intro p hpm s hs
      rw [allParticles_hsml hpm]
      unfold PMesh.smoothing at hs
      rw [List.eq_of_mem_replicate hs]
      exact hcov)
    (fun _ _ => 0) []
  refine ⟨mem, ?_, ?_⟩
  · have hpaint' := hpaint
    rw [show (dst.withBox src.nmesh).nrank = src.nrank from hr] at hpaint'
    unfold downsample
    dsimp only
    refine AllReturn.congr (fun r _ => ?_) (fun _ _ => rfl) (AllReturn.andThen (k := fun r (f : List K) =>
      (pmDecompose (dst.withBox src.nmesh) (dst.smoothing w) r (pos r)).andThen fun lay =>
        pmPaint (dst.withBox src.nmesh) w none false r (some lay) (pos r)
          (.array (if keepMean then f.map (· / densityRatio src dst) else f)) .none fun _ => 0)
      hread (AllReturn.congr (fun r _ => ?_) (fun _ _ => rfl) hpaint'))
    · rw [coordPositions_eq]
      rfl
    · have : (if keepMean then ((ndindex (src.localShape r)).map fun c => field r (src.addr r c)).map (· / densityRatio src dst)
          else (ndindex (src.localShape r)).map fun c => field r (src.addr r c)) = (ndindex (src.localShape r)).map (val r) := by
        rw [hval]
        cases keepMean
        · simp
        · simp [List.map_map, Function.comp_def]
      exact congrArg (fun l => (pmDecompose (dst.withBox src.nmesh) (dst.smoothing w) r (pos r)).andThen fun lay =>
        pmPaint (dst.withBox src.nmesh) w none false r (some lay) (pos r) (.array l) .none fun _ => 0) this
  · intro r hrr c hc
    have h := hmem r (by show r < dst.nrank; omega) c hc
    rw [allParticles_sum (fun r => src.localShape r) (fun r c => (src.global r c).map (Nat.cast : ℕ → K)) val] at h
    refine Eq.trans h ?_
    rw [← sum_ranks hs]
    have e : (dst.withBox src.nmesh).nrank = src.nrank := hr
    rw [e]
    congr 1
    apply List.map_congr_left
    intro q hq
    congr 1
    apply List.map_congr_left
    intro c' hc'
    rw [hval]
    dsimp only
    rw [hf q (List.mem_range.1 hq) c' (mem_ndindex.1 hc')]
    rfl

/-- A memory with given content of the global array. -/
theorem exists_glob {m : PMesh K} {st : List ℤ} (hd : (m.serial st).Distinct 0) (G : List ℕ → K) :
    ∃ glob : ℤ → K, ∀ g, ValidIndex m.nmesh g → glob ((m.serial st).addr 0 g) = G g := by
  classical
  refine ⟨fun a => if h : ∃ g, ValidIndex m.nmesh g ∧ (m.serial st).addr 0 g = a then G h.choose else 0, fun g hg => ?_⟩
  have h : ∃ g', ValidIndex m.nmesh g' ∧ (m.serial st).addr 0 g' = (m.serial st).addr 0 g := ⟨g, hg, rfl⟩
  refine (dif_pos h).trans ?_
  have := hd _ g (by rw [serial_localShape]; exact h.choose_spec.1) (by rw [serial_localShape]; exact hg) h.choose_spec.2
  rw [this]

/-- `decompose` and `readout` in closed form. -/
theorem readout_all {m : PMesh K} (hm : m.OK) (hp : m.PlainRanks) {w : Resampler K} (hw : w.Valid)
    {sm : List K} (hsm : m.SmoothingOK sm) (hh : m.HaloFits sm)
    {pos : ℕ → List (List K)} (hpos : ∀ r < m.nrank, ∀ x ∈ pos r, x.length = m.nmesh.length)
    (hcov : ∀ s ∈ sm, w.Covers s 1) (field : ℕ → ℤ → K) (G : List ℕ → K)
    (hf : ∀ r < m.nrank, ∀ c, ValidIndex (m.localShape r) c → field r (m.addr r c) = G (m.global r c)) (st : List ℤ) :
    AllReturn m.nrank (fun r => (pmDecompose m sm r (pos r)).andThen fun lay =>
        pmReadout m w none r (some lay) (pos r) .none (field r))
      (fun r => .ok ((pos r).map fun x => ((ndindex m.nmesh).map fun g =>
        cwProd (List.zipWith (axisStencil ((m.serial st).painter w none 0) 1) ((m.serial st).painter w none 0).axes x) g * G g).sum)) := by
  obtain ⟨glob, hglob⟩ := exists_glob (serial_distinct m) G
  obtain ⟨res, hret, hres⟩ := C24_readout_partial m hm hp w hw sm hsm hh none pos hpos (fun _ => .none) (Or.inl fun _ _ => rfl)
    (fun p hp s hs => by rw [allParticles_hsml hp]; exact hcov s hs) (cStrides m.nmesh) field glob
    (fun r hr c hc => by rw [hf r hr c hc, hglob _ (hm.global_valid hr hc)])
  refine AllReturn.congr (fun _ _ => rfl) (fun r hr => ?_) hret
  congr 1
  have h := hres r hr
  have hlen : ∀ p ∈ particlesOf (pos r) .none .none, p.pos.length = m.nmesh.length := by
    intro p hp
    obtain ⟨i, hi, rfl⟩ := List.mem_map.1 hp
    rw [List.mem_range] at hi
    simp only
    rw [List.getD_eq_getElem _ _ hi]
    exact hpos r hr _ (List.getElem_mem _)
  rw [readout_eq _ (painter_valid (m := m.serial (cStrides m.nmesh)) hw hm.dim none 0) _
    (fun p hp => by rw [painter_len]; exact hlen p hp) _, Option.some.injEq] at h
  rw [← h]
  apply List.ext_getElem
  · simp [particlesOf]
  · intro i h1 h2
    have hi : i < (pos r).length := by simpa using h1
    have hsl : ((m.serial (cStrides m.nmesh)).localShape 0).length = (m.serial (cStrides m.nmesh)).nmesh.length := by
      rw [serial_localShape]; rfl
    simp only [particlesOf, List.getElem_map, List.getElem_range]
    rw [shapeOf_painter w none 0 hsl, serial_localShape, List.getD_eq_getElem _ _ hi]
    congr 1
    apply List.map_congr_left
    intro g hg
    have hg := mem_ndindex.1 hg
    rw [elemAddr_painter w none 0 (m := m.serial (cStrides m.nmesh)) hg.len, hglob g hg]
    congr 1
    have hxl := hpos r hr _ (List.getElem_mem hi)
    show _ = cwProd (List.zipWith (axisStencil ((m.serial (cStrides m.nmesh)).painter w none 0) 1) _ _) g
    rw [cwProd_painter (m.serial (cStrides m.nmesh)) w none 0 _ _ hxl _ hg.len,
      cwProd_painter (m.serial st) w none 0 _ _ hxl _ hg.len]
    congr 1
    apply List.map_congr_left
    intro j hj
    congr 1
    refine axisStencil_congr ((m.serial (cStrides m.nmesh)).painter w none 0) ((m.serial st).painter w none 0) rfl rfl rfl ?_ _ ?_ ?_ ?_ ?_
    · exact (orders_serial m _ w none 0).trans (orders_serial m _ w none 0).symm
    all_goals rfl

theorem andThen_assoc {V E A B C : Type} (p : Prog V (Except E A)) (f : A → Prog V (Except E B)) (g : B → Prog V (Except E C)) :
    (p.andThen f).andThen g = p.andThen fun a => (f a).andThen g := by
  induction p with
  | ret r => cases r <;> rfl
  | coll op v k ih => simp only [Prog.andThen, ih]

/-- `upsample` in closed form. -/
theorem upsample_eq {src dst : PMesh K} (hs : src.OK) (hd : dst.OK) (hp : src.PlainRanks) (hr : dst.nrank = src.nrank)
    (hdim : src.nmesh.length = dst.nmesh.length) {w : Resampler K} (hw : w.Valid) (hh0 : src.HaloFits (src.smoothing w))
    (hh : src.HaloFits (List.replicate src.nmesh.length (8 / 5)))
    (hcov : w.Covers (8 / 5) 1) (keepMean : Bool) (field : ℕ → ℤ → K) (G : List ℕ → K)
    (hf : ∀ r < src.nrank, ∀ c, ValidIndex (src.localShape r) c → field r (src.addr r c) = G (src.global r c)) :
    ∃ mem : ℕ → ℤ → K,
      AllReturn src.nrank (fun r => upsample src dst w keepMean r (field r)) (fun r => .ok (mem r)) ∧
      ∀ r < src.nrank, ∀ c, ValidIndex (dst.localShape r) c → mem r (dst.addr r c) =
        ((ndindex src.nmesh).map fun g => regridWeight src dst.nmesh w (dst.global r c) g * G g).sum *
          (if keepMean then 1 else densityRatio src dst) := by
  have hsb := withBox_ok hs hdim.symm (nmesh_pos' hd)
  have hdb := withBox_ok hd rfl (nmesh_pos' hd)
  set pos : ℕ → List (List K) := fun r => (ndindex (dst.localShape r)).map fun c => (dst.global r c).map (Nat.cast : ℕ → K) with hpos
  have hposlen : ∀ r < (src.withBox dst.nmesh).nrank, ∀ x ∈ pos r, x.length = (src.withBox dst.nmesh).nmesh.length := by
    intro r hrr x hx
    obtain ⟨c, hc, rfl⟩ := List.mem_map.1 hx
    have hrr : r < src.nrank := hrr
    rw [List.length_map, (hd.global_valid (by omega) (mem_ndindex.1 hc)).len, ← hdim]
    rfl
  obtain ⟨a, L, _, _, _, hdec⟩ := pmDecompose_return hsb hsb.nrank_pos hp (sm := src.smoothing w) (smoothing_ok _ w) hh0 hposlen
  have hsm : (src.withBox dst.nmesh).SmoothingOK (List.replicate src.nmesh.length (8 / 5)) := by
    refine ⟨by simp [PMesh.withBox], fun s hs => ?_⟩
    rw [List.eq_of_mem_replicate hs]
    norm_num
  have hread := readout_all hsb hp hw hsm hh hposlen (fun s hs => by rw [List.eq_of_mem_replicate hs]; exact hcov) field G hf []
  set val : ℕ → List ℕ → K := fun r c => ((ndindex src.nmesh).map fun g => regridWeight src dst.nmesh w (dst.global r c) g * G g).sum *
    (if keepMean then 1 else densityRatio src dst) with hval
  obtain ⟨mem, hpaint, hmem⟩ := paint_own nnb_isNearest hdb (atGrid_coords hd) val fun _ _ => 0
  refine ⟨mem, ?_, fun r hrr c hc => hmem r (by show r < dst.nrank; omega) c hc⟩
  have hpaint' := hpaint
  rw [show (dst.withBox dst.nmesh).nrank = src.nrank from hr] at hpaint'
  unfold upsample
  dsimp only
  refine AllReturn.congr (p' := fun r => (pmDecompose (src.withBox dst.nmesh) (src.smoothing w) r (pos r)).andThen fun _ =>
      ((pmDecompose (src.withBox dst.nmesh) (List.replicate src.nmesh.length (8 / 5)) r (pos r)).andThen fun lay =>
        pmReadout (src.withBox dst.nmesh) w none r (some lay) (pos r) .none (field r)).andThen fun f =>
          pmPaint (dst.withBox dst.nmesh) nnbWindow none false r none (pos r)
            (.array (if keepMean then f else f.map (· * densityRatio src dst))) .none fun _ => 0)
    (fun r _ => ?_) (fun _ _ => rfl) ?_
  · rw [coordPositions_eq]
    congr 1
    funext _
    exact (andThen_assoc _ _ _).symm
  · refine AllReturn.andThen (k := fun r _ =>
      ((pmDecompose (src.withBox dst.nmesh) (List.replicate src.nmesh.length (8 / 5)) r (pos r)).andThen fun lay =>
        pmReadout (src.withBox dst.nmesh) w none r (some lay) (pos r) .none (field r)).andThen fun f =>
          pmPaint (dst.withBox dst.nmesh) nnbWindow none false r none (pos r)
            (.array (if keepMean then f else f.map (· * densityRatio src dst))) .none fun _ => 0) hdec ?_
    refine AllReturn.andThen (k := fun r (f : List K) => pmPaint (dst.withBox dst.nmesh) nnbWindow none false r none (pos r)
            (.array (if keepMean then f else f.map (· * densityRatio src dst))) .none fun _ => 0) hread ?_
    refine AllReturn.congr (fun r _ => ?_) (fun _ _ => rfl) hpaint'
    have : (if keepMean then ((pos r).map fun x => ((ndindex src.nmesh).map fun g =>
        cwProd (List.zipWith (axisStencil (((src.withBox dst.nmesh).serial []).painter w none 0) 1)
          (((src.withBox dst.nmesh).serial []).painter w none 0).axes x) g * G g).sum)
        else ((pos r).map fun x => ((ndindex src.nmesh).map fun g =>
        cwProd (List.zipWith (axisStencil (((src.withBox dst.nmesh).serial []).painter w none 0) 1)
          (((src.withBox dst.nmesh).serial []).painter w none 0).axes x) g * G g).sum).map (· * densityRatio src dst)) =
        (ndindex (dst.localShape r)).map (val r) := by
      rw [hval, hpos]
      cases keepMean
      · simp only [List.map_map, Bool.false_eq_true, if_false]
        rfl
      · simp only [List.map_map, if_true, mul_one]
        rfl
    exact congrArg (fun l => pmPaint (dst.withBox dst.nmesh) nnbWindow none false r none (pos r) (.array l) .none fun _ => 0) this

theorem global_inj_ranks {m : PMesh K} (hm : m.OK) {r r' : ℕ} (hr : r < m.nrank) (hr' : r' < m.nrank) {c c' : List ℕ}
    (hc : ValidIndex (m.localShape r) c) (hc' : ValidIndex (m.localShape r') c') (h : m.global r c = m.global r' c') :
    r = r' ∧ c = c' := by
  have hn := (ranks_perm hm).nodup_iff.2 (ndindex_nodup _)
  rw [List.nodup_flatMap] at hn
  have hrr : r = r' := by
    by_contra hne
    haveI : Std.Symm (Function.onFun List.Disjoint fun r => List.map (m.global r) (ndindex (m.localShape r))) :=
      ⟨fun _ _ h => List.Disjoint.symm h⟩
    have := hn.2.forall (List.mem_range.2 hr) (List.mem_range.2 hr') hne
    exact this (List.mem_map.2 ⟨c, mem_ndindex.2 hc, rfl⟩) (List.mem_map.2 ⟨c', mem_ndindex.2 hc', h.symm⟩)
  subst hrr
  exact ⟨rfl, global_inj' hm hr hc hc' h⟩

/-- The global content of any field. -/
theorem exists_content {m : PMesh K} (hm : m.OK) (field : ℕ → ℤ → K) :
    ∃ G : List ℕ → K, ∀ r < m.nrank, ∀ c, ValidIndex (m.localShape r) c → field r (m.addr r c) = G (m.global r c) := by
  classical
  refine ⟨fun g => if h : ∃ p : ℕ × List ℕ, p.1 < m.nrank ∧ ValidIndex (m.localShape p.1) p.2 ∧ m.global p.1 p.2 = g
    then field h.choose.1 (m.addr h.choose.1 h.choose.2) else 0, fun r hr c hc => ?_⟩
  have h : ∃ p : ℕ × List ℕ, p.1 < m.nrank ∧ ValidIndex (m.localShape p.1) p.2 ∧ m.global p.1 p.2 = m.global r c :=
    ⟨(r, c), hr, hc, rfl⟩
  refine Eq.trans ?_ (dif_pos h).symm
  obtain ⟨h1, h2, h3⟩ := h.choose_spec
  obtain ⟨e1, e2⟩ := global_inj_ranks hm h1 hr h2 hc h3
  rw [e1, e2]

theorem weight_strides (m : PMesh K) (w : Resampler K) (st st' : List ℤ) {x : List K} (hx : x.length = m.nmesh.length)
    {c : List ℕ} (hc : c.length = m.nmesh.length) :
    cwProd (List.zipWith (axisStencil ((m.serial st).painter w none 0) 1) ((m.serial st).painter w none 0).axes x) c =
      cwProd (List.zipWith (axisStencil ((m.serial st').painter w none 0) 1) ((m.serial st').painter w none 0).axes x) c := by
  rw [cwProd_painter (m.serial st) w none 0 _ _ hx _ hc, cwProd_painter (m.serial st') w none 0 _ _ hx _ hc]
  congr 1
  apply List.map_congr_left
  intro j hj
  congr 1
  refine axisStencil_congr ((m.serial st').painter w none 0) ((m.serial st).painter w none 0) rfl rfl rfl ?_ _ ?_ ?_ ?_ ?_
  · exact (orders_serial m _ w none 0).trans (orders_serial m _ w none 0).symm
  all_goals rfl

/-- The weights of a window add up to one. -/
theorem regridWeight_sum {m : PMesh K} (hm : m.OK) {n : List ℕ} (hn : n.length = m.nmesh.length) (hnp : ∀ x ∈ n, 0 < x)
    {w : Resampler K} (hw : w.Valid) {kind : Tuned} (hk : w.kern = Tuned.kern kind) (hsup : w.support = w.kern.native)
    {g : List ℕ} (hg : g.length = m.nmesh.length) :
    ((ndindex m.nmesh).map fun C => regridWeight m n w g C).sum = 1 := by
  have hb := withBox_ok hm hn hnp
  set S := (m.withBox n).serial (cStrides (m.withBox n).nmesh) with hS
  have hSd : S.Distinct 0 := serial_distinct (m.withBox n)
  have hSl : S.localShape 0 = m.nmesh := serial_localShape (m.withBox n) _ 0
  have hl : (S.localShape 0).length = S.nmesh.length := by rw [hSl]; rfl
  have hcast : (g.map (Nat.cast : ℕ → K)).length = m.nmesh.length := by rw [List.length_map, hg]
  have hP : (S.painter w none 0).Valid := painter_valid (m := S) hw hb.dim none 0
  have hD := distinct_painter (m := S) w none 0 hl hSd
  obtain ⟨mem', h1, h2⟩ := C15_mass_conserved (S.painter w none 0) hP kind hk (by
      intro ax hax
      obtain ⟨j, hj, rfl⟩ := List.mem_map.1 hax
      have hj : j < m.nmesh.length := List.mem_range.1 hj
      have := hm.nmesh_pos hj
      refine ⟨by simp, ?_, ?_⟩
      · show 0 < (S.localShape 0).getD j 0
        rw [hSl]; exact this
      · show m.nmesh.getD j 0 = (S.localShape 0).getD j 0
        rw [hSl]) hD
    [⟨g.map Nat.cast, 1, 1⟩] (by
      intro p hp
      rw [List.mem_singleton] at hp
      subst hp
      refine ⟨by rw [painter_len]; exact hcast, ?_⟩
      unfold windowSize
      show (if (w.support : K) * 1 ≤ 0 then (w.kern.native : K) else w.support * 1) = w.kern.native
      rw [hsup]
      split <;> simp) (fun _ => 0)
  have h3 := paint_eq (S.painter w none 0) hP [⟨g.map Nat.cast, 1, 1⟩] (by
    intro p hp
    rw [List.mem_singleton] at hp
    subst hp
    rw [painter_len]; exact hcast) (fun _ => 0)
  rw [h1, Option.some.injEq] at h3
  subst h3
  unfold total at h2
  simp only [List.map_cons, List.map_nil, List.sum_cons, List.sum_nil, one_mul, add_zero, zero_add, List.map_const',
    List.sum_replicate, smul_zero] at h2
  rw [← h2, shapeOf_painter (m := S) w none 0 hl, hSl]
  congr 1
  apply List.map_congr_left
  intro C hC
  have hC := mem_ndindex.1 hC
  rw [unitDeposit_elem _ hD _ _ (by rw [shapeOf_painter (m := S) w none 0 hl, hSl]; exact hC)]
  exact weight_strides (m.withBox n) w _ _ hcast hC.len

theorem list_sum_comm {A B : Type} (l : List A) (l' : List B) (f : A → B → K) :
    (l.map fun a => (l'.map fun b => f a b).sum).sum = (l'.map fun b => (l.map fun a => f a b).sum).sum := by
  induction l with
  | nil => simp
  | cons a l ih => simp only [List.map_cons, List.sum_cons, ih, List.sum_map_add]

theorem fieldSum_eq {m : PMesh K} (hm : m.OK) {field : ℕ → ℤ → K} {G : List ℕ → K}
    (hf : ∀ r < m.nrank, ∀ c, ValidIndex (m.localShape r) c → field r (m.addr r c) = G (m.global r c)) :
    m.fieldSum field = ((ndindex m.nmesh).map G).sum := by
  rw [← sum_ranks hm]
  unfold PMesh.fieldSum
  congr 1
  apply List.map_congr_left
  intro r hr
  congr 1
  apply List.map_congr_left
  intro c hc
  exact hf r (List.mem_range.1 hr) c (mem_ndindex.1 hc)

theorem tuned_covers {w : Resampler K} {kind : Tuned} (hk : w.kern = Tuned.kern kind) (hsup : w.support = w.kern.native)
    {s : K} (hs : (w.support : K) ≤ 2 * s) : w.Covers s 1 := by
  right; left
  rw [hk]
  refine ⟨tuned_confined kind, ?_⟩
  unfold windowSize
  dsimp only
  rw [hk] at hsup
  rw [hsup] at hs ⊢
  rw [mul_one]
  refine le_trans (le_of_eq ?_) hs
  split <;> simp

theorem HaloFits.mono {m : PMesh K} {sm sm' : List K} (h : m.HaloFits sm) (hle : ∀ j, sm'.getD j 0 ≤ sm.getD j 0) :
    m.HaloFits sm' := by
  intro j hj d hd
  rcases h j hj d hd with h | h
  · exact .inl (by linarith [hle j])
  · exact .inr h

theorem halo_support {m : PMesh K} {w : Resampler K} (h3 : w.support ≤ 3)
    (hh : m.HaloFits (List.replicate m.nmesh.length (8 / 5))) : m.HaloFits (m.smoothing w) := by
  refine HaloFits.mono hh fun j => ?_
  unfold PMesh.smoothing
  by_cases hj : j < m.nmesh.length
  · rw [List.getD_eq_getElem _ _ (by simpa using hj), List.getD_eq_getElem _ _ (by simpa using hj), List.getElem_replicate,
      List.getElem_replicate]
    have : (w.support : K) ≤ 3 := by exact_mod_cast h3
    linarith
  · rw [List.getD_eq_default _ _ (by simpa using hj), List.getD_eq_default _ _ (by simpa using hj)]

end
end Pmesh
