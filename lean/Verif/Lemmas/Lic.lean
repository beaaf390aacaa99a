import Verif.Model.Lic
import Verif.Spec.Lic
import Verif.Lemmas.Regrid
import Verif.Lemmas.MeshCovered
import Verif.Lemmas.WindowBounds

/-! # Lemmas on line integral convolution -/

set_option linter.unusedSectionVars false

namespace Pmesh

theorem forProg_map {V E S I J : Type} (body : J → S → Prog V (Except E S)) (h : I → J) : ∀ (l : List I) (s : S),
    forProg body (l.map h) s = forProg (fun i => body (h i)) l s
  | [], _ => rfl
  | i :: l, s => by
    simp only [List.map_cons, forProg]
    congr 1
    funext s
    exact forProg_map body h l s

/-- A loop over `0, ..., k - 1` that takes the state `st i` to `st (i + 1)`. -/
theorem AllReturn.forProg_range {V E S : Type} {n : ℕ} {body : ℕ → ℕ → S → Prog V (Except E S)} (st : ℕ → ℕ → S) (k : ℕ)
    (h : ∀ i < k, AllReturn n (fun r => body r i (st i r)) (fun r => .ok (st (i + 1) r))) :
    AllReturn n (fun r => Pmesh.forProg (body r) (List.range k) (st 0 r)) (fun r => .ok (st k r)) := by
  have key : ∀ m a, (∀ i, a ≤ i → i < a + m → AllReturn n (fun r => body r i (st i r)) (fun r => .ok (st (i + 1) r))) →
      AllReturn n (fun r => Pmesh.forProg (body r) (List.range' a m) (st a r)) (fun r => .ok (st (a + m) r)) := by
    intro m
    induction m with
    | zero => intro a _; exact AllReturn.ret n _
    | succ m ih =>
      intro a ha
      have h2 := ih (a + 1) (fun i h1 h2 => ha i (by omega) (by omega))
      rw [show a + 1 + m = a + (m + 1) by omega] at h2
      exact AllReturn.andThen (k := fun r s => Pmesh.forProg (body r) (List.range' (a + 1) m) s) (ha a le_rfl (by omega)) h2
  have := key k 0 (fun i _ hi => h i (by omega))
  rwa [Nat.zero_add, ← List.range_eq_range'] at this

section
variable {K : Type} [Field K] [LinearOrder K] [IsStrictOrderedRing K] [FloorRing K]

theorem nearest_isNearest : IsNearest (nearestWindow : Resampler K) := ⟨rfl, rfl, by intro t ht; simp [nearestWindow] at ht⟩

theorem follow_length (m : PMesh K) (st : List ℤ) (w : Resampler K) (gv : List (ℤ → K)) (t : K) (x : List K) :
    (follow m st w gv t x).length = x.length := by simp [follow]

theorem follow_getD (m : PMesh K) (st : List ℤ) (w : Resampler K) (gv : List (ℤ → K)) (t : K) (x : List K) {d : ℕ} (hd : d < x.length) :
    (follow m st w gv t x).getD d 0 = x.getD d 0 + velocityAt m st w gv x d * t := by
  rw [List.getD_eq_getElem _ _ (by rw [follow_length]; exact hd), List.getD_eq_getElem _ _ hd]
  simp [follow]

theorem streamline_length (m : PMesh K) (st : List ℤ) (w : Resampler K) (gv : List (ℤ → K)) (t : K) (x : List K) :
    ∀ n, (streamline m st w gv t x n).length = x.length
  | 0 => rfl
  | n + 1 => by rw [streamline, follow_length, streamline_length m st w gv t x n]

/-- What a single process reads at one position. -/
theorem fieldAt_eq {m : PMesh K} (hm : m.OK) (st : List ℤ) {w : Resampler K} (hw : w.Valid) (field : ℤ → K) {x : List K}
    (hx : x.length = m.nmesh.length) : fieldAt m st w field x =
      ((ndindex (shapeOf ((m.serial st).painter w none 0).axes)).map fun c =>
        cwProd (List.zipWith (axisStencil ((m.serial st).painter w none 0) 1) ((m.serial st).painter w none 0).axes x) c *
          field (elemAddr ((m.serial st).painter w none 0).axes c)).sum := by
  unfold fieldAt
  rw [readout_eq _ (painter_valid (m := m.serial st) hw hm.dim none 0) [⟨x, 1, 1⟩] (by
    intro p hp
    rw [List.mem_singleton] at hp
    subst hp
    rw [painter_len]
    exact hx)]
  rfl

theorem readout_samples {m : PMesh K} (hm : m.OK) (st : List ℤ) {w : Resampler K} (hw : w.Valid) (field : ℤ → K) {pos : List (List K)}
    (hpos : ∀ x ∈ pos, x.length = m.nmesh.length) :
    readout ((m.serial st).painter w none 0) field (particlesOf pos .none .none) = some (pos.map (fieldAt m st w field)) := by
  rw [readout_eq _ (painter_valid (m := m.serial st) hw hm.dim none 0) _ (by
    intro p hp
    obtain ⟨i, hi, rfl⟩ := List.mem_map.1 hp
    have hi := List.mem_range.1 hi
    rw [painter_len]
    show (pos.getD i []).length = _
    rw [List.getD_eq_getElem _ _ hi]
    exact hpos _ (List.getElem_mem _))]
  congr 1
  apply List.ext_getElem
  · simp [particlesOf]
  · intro i h1 h2
    have hi : i < pos.length := by simpa using h2
    simp only [particlesOf, List.getElem_map, List.getElem_range]
    rw [fieldAt_eq hm st hw field (hpos _ (List.getElem_mem _)), List.getD_eq_getElem _ _ hi]
    rfl

/-- The columns of `dx`. -/
def licCols (m : PMesh K) (st : List ℤ) (w : Resampler K) (gv : List (ℤ → K)) (ds : K) (x : List (List K)) (k : ℕ) : List (List K) :=
  (List.range k).map fun d => x.map fun p => velocityAt m st w gv p d * ds

theorem licCols_getD {m : PMesh K} {st : List ℤ} {w : Resampler K} {gv : List (ℤ → K)} {ds : K} {x : List (List K)} {i d : ℕ}
    (hi : i < x.length) : ((licCols m st w gv ds x gv.length).getD d []).getD i 0 = velocityAt m st w gv x[i] d * ds := by
  by_cases hd : d < gv.length
  · have e : (licCols m st w gv ds x gv.length).getD d [] = x.map fun p => velocityAt m st w gv p d * ds := by
      unfold licCols
      rw [List.getD_eq_getElem (hn := by simpa using hd)]
      simp only [List.getElem_map, List.getElem_range]
    rw [e, List.getD_eq_getElem (hn := by simpa using hi), List.getElem_map]
  · have e : (licCols m st w gv ds x gv.length).getD d [] = [] := by
      rw [List.getD_eq_getElem?_getD, List.getElem?_eq_none (by simpa [licCols] using hd)]; rfl
    rw [e]
    unfold velocityAt
    rw [List.getElem?_eq_none (by omega)]
    simp

theorem licMove_half {m : PMesh K} {st : List ℤ} {w : Resampler K} {gv : List (ℤ → K)} (ds sign : K) (x : List (List K)) :
    licMove sign x (licCols m st w gv ds x gv.length) = x.map (follow m st w gv (ds * sign / 2)) := by
  apply List.ext_getElem
  · simp [licMove]
  · intro i h1 h2
    have hi : i < x.length := by simpa using h2
    simp only [licMove, List.getElem_mapIdx, List.getElem_map, follow]
    apply List.ext_getElem
    · simp
    · intro d h3 h4
      simp only [List.getElem_mapIdx]
      rw [licCols_getD hi]
      ring

theorem licMove_full {m : PMesh K} {st : List ℤ} {w : Resampler K} {gv : List (ℤ → K)} (ds sign : K) (x : List (List K)) :
    licMove sign (licMove sign x (licCols m st w gv ds x gv.length)) (licCols m st w gv ds x gv.length) =
      x.map (follow m st w gv (ds * sign)) := by
  apply List.ext_getElem
  · simp [licMove]
  · intro i h1 h2
    have hi : i < x.length := by simpa using h2
    simp only [licMove, List.getElem_mapIdx, List.getElem_map, follow]
    apply List.ext_getElem
    · simp
    · intro d h3 h4
      simp only [List.getElem_mapIdx]
      rw [licCols_getD hi]
      ring

/-- What the vectors on the ranks and their global counterparts have to do with each other. -/
def VectorsOf (m : PMesh K) (st : List ℤ) (gv : List (ℤ → K)) (vectors : ℕ → List (ℤ → K)) : Prop :=
  ∀ r < m.nrank, (vectors r).length = gv.length ∧ ∀ d < gv.length,
    m.PieceOf st (gv.getD d fun _ => 0) ((vectors r).getD d fun _ => 0) r

open Classical in
/-- One pass of the loop. -/
theorem licStep_return {m : PMesh K} (hm : m.OK) (hp : m.PlainRanks) {w : Resampler K} (hw : w.Valid)
    (hcov : w.Covers ((w.support : K) * (1 / 2)) 1) {st : List ℤ} {gv : List (ℤ → K)} {vectors : ℕ → List (ℤ → K)}
    (hvec : VectorsOf m st gv vectors) (hdim : gv.length ≤ m.nmesh.length) {texture : ℕ → ℤ → K} {gt : ℤ → K}
    (htex : ∀ r < m.nrank, m.PieceOf st gt (texture r) r) (kernel : K → K) (length : K) {ds : K} (hds : 0 ≤ ds) {vmax : ℕ → K}
    (hv0 : ∀ r < m.nrank, 0 ≤ vmax r) (hh : ∀ r < m.nrank, m.HaloFits (licSmoothing m w (vmax r) ds)) {sign : K} (hsign : |sign| = 1)
    (i : ℕ) {x : ℕ → List (List K)} (hx : ∀ r < m.nrank, ∀ p ∈ x r, p.length = m.nmesh.length)
    (hbd : ∀ r < m.nrank, ∀ p ∈ x r, ∀ d < m.nmesh.length, m.scale.getD d 0 * |velocityAt m st w gv p d| ≤ vmax r)
    (f : ℕ → List K) :
    AllReturn m.nrank (fun r => licStep m w (vectors r) (texture r) kernel length ds (vmax r) sign r i (x r, f r))
      (fun r => .ok ((x r).map (follow m st w gv (ds * sign)), List.zipWith
        (fun f t => f + t * kernel ((i : K) * ds * sign / (length * (1 / 2))) * ds) (f r)
          (((x r).map (follow m st w gv (ds * sign / 2))).map (fieldAt m st w gt)))) := by
  have hsm : ∀ r < m.nrank, m.SmoothingOK (licSmoothing m w (vmax r) ds) := fun r hr =>
    ⟨by simp [licSmoothing], by
      intro s hs
      rw [List.eq_of_mem_replicate hs]
      have := hv0 r hr
      positivity⟩
  obtain ⟨a, L, ho, hL, hsent, hdec⟩ := pmDecompose_return_ranks hm hm.nrank_pos hp hsm hh hx
  have hlen : ∀ q < m.nrank, (L q).sendlength = (x q).length := fun q hq => (hsent q hq).1
  have hnd : ∀ q < m.nrank, ∀ r < m.nrank, ((L q).sentIdx r).Nodup := fun q hq r hr => by
    rw [(hsent q hq).2 r hr]; exact List.nodup_range.filter _
  have hsmj : ∀ q, ∀ j < m.nmesh.length, (licSmoothing m w (vmax q) ds).getD j 0 = vmax q * ds * (1 / 2) + (w.support : K) * (1 / 2) := by
    intro q j hj
    rw [List.getD_eq_getElem _ _ (by simpa [licSmoothing] using hj)]
    simp [licSmoothing]
  have hsj : ∀ j < m.nmesh.length, (List.replicate m.nmesh.length ((w.support : K) * (1 / 2))).getD j 0 = (w.support : K) * (1 / 2) := by
    intro j hj
    rw [List.getD_eq_getElem _ _ (by simpa using hj)]
    simp
  -- the layout serves the positions and the half moved positions
  have hC1 : Covered m w none x (fun _ => (.none : Quant K)) L := by
    refine covered_of_near hm hw none ho hx hx (fun _ _ => rfl) (sm := fun q => licSmoothing m w (vmax q) ds)
      (s := fun _ _ => List.replicate m.nmesh.length ((w.support : K) * (1 / 2)))
      (fun q hq r hr => (hsent q hq).2 r hr) (fun q hq i hi j hj => ?_) (fun q hq i hi j hj => ?_)
    · rw [hsj j hj]; exact hcov
    · rw [hsj j hj, hsmj q j hj, sub_self, abs_zero, mul_zero, add_zero]
      have := hv0 q hq
      have : 0 ≤ vmax q * ds * (1 / 2) := by positivity
      linarith
  have hy : ∀ r < m.nrank, ∀ p ∈ (x r).map (follow m st w gv (ds * sign / 2)), p.length = m.nmesh.length := by
    intro r hr p hp
    obtain ⟨p', hp', rfl⟩ := List.mem_map.1 hp
    rw [follow_length]; exact hx r hr p' hp'
  have hC2 : Covered m w none (fun r => (x r).map (follow m st w gv (ds * sign / 2))) (fun _ => (.none : Quant K)) L := by
    refine covered_of_near hm hw none ho hx hy (fun r _ => by simp) (sm := fun q => licSmoothing m w (vmax q) ds)
      (s := fun _ _ => List.replicate m.nmesh.length ((w.support : K) * (1 / 2)))
      (fun q hq r hr => (hsent q hq).2 r hr) (fun q hq i hi j hj => ?_) (fun q hq i hi j hj => ?_)
    · rw [hsj j hj]; exact hcov
    · have hxl := hx q hq _ (List.getElem_mem hi)
      have e1 : ((x q).map (follow m st w gv (ds * sign / 2))).getD i [] = follow m st w gv (ds * sign / 2) (x q)[i] := by
        rw [List.getD_eq_getElem (hn := by simpa using hi), List.getElem_map]
      have e2 : (x q).getD i [] = (x q)[i] := List.getD_eq_getElem _ _ hi
      rw [hsj j hj, hsmj q j hj, e1, e2, follow_getD _ _ _ _ _ _ (by rw [hxl]; exact hj), add_sub_cancel_left, abs_mul, abs_div, abs_mul, hsign, mul_one,
        abs_of_nonneg hds, abs_of_pos (show (0 : K) < 2 by norm_num)]
      have hb := hbd q hq _ (List.getElem_mem hi) j hj
      have : m.scale.getD j 0 * (|velocityAt m st w gv (x q)[i] j| * (ds / 2)) ≤ vmax q * (ds / 2) := by
        rw [← mul_assoc]
        exact mul_le_mul_of_nonneg_right hb (by positivity)
      linarith
  unfold licStep
  dsimp only
  refine AllReturn.andThen hdec ?_
  -- the vectors
  have hq : QuantOK m.nrank (fun r => (x r).length) (fun _ => (.none : Quant K)) := Or.inl fun _ _ => rfl
  have hloop : AllReturn m.nrank (fun r => forProg (fun v cols =>
      (pmReadout m w none r (some (L r)) (x r) .none v).andThen fun vals =>
        if cols.length < m.nmesh.length then .ret (.ok (cols ++ [vals.map (· * ds)])) else .ret (.error .value)) (vectors r) [])
      (fun r => .ok (licCols m st w gv ds (x r) gv.length)) := by
    have h := AllReturn.forProg_range (n := m.nrank) (body := fun r d cols =>
      (pmReadout m w none r (some (L r)) (x r) .none ((vectors r).getD d fun _ => 0)).andThen fun vals =>
        if cols.length < m.nmesh.length then .ret (.ok (cols ++ [vals.map (· * ds)])) else .ret (.error .value))
      (fun k r => licCols m st w gv ds (x r) k) gv.length (by
        intro d hd
        obtain ⟨res, h1, h2⟩ := readout_of_covered hm hw none hx hq hL hlen hnd hC1 st (fun r => (vectors r).getD d fun _ => 0)
          (gv.getD d fun _ => 0) (fun r hr => (hvec r hr).2 d hd)
        refine AllReturn.andThen h1 ?_
        refine AllReturn.congr (fun r hr => ?_) (fun r hr => rfl) (AllReturn.ret m.nrank _)
        have hres := h2 r hr
        rw [readout_samples hm st hw _ (hx r hr)] at hres
        rw [if_pos (by simp [licCols]; omega), ← Option.some.inj hres]
        congr 2
        unfold licCols
        rw [List.range_succ, List.map_append, List.map_singleton]
        congr 2
        rw [List.map_map]
        apply List.map_congr_left
        intro p _
        simp only [Function.comp, velocityAt]
        rw [List.getElem?_eq_getElem hd, List.getD_eq_getElem _ _ hd])
    refine AllReturn.congr (fun r hr => ?_) (fun r hr => rfl) h
    have e : vectors r = (List.range gv.length).map fun d => (vectors r).getD d fun _ => 0 := by
      apply List.ext_getElem
      · simp [(hvec r hr).1]
      · intro d h1 h2
        simp [List.getD_eq_getElem?_getD, h1]
    conv_lhs => rw [e, forProg_map]
    rfl
  refine AllReturn.andThen hloop ?_
  -- the texture
  obtain ⟨res, h1, h2⟩ := readout_of_covered hm hw none hy
    (Or.inl fun _ _ => rfl : QuantOK m.nrank (fun r => ((x r).map (follow m st w gv (ds * sign / 2))).length) (fun _ => (.none : Quant K)))
    hL (fun q hq => by rw [hlen q hq]; simp) hnd hC2 st texture gt htex
  refine AllReturn.andThen (AllReturn.congr (fun r hr => by rw [licMove_half]) (fun r hr => rfl) h1) ?_
  refine AllReturn.congr (fun r hr => ?_) (fun r hr => rfl) (AllReturn.ret m.nrank _)
  have hres := h2 r hr
  rw [readout_samples hm st hw _ (hy r hr)] at hres
  rw [licMove_full, ← Option.some.inj hres]

/-! ### the maximum -/

theorem foldl_max_spec (l : List K) : ∀ a : K, (l.foldl max a = a ∨ l.foldl max a ∈ l) ∧ a ≤ l.foldl max a ∧ ∀ b ∈ l, b ≤ l.foldl max a := by
  induction l with
  | nil => intro a; simp
  | cons c l ih =>
    intro a
    obtain ⟨h1, h2, h3⟩ := ih (max a c)
    simp only [List.foldl_cons]
    refine ⟨?_, le_trans (le_max_left _ _) h2, ?_⟩
    · rcases h1 with h1 | h1
      · rw [h1]
        rcases max_choice a c with h | h
        · left; exact h
        · right; rw [h]; simp
      · right; exact List.mem_cons_of_mem _ h1
    · intro b hb
      rcases List.mem_cons.1 hb with rfl | hb
      · exact le_trans (le_max_right _ _) h2
      · exact h3 b hb

theorem maxOf_spec {l : List K} {a : K} (h : maxOf l = some a) : a ∈ l ∧ ∀ b ∈ l, b ≤ a := by
  cases l with
  | nil => simp [maxOf] at h
  | cons c l =>
    simp only [maxOf, Option.some.injEq] at h
    obtain ⟨h1, h2, h3⟩ := foldl_max_spec l c
    rw [h] at h1 h2 h3
    refine ⟨?_, ?_⟩
    · rcases h1 with rfl | h1
      · simp
      · exact List.mem_cons_of_mem _ h1
    · intro b hb
      rcases List.mem_cons.1 hb with rfl | hb
      · exact h2
      · exact h3 b hb

theorem maxOf_isSome {l : List K} (h : l ≠ []) : ∃ a, maxOf l = some a := by
  cases l with
  | nil => exact absurd rfl h
  | cons a l => exact ⟨_, rfl⟩

theorem maxOf_eq {l : List K} {a : K} (ha : a ∈ l) (h : ∀ b ∈ l, b ≤ a) : maxOf l = some a := by
  obtain ⟨b, hb⟩ := maxOf_isSome (List.ne_nil_of_mem ha)
  obtain ⟨h1, h2⟩ := maxOf_spec hb
  rw [hb, le_antisymm (h b h1) (h2 a ha)]

/-- The absolute values of the local elements of a field. -/
def absLocal (m : PMesh K) (r : ℕ) (v : ℤ → K) : List K := (ndindex (m.localShape r)).map fun c => |v (m.addr r c)|

theorem licVmax_eq {m : PMesh K} {r : ℕ} {vectors : List (ℤ → K)} {V : K} (hV : ∀ v ∈ vectors, ∀ c, ValidIndex (m.localShape r) c →
    |v (m.addr r c)| ≤ V) (hat : ∃ v ∈ vectors, ∃ c, ValidIndex (m.localShape r) c ∧ |v (m.addr r c)| = V) :
    licVmax m r vectors = some V := by
  obtain ⟨v0, hv0, c0, hc0, he⟩ := hat
  have hne : ∀ v, absLocal m r v ≠ [] := by
    intro v h
    have : |v (m.addr r c0)| ∈ absLocal m r v := List.mem_map.2 ⟨c0, mem_ndindex.2 hc0, rfl⟩
    rw [h] at this
    simp at this
  choose M hM using fun v => maxOf_isSome (hne v)
  have hmap : vectors.mapM (fun v => maxOf (absLocal m r v)) = some (vectors.map M) := by
    clear hV hv0
    induction vectors with
    | nil => rfl
    | cons v vs ih => rw [List.mapM_cons, hM v, ih]; rfl
  have : licVmax m r vectors = maxOf (vectors.map M) := by
    unfold licVmax
    change ((vectors.mapM fun v => maxOf (absLocal m r v)) >>= fun ms => maxOf ms) = _
    rw [hmap]
    rfl
  rw [this]
  have hle : ∀ v ∈ vectors, M v ≤ V := by
    intro v hv
    obtain ⟨h1, _⟩ := maxOf_spec (hM v)
    obtain ⟨c, hc, hc'⟩ := List.mem_map.1 h1
    rw [← hc']
    exact hV v hv c (mem_ndindex.1 hc)
  apply maxOf_eq
  · refine List.mem_map.2 ⟨v0, hv0, le_antisymm (hle v0 hv0) ?_⟩
    rw [← he]
    exact (maxOf_spec (hM v0)).2 _ (List.mem_map.2 ⟨c0, mem_ndindex.2 hc0, rfl⟩)
  · intro b hb
    obtain ⟨v, hv, rfl⟩ := List.mem_map.1 hb
    exact hle v hv

/-! ### the integral -/

theorem cellPosition_length (m : PMesh K) (c : List ℕ) : (cellPosition m c).length = m.nmesh.length := by simp [cellPosition]

theorem cellPosition_getD (m : PMesh K) (c : List ℕ) {j : ℕ} (hj : j < m.nmesh.length) :
    (cellPosition m c).getD j 0 = (c.getD j 0 : K) * (m.box.getD j 0 / (m.nmesh.getD j 0 : ℕ)) := by
  rw [List.getD_eq_getElem (hn := by rw [cellPosition_length]; exact hj)]
  simp [cellPosition]

theorem uniformGrid_zero {m : PMesh K} (hm : m.OK) {r : ℕ} (hr : r < m.nrank) :
    m.uniformGrid (List.replicate m.nmesh.length 0) r = (ndindex (m.localShape r)).map fun c => cellPosition m (m.global r c) := by
  unfold PMesh.uniformGrid
  rw [meshCoordinates_eq, List.map_map]
  apply List.map_congr_left
  intro c hc
  have hgl := (hm.global_valid hr (mem_ndindex.1 hc)).len
  have hbl := hm.box_len
  apply List.ext_getElem
  · simp [cellPosition, hgl, hbl]
  · intro j h1 h2
    have hj : j < m.nmesh.length := by simpa [cellPosition] using h2
    simp only [Function.comp, List.getElem_zipWith, List.getElem_replicate, add_zero, cellPosition, List.getElem_map, List.getElem_range]
    rw [List.getD_eq_getElem _ _ (by omega), List.getD_eq_getElem _ _ (by omega), List.getD_eq_getElem _ _ hj]

theorem atGrid_cells {m : PMesh K} (hm : m.OK) : m.AtGrid fun r c => cellPosition m (m.global r c) := by
  intro r hr c hc
  refine ⟨cellPosition_length _ _, fun j hj => ?_⟩
  have h1 : m.box.getD j 0 ≠ 0 := by
    rw [List.getD_eq_getElem _ _ (by rw [hm.box_len]; exact hj)]
    exact (hm.box_pos _ (List.getElem_mem _)).ne'
  have h2 : ((m.nmesh.getD j 0 : ℕ) : K) ≠ 0 := by
    have := hm.nmesh_pos hj
    exact_mod_cast this.ne'
  rw [scale_getD hm hj, cellPosition_getD _ _ hj]
  field_simp

theorem zipWith_map_same {α β γ δ : Type*} (l : List α) (f : β → γ → δ) (a : α → β) (b : α → γ) :
    List.zipWith f (l.map a) (l.map b) = l.map fun x => f (a x) (b x) := by
  rw [List.zipWith_map_left, List.zipWith_map_right, List.zipWith_self]

/-- All that `lic` does before the last `paint`. -/
theorem licIntegral_return {m : PMesh K} (hm : m.OK) (hp : m.PlainRanks) {w : Resampler K} (hw : w.Valid)
    (hcov : w.Covers ((w.support : K) * (1 / 2)) 1) {st : List ℤ} {gv : List (ℤ → K)} {vectors : ℕ → List (ℤ → K)}
    (hvec : VectorsOf m st gv vectors) (hdim : gv.length ≤ m.nmesh.length) {texture : ℕ → ℤ → K} {gt : ℤ → K}
    (htex : ∀ r < m.nrank, m.PieceOf st gt (texture r) r) (kernel : K → K) (length : K) {ds : K} (hds : 0 ≤ ds) {vmax : ℕ → K}
    (hvm : ∀ r < m.nrank, licVmax m r (vectors r) = some (vmax r))
    (hv0 : ∀ r < m.nrank, 0 ≤ vmax r) (hh : ∀ r < m.nrank, m.HaloFits (licSmoothing m w (vmax r) ds))
    (hbd : ∀ r < m.nrank, ∀ p : List K, p.length = m.nmesh.length → ∀ d < m.nmesh.length,
      m.scale.getD d 0 * |velocityAt m st w gv p d| ≤ vmax r) :
    AllReturn m.nrank (fun r => licIntegral m w (vectors r) (texture r) kernel length ds r)
      (fun r => .ok ((ndindex (m.localShape r)).map fun c =>
        lineIntegral m st w gv gt kernel length ds (licSteps length ds) (m.global r c))) := by
  set cells : ℕ → List (List ℕ) := fun r => ndindex (m.localShape r) with hcells
  set pos : ℕ → List ℕ → List K := fun r c => cellPosition m (m.global r c) with hpos
  have hread := readout_own nearest_isNearest hm (atGrid_cells hm) texture
  -- one direction
  have hdir : ∀ sign : K, |sign| = 1 → ∀ F : ℕ → List ℕ → K,
      AllReturn m.nrank (fun r => forProg (licStep m w (vectors r) (texture r) kernel length ds (vmax r) sign r)
        (List.range (licSteps length ds)) ((cells r).map (pos r), (cells r).map (F r)))
        (fun r => .ok ((cells r).map fun c => streamline m st w gv (ds * sign) (pos r c) (licSteps length ds),
          (cells r).map fun c => F r c + lineSum m st w gv gt kernel length ds sign (pos r c) (licSteps length ds))) := by
    intro sign hsign F
    have h := AllReturn.forProg_range (n := m.nrank)
      (body := fun r i s => licStep m w (vectors r) (texture r) kernel length ds (vmax r) sign r i s)
      (fun k r => ((cells r).map fun c => streamline m st w gv (ds * sign) (pos r c) k,
          (cells r).map fun c => F r c + lineSum m st w gv gt kernel length ds sign (pos r c) k)) (licSteps length ds) (by
        intro i hi
        have hlen : ∀ r, ∀ p ∈ (cells r).map fun c => streamline m st w gv (ds * sign) (pos r c) i, p.length = m.nmesh.length := by
          intro r p hp
          obtain ⟨c, _, rfl⟩ := List.mem_map.1 hp
          rw [streamline_length]
          exact cellPosition_length _ _
        refine AllReturn.congr (fun r hr => rfl) (fun r hr => ?_) (licStep_return hm hp hw hcov hvec hdim htex kernel length hds hv0 hh hsign i
          (x := fun r => (cells r).map fun c => streamline m st w gv (ds * sign) (pos r c) i) (fun r hr => hlen r)
          (fun r hr p hp d hd => hbd r hr p (hlen r p hp) d hd)
          (fun r => (cells r).map fun c => F r c + lineSum m st w gv gt kernel length ds sign (pos r c) i))
        congr 2
        · rw [List.map_map]; rfl
        · rw [List.map_map, List.map_map, zipWith_map_same]
          apply List.map_congr_left
          intro c _
          unfold lineSum
          rw [List.range_succ, List.map_append, List.sum_append, List.map_singleton, List.sum_singleton]
          simp only [Function.comp]
          rw [show length * (1 / 2) = length / 2 by ring]
          ring)
    have e : ∀ r, ((cells r).map (pos r), (cells r).map (F r)) = ((cells r).map fun c => streamline m st w gv (ds * sign) (pos r c) 0,
          (cells r).map fun c => F r c + lineSum m st w gv gt kernel length ds sign (pos r c) 0) := by
      intro r
      simp [streamline, lineSum]
    simp only [e]
    exact h
  unfold licIntegral
  dsimp only
  refine AllReturn.andThen (f := fun r => (cells r).map fun c => texture r (m.addr r c))
    (AllReturn.congr (fun r hr => by rw [uniformGrid_zero hm hr]) (fun r hr => rfl) hread) ?_
  have h1 := hdir (-1) (by simp) fun r c => texture r (m.addr r c)
  have h2 := hdir 1 (by simp) fun r c => texture r (m.addr r c) + lineSum m st w gv gt kernel length ds (-1) (pos r c) (licSteps length ds)
  have hfin : AllReturn m.nrank (fun r => forProg (fun sign f =>
      (forProg (licStep m w (vectors r) (texture r) kernel length ds (vmax r) sign r)
      (List.range (licSteps length ds)) ((cells r).map (pos r), f)).andThen fun st => .ret (.ok st.2)) [-1, 1]
      ((cells r).map fun c => texture r (m.addr r c)))
      (fun r => .ok ((cells r).map fun c => texture r (m.addr r c) +
      lineSum m st w gv gt kernel length ds (-1) (pos r c) (licSteps length ds) +
      lineSum m st w gv gt kernel length ds 1 (pos r c) (licSteps length ds))) := by
    simp only [forProg]
    refine AllReturn.andThen (AllReturn.andThen h1 (AllReturn.ret m.nrank _)) ?_
    refine AllReturn.andThen (AllReturn.andThen h2 (AllReturn.ret m.nrank _)) ?_
    exact AllReturn.ret m.nrank _
  refine AllReturn.congr (fun r hr => ?_) (fun r hr => ?_) hfin
  · rw [hvm r hr, uniformGrid_zero hm hr]
  · congr 1
    apply List.map_congr_left
    intro c hc
    rw [htex r hr c (mem_ndindex.1 hc)]
    rfl

/-! ### bounds -/

/-- Interpolated values are not larger than the field. -/
theorem fieldAt_le {m : PMesh K} (hm : m.OK) (st : List ℤ) {w : Resampler K} (hw : w.Valid) {kind : Tuned} (hk : w.kern = Tuned.kern kind)
    (hsup : w.support = w.kern.native) {field : ℤ → K} {V : K}
    (hV : ∀ c, ValidIndex m.nmesh c → |field ((m.serial st).addr 0 c)| ≤ V) {x : List K} (hx : x.length = m.nmesh.length) :
    |fieldAt m st w field x| ≤ V := by
  have hSl : (m.serial st).localShape 0 = m.nmesh := serial_localShape m st 0
  have hll : ((m.serial st).localShape 0).length = (m.serial st).nmesh.length := by rw [hSl]; rfl
  have hsh := shapeOf_painter (m := m.serial st) w none 0 hll
  have hper : ∀ ax ∈ ((m.serial st).painter w none 0).axes, ax.order = 0 ∧ 0 < ax.size ∧ ax.period = ax.size := by
    intro ax hax
    obtain ⟨j, hj, rfl⟩ := List.mem_map.1 hax
    have hj : j < m.nmesh.length := List.mem_range.1 hj
    have := hm.nmesh_pos hj
    refine ⟨by simp, ?_, ?_⟩
    · show 0 < ((m.serial st).localShape 0).getD j 0
      rw [hSl]; exact this
    · show m.nmesh.getD j 0 = ((m.serial st).localShape 0).getD j 0
      rw [hSl]
  have hval : ∀ c ∈ ndindex (shapeOf ((m.serial st).painter w none 0).axes),
      |field (elemAddr ((m.serial st).painter w none 0).axes c)| ≤ V := by
    intro c hc
    have hc := mem_ndindex.1 hc
    rw [hsh] at hc
    have hcl := hc.len
    rw [elemAddr_painter (m := m.serial st) w none 0 (by rw [hcl, hll])]
    rw [hSl] at hc
    exact hV c hc
  have hs := weights_sum (painter_valid (m := m.serial st) hw hm.dim none 0) (kind := kind) hk hper (h := 1) (by
    unfold windowSize
    show (if (w.support : K) * 1 ≤ 0 then (w.kern.native : K) else w.support * 1) = w.kern.native
    rw [hsup]
    split <;> simp) (x := x) (by rw [painter_len]; exact hx)
  have hn : ∀ c ∈ ndindex (shapeOf ((m.serial st).painter w none 0).axes),
      0 ≤ cwProd (List.zipWith (axisStencil ((m.serial st).painter w none 0) 1) ((m.serial st).painter w none 0).axes x) c :=
    fun c _ => weights_nonneg (kind := kind) hk (fun ax hax => (hper ax hax).1) _ _ _
  rw [fieldAt_eq hm st hw field hx, abs_le]
  constructor
  · have := le_sum_of_weights _ _ (fun c => field (elemAddr ((m.serial st).painter w none 0).axes c)) (-V) hn
      (fun c hc => (abs_le.1 (hval c hc)).1)
    rwa [hs, one_mul] at this
  · have := sum_le_of_weights _ _ (fun c => field (elemAddr ((m.serial st).painter w none 0).axes c)) V hn
      (fun c hc => (abs_le.1 (hval c hc)).2)
    rwa [hs, one_mul] at this

end
end Pmesh
