import Verif.Lemmas.FValues
import Verif.Lemmas.FPaint

/-!
# What the painter adds to a cell, with rounding
-/

set_option linter.unusedSectionVars false

namespace Pmesh

section
variable {K : Type*} [Field K] [LinearOrder K] [IsStrictOrderedRing K] [FloorRing K]

theorem addedAt_filterMap {α : Type*} (l : List α) (f : α → Option (ℤ × K)) (a : ℤ) :
    addedAt (l.filterMap f) a = (l.map fun x => match f x with | some q => if q.1 = a then q.2 else 0 | none => 0).sum := by
  unfold addedAt
  induction l with
  | nil => rfl
  | cons x l ih =>
    rw [List.filterMap_cons, List.map_cons, List.sum_cons, ← ih]
    cases f x with
    | none => simp
    | some q =>
      rw [List.filter_cons]
      by_cases h : q.1 = a <;> simp [h]

theorem addedAt_eq_sum (ws : List (ℤ × K)) (a : ℤ) : addedAt ws a = (ws.map fun q => q.2 * (if q.1 = a then 1 else 0)).sum := by
  unfold addedAt
  induction ws with
  | nil => rfl
  | cons q l ih =>
    rw [List.map_cons, List.sum_cons, ← ih, List.filter_cons]
    by_cases h : q.1 = a <;> simp [h]

/-- A rounded product, relative to a scale `s`. -/
theorem rnd_scaled {R : Rounding K} {ε : K} (hR : RelativeError R ε) (hε : 0 ≤ ε) (hε1 : ε ≤ 1 / 64) {s k M a a' : K} (hs : 0 ≤ s)
    (hk : 0 ≤ k) (h : |a - a'| ≤ s * (k * ε)) (hM : |a'| ≤ s * M) : |R.rnd a - a'| ≤ s * ((k + M + k / 64) * ε) := by
  have h1 := hR a
  have h2 : |a| ≤ s * (M + k / 64) := by
    have h3 := abs_sub_abs_le_abs_sub a a'
    have h4 : s * (k * ε) ≤ s * (k * (1 / 64)) := mul_le_mul_of_nonneg_left (mul_le_mul_of_nonneg_left hε1 hk) hs
    linarith
  have h3 : |a| * ε ≤ s * (M + k / 64) * ε := mul_le_mul_of_nonneg_right h2 hε
  have := abs_sub_le (R.rnd a) a a'
  calc |R.rnd a - a'| ≤ s * (M + k / 64) * ε + s * (k * ε) := by linarith
    _ = _ := by ring

theorem mul_scaled {ε : K} (hε : 0 ≤ ε) (hε1 : ε ≤ 1 / 64) {s k M a a' l L b b' : K} (hs : 0 ≤ s) (hk : 0 ≤ k)
    (h : |a - a'| ≤ s * (k * ε)) (hM : |a'| ≤ s * M) (g : Near ε l L b b') :
    |a * b - a' * b'| ≤ s * ((k * L + l * M + k * l / 64) * ε) ∧ |a' * b'| ≤ s * (M * L) := by
  have hL := g.pos
  have hl := g.nonneg
  have hsM : 0 ≤ s * M := (abs_nonneg _).trans hM
  constructor
  · have e : a * b - a' * b' = (a - a') * b' + (b - b') * a' + (a - a') * (b - b') := by ring
    rw [e]
    have t1 : |(a - a') * b'| ≤ s * (k * ε) * L := by rw [abs_mul]; exact mul_le_mul h g.size (abs_nonneg _) (by positivity)
    have t2 : |(b - b') * a'| ≤ l * ε * (s * M) := by rw [abs_mul]; exact mul_le_mul g.err hM (abs_nonneg _) (by positivity)
    have t3 : |(a - a') * (b - b')| ≤ s * (k * ε) * (l * (1 / 64)) := by
      rw [abs_mul]
      exact mul_le_mul h (g.err.trans (mul_le_mul_of_nonneg_left hε1 hl)) (abs_nonneg _) (by positivity)
    have := abs_add_le ((a - a') * b' + (b - b') * a') ((a - a') * (b - b'))
    have := abs_add_le ((a - a') * b') ((b - b') * a')
    calc _ ≤ s * (k * ε) * L + l * ε * (s * M) + s * (k * ε) * (l * (1 / 64)) := by linarith
      _ = _ := by ring
  · rw [abs_mul, ← mul_assoc]
    exact mul_le_mul hM g.size (abs_nonneg _) hsM

/-- The products of up to three values. -/
theorem prodR_near {R : Rounding K} {ε : K} (hR : RelativeError R ε) (hε : 0 ≤ ε) (hε1 : ε ≤ 1 / 64) {s a a' : K} (hs : 0 ≤ s)
    (h : |a - a'| ≤ s * (26 * ε)) (hM : |a'| ≤ s * (5 / 4)) {l l' : List K} (hl : l.length ≤ 2) (hn : List.Forall₂ (Near ε 24 (5 / 4)) l l') :
    |prodR R (a :: l) - (a' :: l').prod| ≤ s * (168 * ε) := by
  have mono : ∀ {k k' : K}, k ≤ k' → s * (k * ε) ≤ s * (k' * ε) := fun hk =>
    mul_le_mul_of_nonneg_left (mul_le_mul_of_nonneg_right hk hε) hs
  cases hn with
  | nil =>
    simp only [prodR, List.foldl_nil, List.prod_cons, List.prod_nil, mul_one]
    exact h.trans (mono (by norm_num))
  | cons h1 hn =>
    rename_i b b' l l'
    obtain ⟨m1, m2⟩ := mul_scaled hε hε1 hs (by norm_num) h hM h1
    have r1 := (rnd_scaled hR hε hε1 hs (by norm_num) m1 m2).trans (mono (k' := 76) (by norm_num))
    cases hn with
    | nil =>
      simp only [prodR, List.foldl_nil, List.foldl_cons, List.prod_cons, List.prod_nil, mul_one]
      exact r1.trans (mono (by norm_num))
    | cons h2 hn =>
      rename_i d d' l l'
      obtain ⟨m3, m4⟩ := mul_scaled hε hε1 hs (by norm_num) r1 m2 h2
      have r2 := (rnd_scaled hR hε hε1 hs (by norm_num) m3 m4).trans (mono (k' := 168) (by norm_num))
      cases hn with
      | nil =>
        have e : [a', b', d'].prod = a' * b' * d' := by simp [mul_assoc]
        rw [e]
        simp only [prodR, List.foldl_nil, List.foldl_cons]
        exact r2
      | cons h3 hn => simp at hl

/-- The stencil of one axis with the cells of the code, and the values that the window has there. -/
def pieceStencil (R : Rounding K) (t : Tuned) (ax : PAxis K) (x : K) : List (ℤ × K) :=
  (pieces t).map fun q => (tunedWrap ax.period (pieceBaseR R t (ax.gridR R x) + q.1), q.2 (ax.gridR R x - pieceBaseR R t (ax.gridR R x)))

theorem cw_pieceStencil (R : Rounding K) (t : Tuned) (ax : PAxis K) (hN : 0 < ax.period) (x : K) (c : ℤ) :
    cw (pieceStencil R t ax x) c = pieceWeight t ax.period c (pieceBaseR R t (ax.gridR R x)) (ax.gridR R x) := by
  unfold cw pieceStencil pieceWeight
  rw [List.map_map]
  congr 1
  apply List.map_congr_left
  intro q _
  simp only [Function.comp, tunedWrap_emod hN]

/-- The numbers along the axis are small enough for the precision. -/
structure AxisSmall (R : Rounding K) (ε : K) (ax : PAxis K) (x : K) : Prop where
  order : ax.order = 0
  period : 0 < ax.period
  small : (|ax.gridR R x| + 1 / 2) * ε ≤ 1 / 4

theorem cwProd_pieces (R : Rounding K) (t : Tuned) (axes : List (PAxis K)) (pos : List K) (c : List ℕ) (hl : pos.length = axes.length)
    (hc : c.length = axes.length) :
    cwProd (List.zipWith (pieceStencil R t) axes pos) c =
      ((List.range axes.length).map fun j => cw (pieceStencil R t (axes.getD j ⟨0, 0, 0, 0, 0, 0⟩) (pos.getD j 0)) (c.getD j 0 : ℕ)).prod := by
  induction axes generalizing pos c with
  | nil =>
    obtain rfl := List.length_eq_zero_iff.1 (by simpa using hl)
    simp [cwProd]
  | cons ax axs ih =>
    match pos, c, hl, hc with
    | x :: xs, i :: is, hl, hc =>
      rw [List.length_cons, List.range_succ_eq_map, List.map_cons, List.prod_cons, List.map_map]
      simp only [List.zipWith_cons_cons, cwProd]
      rw [ih xs is (by simpa using hl) (by simpa using hc)]
      rfl

/-- What a stencil adds to an element. -/
theorem stencil_added (S : ℕ) (axes : List (PAxis K)) (hd : DistinctElems axes) (ijk : List (List ℤ)) (v : List (List K))
    (h1 : ijk.length = axes.length) (h2 : v.length = axes.length) (h3 : ∀ l ∈ ijk, l.length = S) (h4 : ∀ l ∈ v, l.length = S) (c : List ℕ)
    (hc : ValidIndex (shapeOf axes) c) :
    addedAt ((ndindex (List.replicate axes.length S)).filterMap (tunedAccess axes ijk v)) (elemAddr axes c) =
      cwProd (List.zipWith List.zip ijk v) c := by
  have e : (ndindex (List.replicate axes.length S)).filterMap (tunedAccess axes ijk v) = stencilOps axes (List.zipWith List.zip ijk v) := by
    rw [← filterMap_stencilPt S axes _ (by simp [h1, h2])]
    · apply List.filterMap_congr
      intro abc habc
      exact tunedAccess_eq S axes ijk v abc h1 h2 h3 h4 (mem_ndindex.1 habc)
    · intro l hl
      obtain ⟨j, hj, rfl⟩ := List.getElem_of_mem hl
      simp [h3 _ (List.getElem_mem _), h4 _ (List.getElem_mem _)]
  rw [e, addedAt_eq_sum, sum_stencilOps axes _ (by simp [h1, h2]) (fun z => if z = elemAddr axes c then 1 else 0),
    sum_ite_eq_of_nodup _ (ndindex_nodup _) _ _ c (mem_ndindex.mpr hc)]
  intro x hx
  constructor
  · intro h; exact hd x c (mem_ndindex.mp hx) hc h
  · rintro rfl; rfl

theorem zipWith_zip_pieces {R : Rounding K} {ε : K} (hR : RelativeError R ε) (hε : 0 ≤ ε) (hε1 : ε ≤ 1 / 64) (t : Tuned) :
    ∀ (axes : List (PAxis K)) (pos : List K), List.Forall₂ (AxisSmall R ε) axes pos →
    List.zipWith List.zip (tunedCellsR R t axes pos)
      (List.zipWith (fun (ax : PAxis K) x => (pieces t).map fun q => q.2 (ax.gridR R x - pieceBaseR R t (ax.gridR R x))) axes pos) =
      List.zipWith (pieceStencil R t) axes pos := by
  intro axes pos h
  induction h with
  | nil => rfl
  | cons h0 h ih =>
    rename_i ax x axs xs
    unfold tunedCellsR at ih ⊢
    simp only [List.zipWith_cons_cons, ih, List.cons.injEq, and_true]
    rw [(tunedSetupR_near hR hε hε1 t ax h0.order x h0.small).1, List.map_map, List.zip_map']
    rfl

/-- The entries of the values are close to the windows. -/
theorem vals_near {R : Rounding K} {ε : K} (hR : RelativeError R ε) (hε : 0 ≤ ε) (hε1 : ε ≤ 1 / 64) (t : Tuned) :
    ∀ (axes : List (PAxis K)) (pos : List K), List.Forall₂ (AxisSmall R ε) axes pos → ∀ abc : List ℕ,
      ValidIndex (List.replicate axes.length (Tuned.kern t : Kern K).native) abc →
    List.Forall₂ (Near ε 24 (5 / 4)) (List.zipWith (fun (l : List K) a => l.getD a 0) (tunedValsR R t axes pos) abc)
      (List.zipWith (fun (l : List K) a => l.getD a 0)
        (List.zipWith (fun (ax : PAxis K) x => (pieces t).map fun q => q.2 (ax.gridR R x - pieceBaseR R t (ax.gridR R x))) axes pos) abc) := by
  intro axes pos h
  induction h with
  | nil => intro abc _; exact .nil
  | cons h0 h ih =>
    rename_i ax x axs xs
    intro abc habc
    rw [List.length_cons, List.replicate_succ] at habc
    cases habc with
    | cons ha hab =>
      rename_i a as
      unfold tunedValsR at ih ⊢
      simp only [List.zipWith_cons_cons]
      refine .cons ?_ (ih as hab)
      have hv := (tunedSetupR_near hR hε hε1 t ax h0.order x h0.small).2
      have hlen := hv.length_eq
      rw [pieces_length] at hlen
      have := hv.get (i := a) (by omega) (by rw [pieces_length]; exact ha)
      rw [List.getD_eq_getElem _ _ (by omega), List.getD_eq_getElem _ _ (by simpa [pieces_length] using ha), List.getElem_map]
      simpa using this

theorem cellsR_len {R : Rounding K} {ε : K} (hR : RelativeError R ε) (hε : 0 ≤ ε) (hε1 : ε ≤ 1 / 64) (t : Tuned) :
    ∀ (axes : List (PAxis K)) (pos : List K), List.Forall₂ (AxisSmall R ε) axes pos →
      ∀ l ∈ tunedCellsR R t axes pos, l.length = (Tuned.kern t : Kern K).native := by
  intro axes pos h
  induction h with
  | nil => intro l hl; simp [tunedCellsR] at hl
  | cons h0 h ih =>
    rename_i ax x axs xs
    intro l hl
    unfold tunedCellsR at ih hl
    rw [List.zipWith_cons_cons, List.mem_cons] at hl
    rcases hl with rfl | hl
    · rw [(tunedSetupR_near hR hε hε1 t ax h0.order x h0.small).1]
      simp [pieces_length]
    · exact ih l hl

theorem native_le (t : Tuned) : (Tuned.kern t : Kern K).native ≤ 4 := by
  cases t <;> norm_num [Tuned.kern, nearestK, linearK, quadraticK, cubicK]

/-- The contribution of a particle to a cell: with the values `v` of the code, whose products are close to those of the windows. -/
theorem access_near {R : Rounding K} {ε : K} (hR : RelativeError R ε) (hε : 0 ≤ ε) (hε1 : ε ≤ 1 / 64) (t : Tuned)
    (axes : List (PAxis K)) (pos : List K) (h3 : axes.length ≤ 3) (hs : List.Forall₂ (AxisSmall R ε) axes pos) (hd : DistinctElems axes)
    (v : List (List K)) (w b : K) (hb : 0 ≤ b)
    (hv : ∀ abc, ValidIndex (List.replicate axes.length (Tuned.kern t : Kern K).native) abc →
      |prodR R (List.zipWith (fun (l : List K) a => l.getD a 0) v abc) - w * (List.zipWith (fun (l : List K) a => l.getD a 0)
        (List.zipWith (fun (ax : PAxis K) x => (pieces t).map fun q => q.2 (ax.gridR R x - pieceBaseR R t (ax.gridR R x))) axes pos) abc).prod| ≤ b)
    (c : List ℕ) (hc : ValidIndex (shapeOf axes) c) :
    |addedAt ((ndindex (List.replicate axes.length (Tuned.kern t : Kern K).native)).filterMap
        (tunedAccessR R axes (tunedCellsR R t axes pos) v)) (elemAddr axes c) -
      w * cwProd (List.zipWith (pieceStencil R t) axes pos) c| ≤ 64 * b := by
  have hl := hs.length_eq
  rw [← zipWith_zip_pieces hR hε hε1 t axes pos hs, ← stencil_added (Tuned.kern t : Kern K).native axes hd _ _ (by simp [tunedCellsR, hl])
    (by simp [hl]) (cellsR_len hR hε hε1 t axes pos hs) (by
      intro l hl
      obtain ⟨j, hj, rfl⟩ := List.getElem_of_mem hl
      simp [pieces_length]) c hc, addedAt_filterMap, addedAt_filterMap, ← sum_mul_left']
  have hlen : (ndindex (List.replicate axes.length (Tuned.kern t : Kern K).native)).length ≤ 64 := by
    rw [ndindex_length, List.prod_replicate]
    calc (Tuned.kern t : Kern K).native ^ axes.length ≤ 4 ^ axes.length := Nat.pow_le_pow_left (native_le t) _
      _ ≤ 4 ^ 3 := Nat.pow_le_pow_right (by norm_num) h3
      _ = 64 := by norm_num
  have := sum_map_sub_le (ndindex (List.replicate axes.length (Tuned.kern t : Kern K).native))
    (fun x => match tunedAccessR R axes (tunedCellsR R t axes pos) v x with | some q => if q.1 = elemAddr axes c then q.2 else 0 | none => 0)
    (fun x => w * match tunedAccess axes (tunedCellsR R t axes pos) (List.zipWith (fun (ax : PAxis K) x =>
      (pieces t).map fun q => q.2 (ax.gridR R x - pieceBaseR R t (ax.gridR R x))) axes pos) x with
      | some q => if q.1 = elemAddr axes c then q.2 else 0 | none => 0) b 64 hlen hb (by
      intro abc habc
      have h := hv abc (mem_ndindex.1 habc)
      unfold tunedAccessR tunedAccess
      cases tunedAddr axes (List.zipWith (fun (l : List ℤ) a => l.getD a 0) (tunedCellsR R t axes pos) abc) with
      | none => simpa using hb
      | some a =>
        simp only [Option.map_some]
        split_ifs
        · exact h
        · simpa using hb)
  exact_mod_cast this

/-- The values that are written, before the bounds of the array are looked at. -/
theorem write_value {R : Rounding K} {ε : K} (hR : RelativeError R ε) (hε : 0 ≤ ε) (hε1 : ε ≤ 1 / 64) (t : Tuned)
    (axes : List (PAxis K)) (pos : List K) (h1 : 1 ≤ axes.length) (h3 : axes.length ≤ 3) (hs : List.Forall₂ (AxisSmall R ε) axes pos)
    (w : K) (abc : List ℕ) (habc : ValidIndex (List.replicate axes.length (Tuned.kern t : Kern K).native) abc) :
    |prodR R (List.zipWith (fun (l : List K) a => l.getD a 0) (match tunedValsR R t axes pos with
        | v0 :: vs => v0.map (fun a => R.rnd (a * w)) :: vs
        | [] => []) abc) - w * (List.zipWith (fun (l : List K) a => l.getD a 0)
        (List.zipWith (fun (ax : PAxis K) x => (pieces t).map fun q => q.2 (ax.gridR R x - pieceBaseR R t (ax.gridR R x))) axes pos) abc).prod| ≤
      |w| * (168 * ε) := by
  have hn := vals_near hR hε hε1 t axes pos hs abc habc
  match axes, pos, abc, hs, h1, h3, habc, hn with
  | ax :: axs, x :: xs, a :: as, hs, h1, h3, habc, hn =>
    unfold tunedValsR at hn ⊢
    simp only [List.zipWith_cons_cons] at hn ⊢
    obtain ⟨n0, n1⟩ := List.forall₂_cons.1 hn
    have ha : a < (tunedSetupR R t ax x).2.length := by
      have hv := (tunedSetupR_near hR hε hε1 t ax (by cases hs with | cons h _ => exact h.order) x
        (by cases hs with | cons h _ => exact h.small)).2.length_eq
      rw [pieces_length] at hv
      rw [List.length_cons, List.replicate_succ] at habc
      cases habc with
      | cons h _ => omega
    rw [List.getD_eq_getElem _ _ (by simpa using ha), List.getElem_map, List.prod_cons, ← mul_assoc, ← List.prod_cons]
    rw [List.getD_eq_getElem _ _ ha] at n0
    set v0 := (tunedSetupR R t ax x).2[a] with hv0
    generalize (List.map (fun q => q.2 (ax.gridR R x - pieceBaseR R t (ax.gridR R x))) (pieces t)).getD a 0 = e0 at n0 ⊢
    have k1 : |v0 * w - w * e0| ≤ |w| * (24 * ε) := by
      have := mul_le_mul_of_nonneg_left n0.err (abs_nonneg w)
      rw [← abs_mul, mul_sub, mul_comm w v0] at this
      exact this
    have k2 : |w * e0| ≤ |w| * (5 / 4) := by
      have := mul_le_mul_of_nonneg_left n0.size (abs_nonneg w)
      rw [← abs_mul] at this
      exact this
    have k3 := rnd_scaled hR hε hε1 (abs_nonneg w) (by norm_num) k1 k2
    refine prodR_near hR hε hε1 (abs_nonneg w) (k3.trans ?_) k2 ?_ n1
    · exact mul_le_mul_of_nonneg_left (mul_le_mul_of_nonneg_right (by norm_num) hε) (abs_nonneg w)
    · simp only [List.length_cons] at h3
      simp only [List.length_zipWith]
      omega

theorem writes_near {R : Rounding K} {ε : K} (hR : RelativeError R ε) (hε : 0 ≤ ε) (hε1 : ε ≤ 1 / 64) (t : Tuned)
    (axes : List (PAxis K)) (pos : List K) (h1 : 1 ≤ axes.length) (h3 : axes.length ≤ 3) (hs : List.Forall₂ (AxisSmall R ε) axes pos)
    (hd : DistinctElems axes) (w : K) (c : List ℕ) (hc : ValidIndex (shapeOf axes) c) :
    |addedAt (tunedWritesR R t axes pos w) (elemAddr axes c) - w * cwProd (List.zipWith (pieceStencil R t) axes pos) c| ≤
      64 * (|w| * (168 * ε)) := by
  have hl := hs.length_eq
  unfold tunedWritesR
  rw [paintTable_eq t _ (by omega), native_rat (K := K)]
  apply access_near hR hε hε1 t axes pos h3 hs hd _ w _ (by positivity) _ c hc
  intro abc habc
  exact write_value hR hε hε1 t axes pos h1 h3 hs w abc habc

theorem reads_near {R : Rounding K} {ε : K} (hR : RelativeError R ε) (hε : 0 ≤ ε) (hε1 : ε ≤ 1 / 64) (t : Tuned)
    (axes : List (PAxis K)) (pos : List K) (h1 : 1 ≤ axes.length) (h3 : axes.length ≤ 3) (hs : List.Forall₂ (AxisSmall R ε) axes pos)
    (hd : DistinctElems axes) (c : List ℕ) (hc : ValidIndex (shapeOf axes) c) :
    |addedAt (tunedReadsR R t axes pos) (elemAddr axes c) - cwProd (List.zipWith (pieceStencil R t) axes pos) c| ≤ 64 * (168 * ε) := by
  have hl := hs.length_eq
  unfold tunedReadsR
  rw [readTable_eq t _ (by omega), native_rat (K := K)]
  have := access_near hR hε hε1 t axes pos h3 hs hd (tunedValsR R t axes pos) 1 (168 * ε) (by positivity) (by
    intro abc habc
    have hn := vals_near hR hε hε1 t axes pos hs abc habc
    match axes, pos, abc, hs, h1, h3, habc, hn with
    | ax :: axs, x :: xs, a :: as, hs, h1, h3, habc, hn =>
      unfold tunedValsR at hn ⊢
      simp only [List.zipWith_cons_cons] at hn ⊢
      obtain ⟨n0, n1⟩ := List.forall₂_cons.1 hn
      have := prodR_near hR hε hε1 (zero_le_one (α := K)) (by
        rw [one_mul]
        exact n0.err.trans (mul_le_mul_of_nonneg_right (by norm_num) hε)) (by rw [one_mul]; exact n0.size) (by
          simp only [List.length_cons] at h3
          simp only [List.length_zipWith]
          omega) n1
      rw [one_mul] at this ⊢
      exact this) c hc
  rwa [one_mul] at this

end
end Pmesh
