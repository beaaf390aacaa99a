import Verif.Spec.Spectral
import Verif.Lemmas.Translate
import Verif.Props.NoiseLow
import Verif.Props.Apply
import Mathlib.Analysis.SpecialFunctions.ExpDeriv
import Mathlib.Analysis.Complex.RealDeriv
import Mathlib.Tactic.LinearCombination
import Mathlib.Tactic.FieldSimp

/-! # Plane waves on the mesh -/

namespace Pmesh
open Complex

/-- The mesh index of the mode with `m` periods. -/
def waveCell (nmesh : List ℕ) (m : List ℤ) : List ℕ := movedCell nmesh m (nmesh.map fun _ => 0)

theorem zeros_valid {nmesh : List ℕ} (hpos : ∀ n ∈ nmesh, 0 < n) : ValidIndex nmesh (nmesh.map fun _ => 0) := by
  induction nmesh with
  | nil => exact List.Forall₂.nil
  | cons n ns ih => exact List.Forall₂.cons (hpos n (by simp)) (ih fun k hk => hpos k (by simp [hk]))

theorem waveCell_valid {nmesh : List ℕ} (hpos : ∀ n ∈ nmesh, 0 < n) {m : List ℤ} (hm : m.length = nmesh.length) :
    ValidIndex nmesh (waveCell nmesh m) := movedCell_valid hm (zeros_valid hpos)

theorem wave_phase {nmesh : List ℕ} (hpos : ∀ n ∈ nmesh, 0 < n) {box : List ℝ} (hb : ∀ L ∈ box, 0 < L)
    (hl : box.length = nmesh.length) {m : List ℤ} (hm : m.length = nmesh.length) {g : List ℕ} (hg : ValidIndex nmesh g) :
    exp (I * dotL (waveOf box m) (pointPos nmesh box g)) = phase nmesh g (waveCell nmesh m) := by
  rw [waveCell, phase_moved hm (zeros_valid hpos), phase_zero, mul_one]
  congr 1
  have h : dotL (waveOf box m) (pointPos nmesh box g) = 2 * Real.pi * shiftArg nmesh g m := by
    clear hpos
    induction hg generalizing box m with
    | nil => simp [shiftArg, pointPos, dotL]
    | @cons n a ns as ha _ ih =>
      match box, m, hl, hm with
      | L :: Ls, z :: zs, hl, hm =>
        have h1 := ih (box := Ls) (m := zs) (fun L' h => hb L' (by simp [h])) (by simpa using hl) (by simpa using hm)
        unfold dotL waveOf at h1 ⊢
        rw [List.zipWith_cons_cons, pointPos, List.zipWith_cons_cons, List.sum_cons, h1, shiftArg]
        have hL : L ≠ 0 := (hb L (by simp)).ne'
        have hn : (n : ℝ) ≠ 0 := by exact_mod_cast (by omega : n ≠ 0)
        field_simp
  rw [h]
  push_cast
  ring

theorem waveCell_neg {nmesh : List ℕ} (hpos : ∀ n ∈ nmesh, 0 < n) {m : List ℤ} (hm : m.length = nmesh.length) :
    waveCell nmesh (m.map fun z => -z) = opposite nmesh (waveCell nmesh m) := by
  unfold waveCell opposite
  induction nmesh generalizing m with
  | nil => simp [movedCell]
  | cons n ns ih =>
    match m, hm with
    | z :: zs, hm =>
      rw [List.map_cons, List.map_cons, movedCell, movedCell, List.zipWith_cons_cons,
        ih (fun k hk => hpos k (by simp [hk])) (by simpa using hm)]
      congr 1
      have hn : 0 < n := hpos n (by simp)
      have h1 := Int.emod_nonneg z (show (n : ℤ) ≠ 0 by omega)
      have h2 := Int.emod_lt_of_pos z (show (0 : ℤ) < n by omega)
      have h3 := Int.emod_nonneg (-z) (show (n : ℤ) ≠ 0 by omega)
      zify
      rw [Int.toNat_of_nonneg (by simpa using h3), Nat.cast_sub (by zify; rw [Int.toNat_of_nonneg (by simpa using h1)]; simpa using h2.le),
        Int.toNat_of_nonneg (by simpa using h1)]
      simp only [zero_add]
      rw [Int.sub_emod, Int.emod_emod, ← Int.sub_emod, sub_eq_add_neg, Int.add_emod, Int.emod_self, zero_add, Int.emod_emod]

/-- The wavevector that the code computes for the mode with mesh index `k`. -/
noncomputable def codeWave (nmesh : List ℕ) (box : List ℝ) (k : List ℕ) : List ℝ :=
  waveOf box (List.zipWith (fun (n i : ℕ) => wrapIndex n (i : ℤ)) nmesh k)

theorem wrap_waveCell {nmesh : List ℕ} {m : List ℤ} (hm : BelowNyquist nmesh m) :
    List.zipWith (fun (n i : ℕ) => wrapIndex n (i : ℤ)) nmesh (waveCell nmesh m) = m := by
  unfold waveCell
  induction hm with
  | nil => simp
  | @cons n z ns zs h _ ih =>
    rw [List.map_cons, movedCell, List.zipWith_cons_cons, ih]
    congr 1
    rw [abs_lt] at h
    have hn : (n : ℤ) / 2 * 2 ≤ n := Int.ediv_mul_le _ (by omega)
    push_cast at h
    unfold wrapIndex
    push_cast
    rcases lt_or_ge z 0 with hz | hz
    · have : z % (n : ℤ) = z + n := by
        rw [← Int.add_emod_right, Int.emod_eq_of_lt (by omega) (by omega)]
      rw [zero_add, this, Int.toNat_of_nonneg (by omega), if_pos (by omega)]
      omega
    · rw [zero_add, Int.emod_eq_of_lt hz (by omega), Int.toNat_of_nonneg hz, if_neg (by omega)]

/-- The transform of one wave. -/
theorem r2c_wave {nmesh : List ℕ} (hpos : ∀ n ∈ nmesh, 0 < n) (A : ℂ) {M k : List ℕ} (hM : ValidIndex nmesh M)
    (hk : ValidIndex nmesh k) :
    r2c nmesh (fun x => (A * phase nmesh x M).re) k =
      ((if M = k then A else 0) + if opposite nmesh M = k then (starRingEnd ℂ) A else 0) / 2 := by
  unfold r2c
  rw [dftForward_eq]
  have hMo : ValidIndex nmesh (opposite nmesh M) := opposite_valid hM
  have h1 : ∀ x ∈ ndindex nmesh, (((A * phase nmesh x M).re : ℝ) : ℂ) * (starRingEnd ℂ) (phase nmesh k x) =
      A / 2 * (phase nmesh x M * (starRingEnd ℂ) (phase nmesh x k)) +
        (starRingEnd ℂ) A / 2 * (phase nmesh x (opposite nmesh M) * (starRingEnd ℂ) (phase nmesh x k)) := by
    intro x hx
    rw [phase_comm nmesh k x, phase_comm nmesh x (opposite nmesh M), phase_opposite hM, phase_comm nmesh M x,
      Complex.re_eq_add_conj, map_mul]
    ring
  rw [List.map_congr_left h1, List.sum_map_add, sum_cmul, sum_cmul, orth hM hk, orth hMo hk]
  rw [prod_inv]
  have hp : ((nmesh.prod : ℕ) : ℂ) * ((((nmesh.prod : ℕ) : ℝ)⁻¹ : ℝ) : ℂ) = 1 := by
    rw [Complex.ofReal_inv, Complex.ofReal_natCast]
    exact mul_inv_cancel₀ (by exact_mod_cast prod_ne hpos)
  split_ifs
  · linear_combination (A / 2 + (starRingEnd ℂ) A / 2) * hp
  · linear_combination (A / 2) * hp
  · linear_combination ((starRingEnd ℂ) A / 2) * hp
  · ring

theorem r2c_sum {α : Type} (nmesh : List ℕ) (l : List α) (f : α → List ℕ → ℝ) (k : List ℕ) :
    r2c nmesh (fun x => (l.map fun a => f a x).sum) k = (l.map fun a => r2c nmesh (f a) k).sum := by
  induction l with
  | nil => simp [r2c, dftForward]
  | cons a l ih =>
    rw [List.map_cons, List.sum_cons, ← ih]
    unfold r2c dftForward
    rw [← add_mul, ← List.sum_map_add]
    congr 2
    apply List.map_congr_left
    intro x _
    beta_reduce
    rw [List.map_cons, List.sum_cons]
    push_cast
    ring

theorem r2c_congr {nmesh : List ℕ} {f f' : List ℕ → ℝ} (h : ∀ g, ValidIndex nmesh g → f g = f' g) (k : List ℕ) :
    r2c nmesh f k = r2c nmesh f' k := by
  unfold r2c dftForward
  congr 2
  apply List.map_congr_left
  intro x hx
  beta_reduce
  rw [h x (mem_ndindex.1 hx)]

theorem r2c_planeWaves {nmesh : List ℕ} (hpos : ∀ n ∈ nmesh, 0 < n) {box : List ℝ} (hb : ∀ L ∈ box, 0 < L)
    (hl : box.length = nmesh.length) {waves : List (List ℤ × ℂ)} (hw : ∀ p ∈ waves, p.1.length = nmesh.length) {k : List ℕ}
    (hk : ValidIndex nmesh k) :
    r2c nmesh (fun g => planeWaves box waves (pointPos nmesh box g)) k =
      (waves.map fun p => ((if waveCell nmesh p.1 = k then p.2 else 0) +
        if waveCell nmesh (p.1.map fun z => -z) = k then (starRingEnd ℂ) p.2 else 0) / 2).sum := by
  unfold planeWaves
  rw [r2c_sum]
  apply congrArg
  apply List.map_congr_left
  intro p hp
  rw [waveCell_neg hpos (hw p hp), ← r2c_wave hpos p.2 (waveCell_valid hpos (hw p hp)) hk]
  apply r2c_congr
  intro g hg
  rw [wave_phase hpos hb hl (hw p hp) hg]

/-- Multiplication by `T` at the code's wavevectors. -/
theorem r2c_filtered {nmesh : List ℕ} (hpos : ∀ n ∈ nmesh, 0 < n) {box : List ℝ} (hb : ∀ L ∈ box, 0 < L)
    (hl : box.length = nmesh.length) {waves : List (List ℤ × ℂ)} (hw : ∀ p ∈ waves, BelowNyquist nmesh p.1)
    (T : List ℝ → ℂ) (hT : ∀ p ∈ waves, T (waveOf box (p.1.map fun z => -z)) = (starRingEnd ℂ) (T (waveOf box p.1)))
    {k : List ℕ} (hk : ValidIndex nmesh k) :
    T (codeWave nmesh box k) * r2c nmesh (fun g => planeWaves box waves (pointPos nmesh box g)) k =
      r2c nmesh (fun g => planeWaves box (filtered box T waves) (pointPos nmesh box g)) k := by
  have hlen : ∀ p ∈ waves, p.1.length = nmesh.length := fun p hp => (hw p hp).length_eq.symm
  rw [r2c_planeWaves hpos hb hl hlen hk, r2c_planeWaves hpos hb hl (by
    intro p hp
    obtain ⟨q, hq, rfl⟩ := List.mem_map.1 hp
    exact hlen q hq) hk, ← sum_cmul]
  unfold filtered
  rw [List.map_map]
  apply congrArg
  apply List.map_congr_left
  intro p hp
  have h1 : waveCell nmesh p.1 = k → codeWave nmesh box k = waveOf box p.1 := by
    rintro rfl
    rw [codeWave, wrap_waveCell (hw p hp)]
  have h2 : waveCell nmesh (p.1.map fun z => -z) = k → codeWave nmesh box k = waveOf box (p.1.map fun z => -z) := by
    rintro rfl
    rw [codeWave, wrap_waveCell]
    have := hw p hp
    unfold BelowNyquist at this ⊢
    rw [List.forall₂_map_right_iff]
    exact this.imp fun n z h => by rwa [abs_neg]
  simp only [Function.comp_apply]
  by_cases c1 : waveCell nmesh p.1 = k <;> by_cases c2 : waveCell nmesh (p.1.map fun z => -z) = k
  · have e1 := h1 c1
    have e2 := h2 c2
    rw [if_pos c1, if_pos c2, if_pos c1, if_pos c2, map_mul, ← hT p hp, ← e1, ← e2]
    ring
  · rw [if_pos c1, if_neg c2, if_pos c1, if_neg c2, h1 c1]
    ring
  · rw [if_neg c1, if_pos c2, if_neg c1, if_pos c2, h2 c2, hT p hp, map_mul]
    ring
  · rw [if_neg c1, if_neg c2, if_neg c1, if_neg c2]
    ring

theorem own_codeWave {t : Tiling} (ht : t.OK) {box : List ℝ} (hl : box.length = t.nmesh.length)
    {r : ℕ} (hr : r < t.nrank) {c : List ℕ} (hc : ValidIndex (t.lshape r) c) :
    ownCoords (fun d j => (wavAxis Real.pi ((t.start r).getD d 0) ((t.lshape r).getD d 0) (t.nmesh.getD d 0)
      (box.getD d 0)).getD j 0) c = codeWave t.nmesh box (t.global r c) := by
  have hcl : c.length = t.nmesh.length := by rw [hc.len, ht.shape_len r hr]
  have hsl := ht.start_len r hr
  have hll := ht.shape_len r hr
  unfold ownCoords codeWave waveOf Tiling.global
  apply List.ext_getElem
  · simp [hcl, hsl, hl]
  · intro d h1 h2
    have hd : d < t.nmesh.length := by simpa [hcl] using h1
    have hcd : c[d]'(by omega) < (t.lshape r)[d]'(by omega) := by
      have := List.forall₂_iff_get.1 hc
      exact this.2 d (by omega) (by omega)
    have hN : (t.nmesh[d] : ℝ) ≠ 0 := by
      exact_mod_cast (ht.mesh_pos _ (List.getElem_mem hd)).ne'
    rw [List.getElem_map, List.getElem_range, List.getElem_zipWith, List.getElem_zipWith, List.getElem_zipWith]
    beta_reduce
    rw [List.getD_eq_getElem c 0 (by omega), List.getD_eq_getElem (t.start r) 0 (by omega),
      List.getD_eq_getElem (t.lshape r) 0 (by omega), List.getD_eq_getElem t.nmesh 0 hd, List.getD_eq_getElem box 0 (by omega)]
    unfold wavAxis indexAxis
    rw [List.getD_eq_getElem _ _ (by simpa using hcd), List.getElem_map, List.getElem_map, List.getElem_range]
    push_cast
    rw [add_comm ((c[d] : ℕ) : ℤ)]
    field_simp

/-! ## Derivatives of plane waves -/

theorem planeWaves_deriv (box : List ℝ) (waves : List (List ℤ × ℂ)) (x : List ℝ) {d : ℕ} (hd : d < x.length)
    (hlb : box.length = x.length) (hlen : ∀ p ∈ waves, p.1.length = x.length) :
    HasDerivAt (fun s => planeWaves box waves (x.set d s))
      (planeWaves box (filtered box (fun k => I * k.getD d 0) waves) x) (x[d]) := by
  have hone : ∀ p ∈ waves, HasDerivAt (fun s : ℝ => (p.2 * exp (I * dotL (waveOf box p.1) (x.set d s))).re)
      ((I * (waveOf box p.1).getD d 0 * p.2 * exp (I * dotL (waveOf box p.1) x)).re) (x[d]) := by
    intro p hp
    have hdot : ∀ (k x : List ℝ) (d : ℕ) (hd : d < x.length), k.length = x.length → ∀ s : ℝ, 
        dotL k (x.set d s) = k.getD d 0 * (s - x[d]) + dotL k x := by
      intro k
      induction k with
      | nil => intro x d hd hk; simp at hk; omega
      | cons a k ih =>
        intro x d hd hk s
        match x, d, hd, hk with
        | b :: xs, 0, _, _ => simp [dotL]; ring
        | b :: xs, d + 1, hd, hk =>
          have := ih xs d (by simpa using hd) (by simpa using hk) s
          unfold dotL at this ⊢
          simp only [List.set_cons_succ, List.zipWith_cons_cons, List.sum_cons, this, List.getD_cons_succ, List.getElem_cons_succ]
          ring
    have hkl : (waveOf box p.1).length = x.length := by simp [waveOf, hlb, hlen p hp]
    have h1 : HasDerivAt (fun s : ℝ => p.2 * exp (I * dotL (waveOf box p.1) (x.set d s)))
        (I * (waveOf box p.1).getD d 0 * p.2 * exp (I * dotL (waveOf box p.1) x)) (x[d]) := by
      have h2 : HasDerivAt (fun s : ℝ => I * ((dotL (waveOf box p.1) (x.set d s) : ℝ) : ℂ))
          (I * ((waveOf box p.1).getD d 0 : ℝ)) (x[d]) := by
        have h3 : HasDerivAt (fun s : ℝ => dotL (waveOf box p.1) (x.set d s)) ((waveOf box p.1).getD d 0) (x[d]) := by
          simp only [hdot _ x d hd hkl]
          have := (((hasDerivAt_id (x[d])).sub_const (x[d])).const_mul ((waveOf box p.1).getD d 0)).add_const (dotL (waveOf box p.1) x)
          simpa using this
        exact h3.ofReal_comp.const_mul I
      have h4 := (h2.cexp).const_mul p.2
      have h5 : dotL (waveOf box p.1) (x.set d x[d]) = dotL (waveOf box p.1) x := by rw [List.set_getElem_self]
      rw [h5] at h4
      refine h4.congr_deriv ?_
      ring
    exact (Complex.reCLM.hasFDerivAt.comp_hasDerivAt _ h1)
  unfold planeWaves filtered
  rw [List.map_map]
  clear hlen
  induction waves with
  | nil => simpa using hasDerivAt_const (x[d]) (0 : ℝ)
  | cons p ps ih =>
    simp only [List.map_cons, List.sum_cons]
    exact (hone p (by simp)).add (ih fun q hq => hone q (by simp [hq]))

end Pmesh
