import Verif.Spec.Transfer
import Verif.Lemmas.Spmd
import Verif.Lemmas.Paint
import Mathlib.Tactic.LinearCombination
import Mathlib.Tactic.FieldSimp
import Mathlib.Tactic.Positivity
import Mathlib.Tactic.IntervalCases

/-! # Lemmas about the deprecated transfer functions -/

set_option linter.unusedSectionVars false

namespace Pmesh

/-- On an even mesh, the code's frequency is the documented one. -/
theorem wrapIndex_bmod {N i : ℕ} (hN : N % 2 = 0) (hi : i < N) : wrapIndex N i = Int.bmod i N := by
  unfold wrapIndex
  rw [Int.bmod_def]
  have e : ((i : ℤ) % N) = i := Int.emod_eq_of_lt (by omega) (by omega)
  rw [e]
  split_ifs <;> omega

theorem oldW_length (N start len : ℕ) : (oldW N start len).length = len := by simp [oldW, indexAxis]

theorem oldW_getD {N start len j : ℕ} (hN : N % 2 = 0) (hj : j < len) (hi : start + j < N) :
    (oldW N start len).getD j 0 = omega N (start + j) := by
  rw [List.getD_eq_getElem _ _ (by simpa [oldW_length] using hj)]
  simp only [oldW, indexAxis, List.getElem_map, List.getElem_range]
  unfold omega
  rw [← wrapIndex_bmod hN hi]
  push_cast
  rw [add_comm (j : ℤ)]
  ring

theorem omega_eq_zero {N i : ℕ} (hi : i < N) : omega N i = 0 ↔ i = 0 := by
  unfold omega
  have hN : (N : ℝ) ≠ 0 := by exact_mod_cast (by omega : N ≠ 0)
  have hpi : (2 * Real.pi : ℝ) ≠ 0 := by positivity
  rw [div_eq_zero_iff, or_iff_left hN, mul_eq_zero, or_iff_right hpi]
  constructor
  · intro h
    have h1 : Int.bmod i N = 0 := by exact_mod_cast h
    have h2 : (N : ℤ) ∣ i := Int.dvd_of_bmod_eq_zero h1
    have h3 : N ∣ i := by exact_mod_cast h2
    exact Nat.eq_zero_of_dvd_of_lt h3 hi
  · rintro rfl
    simp

section
variable {t : Tiling} {N : ℕ} (ht : OldTiling t N)
include ht

theorem OldTiling.shape3 {r : ℕ} (hr : r < t.nrank) : ∃ s0 s1 s2 l0 l1 l2, t.start r = [s0, s1, s2] ∧ t.lshape r = [l0, l1, l2] := by
  have h1 := ht.ok.start_len r hr
  have h2 := ht.ok.shape_len r hr
  rw [ht.mesh] at h1 h2
  obtain ⟨s0, s1, s2, hs⟩ := List.length_eq_three.1 h1
  obtain ⟨l0, l1, l2, hl⟩ := List.length_eq_three.1 h2
  exact ⟨s0, s1, s2, l0, l1, l2, hs, hl⟩

/-- A stored element of a rank and its place in the whole field. -/
theorem OldTiling.elem {r : ℕ} (hr : r < t.nrank) {c : List ℕ} (hc : ValidIndex (t.lshape r) c) :
    ∃ s0 s1 s2 l0 l1 l2 a b k, t.start r = [s0, s1, s2] ∧ t.lshape r = [l0, l1, l2] ∧ c = [a, b, k] ∧ a < l0 ∧ b < l1 ∧ k < l2 ∧
      s0 + a < N ∧ s1 + b < N ∧ s2 + k < N ∧ t.global r c = [s0 + a, s1 + b, s2 + k] := by
  obtain ⟨s0, s1, s2, l0, l1, l2, hs, hl⟩ := ht.shape3 hr
  have hg := ht.ok.inside r hr c hc
  unfold Tiling.global at hg ⊢
  rw [ht.stored] at hg
  rw [hl] at hc
  rw [hs] at hg ⊢
  unfold ValidIndex at hc hg
  rcases hc with _ | ⟨ha, _ | ⟨hb, _ | ⟨hk, _ | _⟩⟩⟩
  rename_i a b k
  simp only [List.zipWith_cons_cons, List.zipWith_nil_right, List.forall₂_cons] at hg
  have := ht.pos
  have := ht.even
  exact ⟨s0, s1, s2, l0, l1, l2, a, b, k, rfl, hl, rfl, ha, hb, hk, hg.1, hg.2.1, by omega, by simp⟩

theorem dcIndex_empty {d : ℕ} {ws : List (List ℝ)} (h : [] ∈ ws) : dcIndex d ws = none := by
  induction ws generalizing d with
  | nil => simp at h
  | cons wi ws ih =>
    unfold dcIndex
    by_cases h1 : (wi.all fun x => decide (x ≠ 0)) = true
    · rw [if_pos h1]
    · rw [if_neg h1]
      rcases List.mem_cons.1 h with rfl | h
      · simp at h1
      · rw [ih h]; rfl

omit ht in
theorem oldW_any_zero {start len : ℕ} (hN : N % 2 = 0) (hlen : 0 < len) (hend : start + len ≤ N) :
    ((oldW N start len).all fun x => decide (x ≠ 0)) = true ↔ start ≠ 0 := by
  rw [List.all_eq_true]
  constructor
  · rintro h rfl
    have h0 := oldW_getD (start := 0) (j := 0) hN hlen (by omega)
    rw [(omega_eq_zero (by omega)).2 rfl, List.getD_eq_getElem _ _ (by simpa [oldW_length] using hlen)] at h0
    have h2 := h _ (List.getElem_mem (l := oldW N 0 len) (n := 0) (by simpa [oldW_length] using hlen))
    simp only [decide_eq_true_eq] at h2
    exact h2 h0
  · intro h x hx
    obtain ⟨j, hj, rfl⟩ := List.mem_iff_getElem.1 hx
    have hj' : j < len := by simpa [oldW_length] using hj
    have h1 := oldW_getD (start := start) hN hj' (by omega)
    rw [List.getD_eq_getElem _ _ hj] at h1
    rw [h1]
    simp only [decide_eq_true_eq]
    intro h2
    rw [omega_eq_zero (by omega)] at h2
    omega

omit ht in
theorem oldW_findIdx {len : ℕ} (hN : N % 2 = 0) (hlen : 0 < len) (hN0 : 0 < N) :
    (oldW N 0 len).findIdx (fun x => decide (x = 0)) = 0 := by
  have h0 := oldW_getD (start := 0) (j := 0) hN hlen (by omega)
  rw [(omega_eq_zero (by omega)).2 rfl] at h0
  cases h : oldW N 0 len with
  | nil => have := oldW_length N 0 len; rw [h] at this; simp at this; omega
  | cons a l =>
    rw [h] at h0
    simp only [List.getD_cons_zero] at h0
    simp [List.findIdx_cons, h0]

/-- The loop finds the zero mode exactly on the rank that stores it. -/
theorem OldTiling.dcIndex_eq {r : ℕ} (hr : r < t.nrank) :
    dcIndex 0 (t.oldW N r) =
      if ValidIndex (t.lshape r) [0, 0, 0] ∧ t.global r [0, 0, 0] = [0, 0, 0] then some [0, 0, 0] else none := by
  obtain ⟨s0, s1, s2, l0, l1, l2, hs, hl⟩ := ht.shape3 hr
  have hw : t.oldW N r = [oldW N s0 l0, oldW N s1 l1, oldW N s2 l2] := by
    unfold Tiling.oldW; rw [hs, hl]; rfl
  rw [hw]
  have hV : ValidIndex (t.lshape r) [0, 0, 0] ↔ 0 < l0 ∧ 0 < l1 ∧ 0 < l2 := by
    rw [hl]; unfold ValidIndex; simp
  have hG : t.global r [0, 0, 0] = [s0, s1, s2] := by unfold Tiling.global; rw [hs]; simp
  simp only [hV, hG]
  by_cases hp : 0 < l0 ∧ 0 < l1 ∧ 0 < l2
  · obtain ⟨p0, p1, p2⟩ := hp
    have hlast : ValidIndex (t.lshape r) [l0 - 1, l1 - 1, l2 - 1] := by
      rw [hl]; unfold ValidIndex
      refine List.Forall₂.cons (by omega) (.cons (by omega) (.cons (by omega) .nil))
    obtain ⟨_, _, _, _, _, _, a, b, k, e1, e2, e3, _, _, _, h0, h1, h2, _⟩ := ht.elem hr hlast
    rw [hs] at e1
    simp only [List.cons.injEq] at e1 e3
    obtain ⟨rfl, rfl, rfl, -⟩ := e1
    obtain ⟨rfl, rfl, rfl, -⟩ := e3
    have ha := oldW_any_zero (start := s0) ht.even p0 (by omega)
    have hb := oldW_any_zero (start := s1) ht.even p1 (by omega)
    have hk := oldW_any_zero (start := s2) ht.even p2 (by omega)
    unfold dcIndex dcIndex dcIndex dcIndex
    simp only [ha, hb, hk]
    by_cases z0 : s0 = 0
    · by_cases z1 : s1 = 0
      · by_cases z2 : s2 = 0
        · subst z0 z1 z2
          simp [p0, p1, p2, oldW_findIdx ht.even p0 ht.pos]
        · simp [z2]
      · simp [z1]
    · simp [z0]
  · rw [if_neg (fun h => hp h.1)]
    refine dcIndex_empty ht ?_
    have : ∀ s l, ¬ 0 < l → oldW N s l = [] := by
      intro s l h
      rw [show l = 0 by omega]
      rfl
    simp only [List.mem_cons, List.not_mem_nil, or_false]
    by_cases h0 : 0 < l0
    · by_cases h1 : 0 < l1
      · exact Or.inr (Or.inr (this s2 l2 (fun h2 => hp ⟨h0, h1, h2⟩)).symm)
      · exact Or.inr (Or.inl (this s1 l1 h1).symm)
    · exact Or.inl (this s0 l0 h0).symm

/-- The zero mode is stored, by exactly one rank, as its first element. -/
theorem OldTiling.dc_owner : ∃ r0 < t.nrank, ∀ r < t.nrank,
    (ValidIndex (t.lshape r) [0, 0, 0] ∧ t.global r [0, 0, 0] = [0, 0, 0]) ↔ r = r0 := by
  have h0 : ValidIndex t.cshape [0, 0, 0] := by
    rw [ht.stored]; unfold ValidIndex; simp [ht.pos]
  obtain ⟨r0, hr0, c, hc, hg⟩ := ht.ok.owner _ h0
  obtain ⟨_, _, _, _, _, _, a, b, k, e1, e2, rfl, _, _, _, _, _, _, e⟩ := ht.elem hr0 hc
  rw [e] at hg
  simp only [List.cons.injEq, and_true] at hg
  obtain ⟨g0, g1, g2⟩ := hg
  have ha : a = 0 := by omega
  have hb : b = 0 := by omega
  have hk : k = 0 := by omega
  subst ha hb hk
  refine ⟨r0, hr0, fun r hr => ⟨fun ⟨h1, h2⟩ => ?_, ?_⟩⟩
  · exact ht.ok.unique r hr r0 hr0 _ _ h1 hc (by rw [h2, e]; simp [g0, g1, g2])
  · rintro rfl
    exact ⟨hc, by rw [e]; simp [g0, g1, g2]⟩

omit ht in
theorem sumVals_some (l : List ℕ) (g : ℕ → ℝ) : sumVals (l.map fun r => some (g r)) = some (l.map g).sum := by
  unfold sumVals
  induction l with
  | nil => rfl
  | cons a l ih => simp only [List.map_cons, List.foldr_cons, ih]; rfl

omit ht in
theorem sum_range_single (n r0 : ℕ) (h : r0 < n) (x : ℝ) : ((List.range n).map fun r => if r = r0 then x else 0).sum = x := by
  have h2 := sum_ite_eq_of_nodup _ List.nodup_range (fun _ => x) (fun r => r = r0) r0 (List.mem_range.2 h) (fun _ _ => Iff.rfl)
  simpa using h2

/-- The frequencies of an element. -/
theorem OldTiling.w_elem {r : ℕ} (hr : r < t.nrank) {c : List ℕ} (hc : ValidIndex (t.lshape r) c) :
    List.zipWith (fun (wi : List ℝ) i => wi.getD i 0) (t.oldW N r) c = (t.global r c).map (omega N) := by
  obtain ⟨s0, s1, s2, l0, l1, l2, a, b, k, hs, hl, rfl, h1, h2, h3, i1, i2, i3, e⟩ := ht.elem hr hc
  rw [e]
  unfold Tiling.oldW
  rw [hs, hl]
  simp only [List.zipWith_cons_cons, List.zipWith_nil_right, List.map_cons, List.map_nil]
  rw [oldW_getD ht.even h1 i1, oldW_getD ht.even h2 i2, oldW_getD ht.even h3 i3]

theorem OldTiling.w2_elem {r : ℕ} (hr : r < t.nrank) {c : List ℕ} (hc : ValidIndex (t.lshape r) c) :
    (List.zipWith (fun (wi : List ℝ) i => wi.getD i 0 ^ 2) (t.oldW N r) c).sum = omega2 N (t.global r c) := by
  have h := ht.w_elem hr hc
  have h2 := congrArg (List.map fun x : ℝ => x ^ 2) h
  rw [List.map_zipWith] at h2
  rw [h2]
  unfold omega2
  simp [List.map_map, Function.comp_def]

omit ht in
theorem omega2_eq_zero {a b k : ℕ} (ha : a < N) (hb : b < N) (hk : k < N) : omega2 N [a, b, k] = 0 ↔ [a, b, k] = [0, 0, 0] := by
  unfold omega2
  simp only [List.map_cons, List.map_nil, List.sum_cons, List.sum_nil, List.cons.injEq, and_true]
  constructor
  · intro h
    have h1 : omega N a ^ 2 = 0 := by nlinarith [sq_nonneg (omega N a), sq_nonneg (omega N b), sq_nonneg (omega N k)]
    have h2 : omega N b ^ 2 = 0 := by nlinarith [sq_nonneg (omega N a), sq_nonneg (omega N b), sq_nonneg (omega N k)]
    have h3 : omega N k ^ 2 = 0 := by nlinarith [sq_nonneg (omega N a), sq_nonneg (omega N b), sq_nonneg (omega N k)]
    rw [sq_eq_zero_iff, omega_eq_zero ha] at h1
    rw [sq_eq_zero_iff, omega_eq_zero hb] at h2
    rw [sq_eq_zero_iff, omega_eq_zero hk] at h3
    exact ⟨h1, h2, h3⟩
  · rintro ⟨rfl, rfl, rfl⟩
    simp [(omega_eq_zero ha).2 rfl]

/-- One transfer function. -/
theorem OldTiling.run_one {op : Transfer} (hop : op.Works) {G G' : List ℕ → Cx ℝ} (hm : op.meaning N G = some G')
    {f : ℕ → List ℕ → CVal} (hf : FieldIs t f G) :
    ∃ f', AllReturn t.nrank (fun r => op.run (t.oldW N r) (t.lshape r) (f r)) (fun r => .ok (f' r)) ∧ FieldIs t f' G' := by
  cases op with
  | trilinear => exact hop.elim
  | laplace => exact hop.elim
  | inspect _ => exact hop.elim
  | normalizeDC =>
    obtain ⟨r0, hr0, hown⟩ := ht.dc_owner
    simp only [Transfer.meaning] at hm
    split_ifs at hm with hz
    obtain rfl := Option.some.inj hm
    refine ⟨fun r c => cvalDiv (f r c) (some (cxAbs (G [0, 0, 0]))), ?_, ?_⟩
    · unfold Transfer.run
      refine AllReturn.coll (Nat.lt_of_le_of_lt (Nat.zero_le _) hr0) ?_
      refine AllReturn.congr (fun r hr => ?_) (fun _ _ => rfl) (AllReturn.ret _ _)
      have hv : (List.range t.nrank).map (fun r => dcValue (t.oldW N r) (f r)) = (List.range t.nrank).map fun r => some (if r = r0 then cxAbs (G [0, 0, 0]) else 0) := by
        refine List.map_congr_left fun r hr => ?_
        have hr := List.mem_range.1 hr
        unfold dcValue
        rw [ht.dcIndex_eq hr]
        by_cases h : r = r0
        · have h2 := (hown r hr).2 h
          rw [if_pos h2, if_pos h]
          have h3 := hf r hr _ h2.1
          rw [h2.2] at h3
          simp [h3]
        · rw [if_neg (fun h2 => h ((hown r hr).1 h2)), if_neg h]
      rw [hv, sumVals_some, sum_range_single _ _ hr0]
    · intro r hr c hc
      have h := hf r hr c hc
      simp only [h, cvalDiv, Option.bind_some]
      rw [if_neg (by exact hz)]
      rfl
  | removeDC =>
    simp only [Transfer.meaning, Option.some.injEq] at hm
    subst hm
    refine ⟨fun r => if ValidIndex (t.lshape r) [0, 0, 0] ∧ t.global r [0, 0, 0] = [0, 0, 0]
      then Function.update (f r) [0, 0, 0] (some (0, 0)) else f r, ?_, ?_⟩
    · refine AllReturn.congr (fun r hr => ?_) (fun _ _ => rfl) (AllReturn.ret _ _)
      simp only [Transfer.run, ht.dcIndex_eq hr]
      by_cases h : ValidIndex (t.lshape r) [0, 0, 0] ∧ t.global r [0, 0, 0] = [0, 0, 0]
      · rw [if_pos h, if_pos h]
      · rw [if_neg h, if_neg h]
    · intro r hr c hc
      obtain ⟨s0, s1, s2, l0, l1, l2, a, b, k, hs, hl, rfl, h1, h2, h3, i1, i2, i3, e⟩ := ht.elem hr hc
      have h := hf r hr _ hc
      have hG : t.global r [0, 0, 0] = [s0, s1, s2] := by unfold Tiling.global; rw [hs]; simp
      have hV : ValidIndex (t.lshape r) [0, 0, 0] := by
        rw [hl]; unfold ValidIndex; simp; omega
      simp only [hV, hG, true_and]
      rw [e] at h ⊢
      by_cases hz : [s0 + a, s1 + b, s2 + k] = [0, 0, 0]
      · have hz' := hz
        simp only [List.cons.injEq, Nat.add_eq_zero_iff, and_true] at hz'
        obtain ⟨⟨z0, za⟩, ⟨z1, zb⟩, z2, zk⟩ := hz'
        subst z0 z1 z2 za zb zk
        simp
      · rw [if_neg hz]
        split_ifs with hs0
        · rw [Function.update_of_ne, h]
          rintro heq
          apply hz
          simp only [List.cons.injEq, and_true] at heq hs0 ⊢
          omega
        · exact h
  | superLanzcos dir order =>
    simp only [Transfer.meaning, Option.some.injEq] at hm
    subst hm
    have hdir : dir < 3 := hop
    refine ⟨fun r c => cvalMul (f r c) (0, (fun x : ℝ => if order = 0 then x else 1 / 6 * (8 * Real.sin x - Real.sin (2 * x)))
      (((t.oldW N r).getD dir []).getD (c.getD dir 0) 0)), ?_, ?_⟩
    · refine AllReturn.congr (fun r hr => ?_) (fun _ _ => rfl) (AllReturn.ret _ _)
      obtain ⟨s0, s1, s2, l0, l1, l2, hs, hl⟩ := ht.shape3 hr
      have hw : (t.oldW N r).length = 3 := by unfold Tiling.oldW; rw [hs, hl]; rfl
      have hg : (t.oldW N r)[dir]? = some ((t.oldW N r).getD dir []) := by
        rw [List.getElem?_eq_getElem (by omega), List.getD_eq_getElem _ _ (by omega)]
      simp only [Transfer.run, hg]
    · intro r hr c hc
      have h := hf r hr c hc
      obtain ⟨s0, s1, s2, l0, l1, l2, a, b, k, hs, hl, rfl, h1, h2, h3, i1, i2, i3, e⟩ := ht.elem hr hc
      have hx : ((t.oldW N r).getD dir []).getD ([a, b, k].getD dir 0) 0 = omega N ((t.global r [a, b, k]).getD dir 0) := by
        rw [e]
        unfold Tiling.oldW
        rw [hs, hl]
        interval_cases dir
        · exact oldW_getD ht.even h1 i1
        · exact oldW_getD ht.even h2 i2
        · exact oldW_getD ht.even h3 i3
      simp only [h, hx, cvalMul, Option.map_some, cxMul, Option.some.injEq, Prod.mk.injEq]
      constructor <;> split_ifs <;> ring
  | gaussian s =>
    simp only [Transfer.meaning, Option.some.injEq] at hm
    subst hm
    refine ⟨_, AllReturn.ret _ _, ?_⟩
    intro r hr c hc
    have h := hf r hr c hc
    have hw := ht.w_elem hr hc
    obtain ⟨s0, s1, s2, l0, l1, l2, a, b, k, hs, hl, rfl, h1, h2, h3, i1, i2, i3, e⟩ := ht.elem hr hc
    have hz := congrArg (List.map fun x : ℝ => Real.exp (-(1 / 2) * x ^ 2 * s ^ 2)) hw
    rw [List.map_zipWith] at hz
    simp only [hz, h]
    rw [e]
    simp only [List.map_cons, List.map_nil, List.foldl_cons, List.foldl_nil, cvalMul, Option.map_some, cxMul, omega2, List.sum_cons,
      List.sum_nil, Option.some.injEq, Prod.mk.injEq]
    have hexp : Real.exp (-((omega N (s0 + a) ^ 2 + (omega N (s1 + b) ^ 2 + (omega N (s2 + k) ^ 2 + 0))) * s ^ 2) / 2) =
        Real.exp (-(1 / 2) * omega N (s0 + a) ^ 2 * s ^ 2) * Real.exp (-(1 / 2) * omega N (s1 + b) ^ 2 * s ^ 2) *
          Real.exp (-(1 / 2) * omega N (s2 + k) ^ 2 * s ^ 2) := by
      rw [← Real.exp_add, ← Real.exp_add]
      congr 1
      ring
    rw [hexp]
    constructor <;> ring
  | constant a =>
    simp only [Transfer.meaning, Option.some.injEq] at hm
    subst hm
    refine ⟨_, AllReturn.ret _ _, ?_⟩
    intro r hr c hc
    have h := hf r hr c hc
    simp only [h, cvalMul, Option.map_some, cxMul, Option.some.injEq, Prod.mk.injEq]
    constructor <;> ring
  | poisson =>
    simp only [Transfer.meaning, Option.some.injEq] at hm
    subst hm
    refine ⟨_, AllReturn.ret _ _, ?_⟩
    intro r hr c hc
    have h := hf r hr c hc
    have hw := ht.w2_elem hr hc
    obtain ⟨s0, s1, s2, l0, l1, l2, a, b, k, hs, hl, rfl, h1, h2, h3, i1, i2, i3, e⟩ := ht.elem hr hc
    have hz := omega2_eq_zero i1 i2 i3
    have hr2 : rowW2 (t.oldW N r) ([a, b, k].headD 0) [a, b, k] =
        if omega2 N (t.global r [a, b, k]) = 0 then none else some (-omega2 N (t.global r [a, b, k])) := by
      rw [← hw]; rfl
    simp only [hr2, h]
    rw [e] at h ⊢
    by_cases h0 : omega2 N [s0 + a, s1 + b, s2 + k] = 0
    · rw [if_pos h0, if_pos (hz.1 h0)]
      rfl
    · rw [if_neg h0, if_neg (fun h' => h0 (hz.2 h'))]
      simp only [cvalDiv, Option.bind_some]
      rw [if_neg (neg_ne_zero.2 h0)]
      simp only [div_neg, neg_div]

theorem OldTiling.run_chain : ∀ (ops : List Transfer), (∀ op ∈ ops, op.Works) → ∀ {G G' : List ℕ → Cx ℝ},
    chainMeaning N ops G = some G' → ∀ {f : ℕ → List ℕ → CVal}, FieldIs t f G →
    ∃ f', AllReturn t.nrank (fun r => oldTransfer t N r ops (f r)) (fun r => .ok (f' r)) ∧ FieldIs t f' G'
  | [], _, G, G', hm, f, hf => by
    simp only [chainMeaning, List.foldlM_nil, Option.pure_def, Option.some.injEq] at hm
    subst hm
    exact ⟨f, AllReturn.ret _ _, hf⟩
  | op :: ops, hs, G, G', hm, f, hf => by
    simp only [chainMeaning, List.foldlM_cons, Option.bind_eq_bind, Option.bind_eq_some_iff] at hm
    obtain ⟨G1, h1, h2⟩ := hm
    obtain ⟨f1, hf1, hG1⟩ := ht.run_one (hs op (by simp)) h1 hf
    obtain ⟨f2, hf2, hG2⟩ := OldTiling.run_chain ops (fun o ho => hs o (by simp [ho])) h2 hG1
    exact ⟨f2, AllReturn.andThen hf1 hf2, hG2⟩

end
end Pmesh
