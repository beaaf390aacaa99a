import Verif.Lemmas.Index
import Verif.Spec.Domain
import Mathlib.Data.List.GetD

set_option linter.unusedSectionVars false

namespace Pmesh

section
variable {K : Type*} [Field K] [LinearOrder K] [IsStrictOrderedRing K] [FloorRing K]

theorem pyMod_nonneg (x : K) {b : K} (hb : 0 < b) : 0 ≤ pyMod x b := by
  unfold pyMod
  have := Int.floor_le (x / b)
  have h2 : b * (⌊x / b⌋ : K) ≤ b * (x / b) := mul_le_mul_of_nonneg_left this hb.le
  rw [mul_div_cancel₀ x hb.ne'] at h2
  linarith

theorem pyMod_lt (x : K) {b : K} (hb : 0 < b) : pyMod x b < b := by
  unfold pyMod
  have := Int.lt_floor_add_one (x / b)
  have h2 : b * (x / b) < b * (⌊x / b⌋ + 1 : K) := mul_lt_mul_of_pos_left this hb
  rw [mul_div_cancel₀ x hb.ne'] at h2
  linarith

theorem pyMod_spec (x b : K) : ∃ m : ℤ, x = pyMod x b + m * b :=
  ⟨⌊x / b⌋, by unfold pyMod; ring⟩

theorem pyMod_eq_of {x b z : K} (hb : 0 < b) (h0 : 0 ≤ z) (h1 : z < b) (m : ℤ)
    (h : x = z + m * b) : pyMod x b = z := by
  have : ⌊x / b⌋ = m := by
    rw [Int.floor_eq_iff, h, add_div, mul_div_cancel_right₀ _ hb.ne']
    have a1 : 0 ≤ z / b := div_nonneg h0 hb.le
    have a2 : z / b < 1 := by rwa [div_lt_one hb]
    constructor <;> linarith
  unfold pyMod
  rw [this, h]; ring

theorem getD_le_of_sorted {e : List K} (hs : e.Pairwise (· ≤ ·)) {i j : ℕ} (hij : i ≤ j)
    (hj : j < e.length) : e.getD i 0 ≤ e.getD j 0 := by
  rcases Nat.eq_or_lt_of_le hij with h | h
  · rw [h]
  · have hi : i < e.length := by omega
    rw [List.getD_eq_getElem _ _ hi, List.getD_eq_getElem _ _ hj]
    exact List.pairwise_iff_getElem.1 hs i j hi hj h

theorem lt_digitize_iff {e : List K} (hs : e.Pairwise (· ≤ ·)) (z : K) {i : ℕ} (hi : i < e.length) :
    i < digitize z e ↔ e.getD i 0 ≤ z := by
  unfold digitize
  induction e generalizing i with
  | nil => simp at hi
  | cons a e ih =>
    have hs' := List.pairwise_cons.1 hs
    rw [List.countP_cons]
    by_cases ha : a ≤ z
    · simp only [ha, decide_true, if_true]
      cases i with
      | zero => simp [ha]
      | succ i =>
        simp only [List.getD_cons_succ]
        rw [← ih hs'.2 (by simpa using hi)]
        omega
    · have : e.countP (fun e => decide (e ≤ z)) = 0 := by
        rw [List.countP_eq_zero]
        intro b hb hbz
        have := hs'.1 b hb
        simp only [decide_eq_true_eq] at hbz
        exact ha (le_trans this hbz)
      simp only [ha, decide_false, this]
      simp only [Bool.false_eq_true, if_false, Nat.add_zero, Nat.not_lt_zero, false_iff]
      cases i with
      | zero => simpa using ha
      | succ i =>
        intro hle
        have hi' : i < e.length := by simpa using hi
        rw [List.getD_cons_succ, List.getD_eq_getElem _ _ hi'] at hle
        exact ha (le_trans (hs'.1 _ (List.getElem_mem hi')) hle)

theorem digitize_le_length (z : K) (e : List K) : digitize z e ≤ e.length := List.countP_le_length

theorem EdgesOK.last {e : List K} (h : EdgesOK e) : e.getLastD 0 = e.getD (e.length - 1) 0 := by
  have := h.two
  rw [List.getD_eq_getElem _ _ (by omega), List.getLastD_eq_getLast?, List.getLast?_eq_getElem?,
    List.getElem?_eq_getElem (by omega)]
  rfl

/-- Position of a wrapped coordinate: it lies in exactly the domain that `digitize` reports. -/
theorem EdgesOK.digitize_spec {e : List K} (h : EdgesOK e) {z : K} (h0 : 0 ≤ z)
    (h1 : z < e.getLastD 0) :
    1 ≤ digitize z e ∧ digitize z e ≤ e.length - 1 ∧
      e.getD (digitize z e - 1) 0 ≤ z ∧ z < e.getD (digitize z e) 0 := by
  have h2 := h.two
  have a1 : 0 < digitize z e := (lt_digitize_iff h.sorted z (by omega)).2 (by rw [h.first]; exact h0)
  have a2 : ¬ e.length - 1 < digitize z e := by
    rw [lt_digitize_iff h.sorted z (by omega), ← h.last]; exact not_le.2 h1
  refine ⟨a1, by omega, ?_, ?_⟩
  · exact (lt_digitize_iff h.sorted z (by omega)).1 (by omega)
  · have := (lt_digitize_iff h.sorted z (i := digitize z e) (by omega)).not.1 (by omega)
    exact not_le.1 this

theorem EdgesOK.digitize_eq {e : List K} (h : EdgesOK e) {z : K} {D : ℕ} (hD : D < e.length - 1)
    (h0 : e.getD D 0 ≤ z) (h1 : z < e.getD (D + 1) 0) : digitize z e = D + 1 := by
  have a1 := (lt_digitize_iff h.sorted z (i := D) (by omega)).2 h0
  have a2 := (lt_digitize_iff h.sorted z (i := D + 1) (by omega)).not.2 (not_le.2 h1)
  omega

theorem digitize_mono {e : List K} {z z' : K} (h : z ≤ z') : digitize z e ≤ digitize z' e := by
  unfold digitize
  apply List.countP_mono_left
  intro a _ ha
  simp only [decide_eq_true_eq] at ha ⊢
  exact le_trans ha h

/-- The heart of C01: along one periodic axis, a non-empty domain is visited if and only if it meets the
smoothing interval. -/
theorem axis_periodic {e : List K} (h : EdgesOK e) {s : K} (hs : 0 ≤ s) (x : K)
    (hwrap : ∀ d < e.length - 1, s + (e.getD (d + 1) 0 - e.getD d 0) ≤ e.getLastD 0 ∨
      e.getD (d + 1) 0 - e.getD d 0 = e.getLastD 0)
    {D : ℕ} (hD : D < e.length - 1) :
    ((∃ t : ℤ, (axisRange true e s x).1 ≤ t ∧ t < (axisRange true e s x).2 ∧
        t % ((e.length - 1 : ℕ) : ℤ) = D) ∧ e.getD D 0 < e.getD (D + 1) 0) ↔
      MeetsMod (e.getLastD 0) s x (e.getD D 0) (e.getD (D + 1) 0) := by
  have h2 := h.two
  have hlast := h.last
  set n : ℕ := e.length - 1 with hn
  set box : K := e.getLastD 0 with hbox
  have hb : 0 < box := h.last_pos
  set E : ℕ → K := fun i => e.getD i 0 with hE
  have hmono : ∀ {i j : ℕ}, i ≤ j → j ≤ n → E i ≤ E j :=
    fun {i j} hij hj => getD_le_of_sorted h.sorted hij (by omega)
  have hE0 : E 0 = 0 := h.first
  have hEn : E n = box := hlast.symm
  have hEnn : ∀ i ≤ n, 0 ≤ E i := fun i hi => by rw [← hE0]; exact hmono (by omega) hi
  have hEle : ∀ i ≤ n, E i ≤ box := fun i hi => by rw [← hEn]; exact hmono hi le_rfl
  set c := pyMod x box with hc
  have c0 : 0 ≤ c := pyMod_nonneg x hb
  have c1 : c < box := pyMod_lt x hb
  obtain ⟨k, hk⟩ := pyMod_spec x box
  rw [← hc] at hk
  set zl := pyMod (c - s) box with hzl
  set zr := pyMod (c + s) box with hzr
  have zl0 : 0 ≤ zl := pyMod_nonneg _ hb
  have zl1 : zl < box := pyMod_lt _ hb
  have zr0 : 0 ≤ zr := pyMod_nonneg _ hb
  have zr1 : zr < box := pyMod_lt _ hb
  obtain ⟨p1, p2, p3, p4⟩ := h.digitize_spec c0 c1
  obtain ⟨l1, l2, l3, l4⟩ := h.digitize_spec zl0 zl1
  obtain ⟨r1, r2, r3, r4⟩ := h.digitize_spec zr0 zr1
  have hrange : axisRange true e s x =
      ((digitize c e : ℤ) - ((digitize c e : ℤ) - digitize zl e) % (n : ℤ) - 1,
        (digitize c e : ℤ) + ((digitize zr e : ℤ) - digitize c e) % (n : ℤ)) := rfl
  rw [hrange]
  simp only
  obtain ⟨P, hP⟩ : ∃ P, digitize c e = P + 1 := ⟨digitize c e - 1, by omega⟩
  obtain ⟨L, hL⟩ : ∃ L, digitize zl e = L + 1 := ⟨digitize zl e - 1, by omega⟩
  obtain ⟨R, hR⟩ : ∃ R, digitize zr e = R + 1 := ⟨digitize zr e - 1, by omega⟩
  rw [hP] at p2 p3 p4
  rw [hL] at l2 l3 l4
  rw [hR] at r2 r3 r4
  simp only [Nat.add_sub_cancel] at p3 l3 r3
  change E P ≤ c at p3
  change c < E (P + 1) at p4
  change E L ≤ zl at l3
  change zl < E (L + 1) at l4
  change E R ≤ zr at r3
  change zr < E (R + 1) at r4
  rw [hP, hL, hR]
  change (_ ∧ E D < E (D + 1)) ↔ MeetsMod box s x (E D) (E (D + 1))
  have hidx : ∀ {z : K} {i : ℕ}, i < n → E i ≤ z → z < E (i + 1) → digitize z e = i + 1 :=
    fun {z i} hi a b => h.digitize_eq hi a b
  have hlt : ∀ {i j : ℕ}, i ≤ n → j ≤ n → E i < E j → i < j := by
    intro i j hi hj hh
    by_contra hcon
    exact absurd (hmono (not_lt.1 hcon) hi) (not_le.2 hh)
  -- reduction of the statement to the wrapped coordinate `c`
  have hmeet : MeetsMod box s x (E D) (E (D + 1)) ↔
      ∃ z, E D ≤ z ∧ z < E (D + 1) ∧ ∃ m : ℤ, c - s ≤ z + m * box ∧ z + m * box ≤ c + s := by
    constructor
    · rintro ⟨y, y1, y2, m, m1, m2⟩
      refine ⟨y + m * box, m1, m2, -m - k, ?_, ?_⟩
      · push_cast; rw [hk] at y1; linarith
      · push_cast; rw [hk] at y2; linarith
    · rintro ⟨z, z1, z2, m, m1, m2⟩
      refine ⟨z + m * box + k * box, by rw [hk]; linarith, by rw [hk]; linarith, -m - k, ?_, ?_⟩
      · push_cast; linarith
      · push_cast; linarith
  rw [hmeet]
  have hPn : P < n := by omega
  rcases hwrap P hPn with hw | hw
  swap
  · -- the axis has one non-empty domain only
    change E (P + 1) - E P = box at hw
    have e0 : E P = 0 := le_antisymm (by have := hEle (P+1) (by omega); linarith) (hEnn P (by omega))
    have e1 : E (P + 1) = box := by linarith
    have hall : ∀ z, 0 ≤ z → z < box → digitize z e = P + 1 :=
      fun z a b => hidx hPn (by rw [e0]; exact a) (by rw [e1]; exact b)
    have hLP : L = P := by have := hall zl zl0 zl1; omega
    have hRP : R = P := by have := hall zr zr0 zr1; omega
    constructor
    · rintro ⟨⟨t, t1, t2, t3⟩, hnd⟩
      rw [hLP] at t1
      rw [hRP] at t2
      simp only [sub_self, Int.zero_emod] at t1 t2
      have ht : t = P := by push_cast at t1 t2; omega
      rw [ht, Int.emod_eq_of_lt (by omega) (by omega)] at t3
      have hDP : D = P := by omega
      rw [hDP]
      exact ⟨c, p3, p4, 0, by push_cast; linarith, by push_cast; linarith⟩
    · rintro ⟨z, z1, z2, -⟩
      have := hall z (le_trans (hEnn D (by omega)) z1) (lt_of_lt_of_le z2 (hEle _ (by omega)))
      have h3 := hidx hD z1 z2
      have hDP : D = P := by omega
      refine ⟨⟨D, ?_, ?_, ?_⟩, lt_of_le_of_lt z1 z2⟩
      · rw [hLP, hDP]; simp
      · rw [hRP, hDP]; push_cast; simp
      · exact Int.emod_eq_of_lt (by omega) (by omega)
  · change s + (E (P + 1) - E P) ≤ box at hw
    have hsb : s < box := by linarith
    -- the two end points of the range
    have hleft : (0 ≤ c - s ∧ zl = c - s ∧ L ≤ P ∧
          (((P + 1 : ℕ) : ℤ) - ((L + 1 : ℕ) : ℤ)) % (n : ℤ) = (P : ℤ) - L) ∨
        (c - s < 0 ∧ zl = c - s + box ∧ P < L ∧
          (((P + 1 : ℕ) : ℤ) - ((L + 1 : ℕ) : ℤ)) % (n : ℤ) = (P : ℤ) - L + n) := by
      rcases le_or_gt 0 (c - s) with hh | hh
      · left
        have ez : zl = c - s := by
          rw [hzl]; exact pyMod_eq_of hb hh (by linarith) 0 (by push_cast; ring)
        have hLP : L ≤ P := by
          have := digitize_mono (e := e) (z := zl) (z' := c) (by linarith)
          omega
        refine ⟨hh, ez, hLP, ?_⟩
        push_cast
        rw [Int.emod_eq_of_lt] <;> omega
      · right
        have ez : zl = c - s + box := by
          rw [hzl]; exact pyMod_eq_of hb (by linarith) (by linarith) (-1) (by push_cast; ring)
        have hPL : P < L := by
          have : E (P + 1) ≤ zl := by rw [ez]; linarith
          have : E (P + 1) < E (L + 1) := lt_of_le_of_lt this l4
          have := hlt (by omega) (by omega) this
          omega
        refine ⟨hh, ez, hPL, ?_⟩
        push_cast
        rw [← Int.add_emod_right, Int.emod_eq_of_lt] <;> omega
    have hright : (c + s < box ∧ zr = c + s ∧ P ≤ R ∧
          (((R + 1 : ℕ) : ℤ) - ((P + 1 : ℕ) : ℤ)) % (n : ℤ) = (R : ℤ) - P) ∨
        (box ≤ c + s ∧ zr = c + s - box ∧ R < P ∧
          (((R + 1 : ℕ) : ℤ) - ((P + 1 : ℕ) : ℤ)) % (n : ℤ) = (R : ℤ) - P + n) := by
      rcases lt_or_ge (c + s) box with hh | hh
      · left
        have ez : zr = c + s := by
          rw [hzr]; exact pyMod_eq_of hb (by linarith) hh 0 (by push_cast; ring)
        have hPR : P ≤ R := by
          have := digitize_mono (e := e) (z := c) (z' := zr) (by linarith)
          omega
        refine ⟨hh, ez, hPR, ?_⟩
        push_cast
        rw [Int.emod_eq_of_lt] <;> omega
      · right
        have ez : zr = c + s - box := by
          rw [hzr]; exact pyMod_eq_of hb (by linarith) (by linarith) 1 (by push_cast; ring)
        have hRP : R < P := by
          have : E R < E P := by
            have : zr < E P := by rw [ez]; linarith
            exact lt_of_le_of_lt r3 this
          exact hlt (by omega) (by omega) this
        refine ⟨hh, ez, hRP, ?_⟩
        push_cast
        rw [← Int.add_emod_right, Int.emod_eq_of_lt] <;> omega
    constructor
    · rintro ⟨⟨t, t1, t2, t3⟩, hnd⟩
      have ht : t = D - n ∨ t = D ∨ t = D + n := by
        have hb1 : -(n : ℤ) ≤ t := by
          rcases hleft with ⟨_, _, _, hq⟩ | ⟨_, _, _, hq⟩ <;> rw [hq] at t1 <;> push_cast at t1 <;> omega
        have hb2 : t < 2 * n := by
          rcases hright with ⟨_, _, _, hq⟩ | ⟨_, _, _, hq⟩ <;> rw [hq] at t2 <;> push_cast at t2 <;> omega
        rcases lt_or_ge t 0 with g | g
        · left
          rw [← Int.add_emod_right, Int.emod_eq_of_lt (by omega) (by omega)] at t3; omega
        · rcases lt_or_ge t n with g' | g'
          · right; left
            rw [Int.emod_eq_of_lt g g'] at t3; exact t3
          · right; right
            have : t % (n : ℤ) = (t - n) % n := by simp
            rw [this, Int.emod_eq_of_lt (by omega) (by omega)] at t3; omega
      rcases ht with rfl | rfl | rfl
      · -- reached by wrapping to the left
        rcases hleft with ⟨_, _, _, hq⟩ | ⟨g1, g2, g3, hq⟩
        · rw [hq] at t1; push_cast at t1; omega
        · rw [hq] at t1
          have hLD : L ≤ D := by push_cast at t1; omega
          refine ⟨max (E D) zl, le_max_left _ _, ?_, -1, ?_, ?_⟩
          · exact max_lt hnd (lt_of_lt_of_le l4 (hmono (by omega) (by omega)))
          · have := le_max_right (E D) zl
            push_cast; linarith
          · have h5 : max (E D) zl ≤ box := max_le (hEle D (by omega)) zl1.le
            push_cast; linarith
      · rcases Nat.lt_or_ge P D with hPD | hPD
        · -- to the right of the own domain
          have hED : E (P + 1) ≤ E D := hmono (by omega) (by omega)
          refine ⟨E D, le_rfl, hnd, 0, by push_cast; linarith, ?_⟩
          rcases hright with ⟨g1, g2, g3, hq⟩ | ⟨g1, g2, g3, hq⟩
          · rw [hq] at t2
            have hDR : D ≤ R := by push_cast at t2; omega
            have := hmono hDR (by omega)
            push_cast; linarith
          · have := hEle D (by omega)
            push_cast; linarith
        · refine ⟨max (E D) (c - s), le_max_left _ _, ?_, 0, ?_, ?_⟩
          · refine max_lt hnd ?_
            rcases hleft with ⟨g1, g2, g3, hq⟩ | ⟨g1, g2, g3, hq⟩
            · rw [hq] at t1
              have hLD : L ≤ D := by push_cast at t1; omega
              rw [← g2]
              exact lt_of_lt_of_le l4 (hmono (by omega) (by omega))
            · exact lt_of_lt_of_le g1 (hEnn _ (by omega))
          · have := le_max_right (E D) (c - s)
            push_cast; linarith
          · have h5 : max (E D) (c - s) ≤ c :=
              max_le (le_trans (hmono hPD (by omega)) p3) (by linarith)
            push_cast; linarith
      · rcases hright with ⟨_, _, _, hq⟩ | ⟨g1, g2, g3, hq⟩
        · rw [hq] at t2; push_cast at t2; omega
        · rw [hq] at t2
          have hDR : D ≤ R := by push_cast at t2; omega
          have hER := hmono hDR (by omega)
          have := hEnn D (by omega)
          refine ⟨E D, le_rfl, hnd, 1, by push_cast; linarith, by push_cast; linarith⟩
    · rintro ⟨z, z1, z2, m, m1, m2⟩
      refine ⟨?_, lt_of_le_of_lt z1 z2⟩
      have hz := hidx hD z1 z2
      have z0 : 0 ≤ z := le_trans (hEnn D (by omega)) z1
      have zb : z < box := lt_of_lt_of_le z2 (hEle _ (by omega))
      have hm1 : m < 2 := by
        by_contra hcon
        have : (2 : K) ≤ m := by exact_mod_cast not_lt.1 hcon
        have := mul_le_mul_of_nonneg_right this hb.le
        linarith
      have hm2 : -2 < m := by
        by_contra hcon
        have : (m : K) ≤ -2 := by exact_mod_cast not_lt.1 hcon
        have := mul_le_mul_of_nonneg_right this hb.le
        linarith
      have hm : m = -1 ∨ m = 0 ∨ m = 1 := by omega
      rcases hm with rfl | rfl | rfl
      · push_cast at m1 m2
        rcases hleft with ⟨g1, _, _, hq⟩ | ⟨g1, g2, g3, hq⟩
        · linarith
        · have hLD : L ≤ D := by
            have := digitize_mono (e := e) (z := zl) (z' := z) (by linarith)
            omega
          refine ⟨(D : ℤ) - n, ?_, ?_, ?_⟩
          · rw [hq]; push_cast; omega
          · rcases hright with ⟨_, _, _, hr⟩ | ⟨_, _, _, hr⟩ <;> rw [hr] <;> push_cast <;> omega
          · rw [← Int.add_emod_right, Int.emod_eq_of_lt] <;> omega
      · push_cast at m1 m2
        refine ⟨D, ?_, ?_, Int.emod_eq_of_lt (by omega) (by omega)⟩
        · rcases hleft with ⟨g1, g2, g3, hq⟩ | ⟨g1, g2, g3, hq⟩
          · have hLD : L ≤ D := by
              have := digitize_mono (e := e) (z := zl) (z' := z) (by linarith)
              omega
            rw [hq]; push_cast; omega
          · rw [hq]; push_cast; omega
        · rcases hright with ⟨g1, g2, g3, hq⟩ | ⟨g1, g2, g3, hq⟩
          · have hDR : D ≤ R := by
              have := digitize_mono (e := e) (z := z) (z' := zr) (by linarith)
              omega
            rw [hq]; push_cast; omega
          · rw [hq]; push_cast; omega
      · push_cast at m1 m2
        rcases hright with ⟨g1, _, _, hq⟩ | ⟨g1, g2, g3, hq⟩
        · linarith
        · have hDR : D ≤ R := by
            have := digitize_mono (e := e) (z := z) (z' := zr) (by linarith)
            omega
          refine ⟨(D : ℤ) + n, ?_, ?_, ?_⟩
          · rcases hleft with ⟨_, _, _, hr⟩ | ⟨_, _, _, hr⟩ <;> rw [hr] <;> push_cast <;> omega
          · rw [hq]; push_cast; omega
          · simp only [Int.add_emod_right]
            exact Int.emod_eq_of_lt (by omega) (by omega)

end
end Pmesh

namespace Pmesh
section
variable {K : Type*} [Field K] [LinearOrder K] [IsStrictOrderedRing K] [FloorRing K]

/-- `sil < sir` along a periodic axis. -/
theorem axisRange_periodic_le {e : List K} (h : EdgesOK e) (s x : K) :
    (axisRange true e s x).1 ≤ (axisRange true e s x).2 := by
  have h2 := h.two
  have hn : (0 : ℤ) < ((e.length - 1 : ℕ) : ℤ) := by omega
  simp only [axisRange, if_true]
  have a1 := Int.emod_nonneg ((digitize (pyMod x (e.getLastD 0)) e : ℤ) -
    (digitize (pyMod (pyMod x (e.getLastD 0) - s) (e.getLastD 0)) e : ℤ)) hn.ne'
  have a2 := Int.emod_nonneg ((digitize (pyMod (pyMod x (e.getLastD 0) + s) (e.getLastD 0)) e : ℤ) -
    (digitize (pyMod x (e.getLastD 0)) e : ℤ)) hn.ne'
  linarith

/-- Along a non-periodic axis, the visited domains are exactly the ones meeting the interval. -/
theorem axis_open {e : List K} (h : EdgesOK e) {s : K} (hs : 0 ≤ s) (x : K)
    {D : ℕ} (hD : D < e.length - 1) :
    ((axisRange false e s x).1 ≤ (D : ℤ) ∧ (D : ℤ) < (axisRange false e s x).2 ∧
        e.getD D 0 < e.getD (D + 1) 0) ↔
      Meets s x (e.getD D 0) (e.getD (D + 1) 0) := by
  have h2 := h.two
  have a1 := lt_digitize_iff h.sorted (x - s) (i := D + 1) (by omega)
  have a2 := lt_digitize_iff h.sorted (x + s) (i := D) (by omega)
  simp only [axisRange, clipInt]
  have e1 : min (max ((digitize (x - s) e : ℤ) - 1) 0) ((e.length - 1 : ℕ) : ℤ) ≤ (D : ℤ) ↔
      x - s < e.getD (D + 1) 0 := by
    rw [← not_le, ← a1]
    omega
  have e2 : (D : ℤ) < min (max (digitize (x + s) e : ℤ) 0) ((e.length - 1 : ℕ) : ℤ) ↔
      e.getD D 0 ≤ x + s := by
    rw [← a2]; omega
  simp only [Bool.false_eq_true, if_false]
  rw [e1, e2]
  constructor
  · rintro ⟨g1, g2, g3⟩
    exact ⟨max (e.getD D 0) (x - s), le_max_right _ _, max_le g2 (by linarith), le_max_left _ _,
      max_lt g3 g1⟩
  · rintro ⟨y, y1, y2, y3, y4⟩
    exact ⟨lt_of_le_of_lt y1 y4, le_trans y3 y2, lt_of_le_of_lt y3 y4⟩

theorem axisRange_open_le (e : List K) {s : K} (hs : 0 ≤ s) (x : K) :
    (axisRange false e s x).1 ≤ (axisRange false e s x).2 ∧ 0 ≤ (axisRange false e s x).1 ∧
      (axisRange false e s x).2 ≤ ((e.length - 1 : ℕ) : ℤ) := by
  have := digitize_mono (e := e) (z := x - s) (z' := x + s) (by linarith)
  simp only [axisRange, clipInt, Bool.false_eq_true, if_false]
  omega

end
end Pmesh
