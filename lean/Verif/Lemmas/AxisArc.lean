import Verif.Lemmas.Axis

/-!
# The domains visited along a periodic axis, for an interval that reaches differently far to both sides
-/

set_option linter.unusedSectionVars false

namespace Pmesh

section
variable {K : Type*} [Field K] [LinearOrder K] [IsStrictOrderedRing K] [FloorRing K]

/-- `axis_periodic` for an interval `[c - u, c + v]` around a wrapped coordinate. -/
theorem axis_arc0 {e : List K} (h : EdgesOK e) {c u v : K} (c0 : 0 ≤ c) (c1 : c < e.getLastD 0) (hu : 0 ≤ u) (hv : 0 ≤ v)
    (hwrap : ∀ d < e.length - 1, (u + (e.getD (d + 1) 0 - e.getD d 0) ≤ e.getLastD 0 ∧
        v + (e.getD (d + 1) 0 - e.getD d 0) ≤ e.getLastD 0) ∨ e.getD (d + 1) 0 - e.getD d 0 = e.getLastD 0)
    {D : ℕ} (hD : D < e.length - 1) :
    ((∃ t : ℤ, (digitize c e : ℤ) - ((digitize c e : ℤ) - digitize (pyMod (c - u) (e.getLastD 0)) e) %
          ((e.length - 1 : ℕ) : ℤ) - 1 ≤ t ∧
        t < (digitize c e : ℤ) + ((digitize (pyMod (c + v) (e.getLastD 0)) e : ℤ) - digitize c e) % ((e.length - 1 : ℕ) : ℤ) ∧
        t % ((e.length - 1 : ℕ) : ℤ) = D) ∧ e.getD D 0 < e.getD (D + 1) 0) ↔
      ∃ z, e.getD D 0 ≤ z ∧ z < e.getD (D + 1) 0 ∧ ∃ m : ℤ, c - u ≤ z + m * e.getLastD 0 ∧ z + m * e.getLastD 0 ≤ c + v := by
  have h2 := h.two
  have hlast := h.last
  set n : ℕ := e.length - 1 with hn
  set box : K := e.getLastD 0 with hbox
  have hb : 0 < box := h.last_pos
  set E : ℕ → K := fun i => e.getD i 0 with hE
  have hmono : ∀ {i j : ℕ}, i ≤ j → j ≤ n → E i ≤ E j :=
    fun {i j} hij hj => getD_le_of_sorted h.sorted hij (by omega)
  have hE0 : E 0 = 0 := h.first
  have hEn : E n = box := hlast.symm
  have hEnn : ∀ i ≤ n, 0 ≤ E i := fun i hi => by rw [← hE0]; exact hmono (by omega) hi
  have hEle : ∀ i ≤ n, E i ≤ box := fun i hi => by rw [← hEn]; exact hmono hi le_rfl
  set zl := pyMod (c - u) box with hzl
  set zr := pyMod (c + v) box with hzr
  have zl0 : 0 ≤ zl := pyMod_nonneg _ hb
  have zl1 : zl < box := pyMod_lt _ hb
  have zr0 : 0 ≤ zr := pyMod_nonneg _ hb
  have zr1 : zr < box := pyMod_lt _ hb
  obtain ⟨p1, p2, p3, p4⟩ := h.digitize_spec c0 c1
  obtain ⟨l1, l2, l3, l4⟩ := h.digitize_spec zl0 zl1
  obtain ⟨r1, r2, r3, r4⟩ := h.digitize_spec zr0 zr1
  obtain ⟨P, hP⟩ : ∃ P, digitize c e = P + 1 := ⟨digitize c e - 1, by omega⟩
  obtain ⟨L, hL⟩ : ∃ L, digitize zl e = L + 1 := ⟨digitize zl e - 1, by omega⟩
  obtain ⟨R, hR⟩ : ∃ R, digitize zr e = R + 1 := ⟨digitize zr e - 1, by omega⟩
  rw [hP] at p2 p3 p4
  rw [hL] at l2 l3 l4
  rw [hR] at r2 r3 r4
  simp only [Nat.add_sub_cancel] at p3 l3 r3
  change E P ≤ c at p3
  change c < E (P + 1) at p4
  change E L ≤ zl at l3
  change zl < E (L + 1) at l4
  change E R ≤ zr at r3
  change zr < E (R + 1) at r4
  rw [hP, hL, hR]
  change (_ ∧ E D < E (D + 1)) ↔ ∃ z, E D ≤ z ∧ z < E (D + 1) ∧ _
  have hidx : ∀ {z : K} {i : ℕ}, i < n → E i ≤ z → z < E (i + 1) → digitize z e = i + 1 :=
    fun {z i} hi a b => h.digitize_eq hi a b
  have hlt : ∀ {i j : ℕ}, i ≤ n → j ≤ n → E i < E j → i < j := by
    intro i j hi hj hh
    by_contra hcon
    exact absurd (hmono (not_lt.1 hcon) hi) (not_le.2 hh)
  have hPn : P < n := by omega
  rcases hwrap P hPn with hw | hw
  swap
  · -- the axis has one non-empty domain only
    change E (P + 1) - E P = box at hw
    have e0 : E P = 0 := le_antisymm (by have := hEle (P+1) (by omega); linarith) (hEnn P (by omega))
    have e1 : E (P + 1) = box := by linarith
    have hall : ∀ z, 0 ≤ z → z < box → digitize z e = P + 1 :=
      fun z a b => hidx hPn (by rw [e0]; exact a) (by rw [e1]; exact b)
    have hLP : L = P := by have := hall zl zl0 zl1; omega
    have hRP : R = P := by have := hall zr zr0 zr1; omega
    constructor
    · rintro ⟨⟨t, t1, t2, t3⟩, hnd⟩
      rw [hLP] at t1
      rw [hRP] at t2
      simp only [sub_self, Int.zero_emod] at t1 t2
      have ht : t = P := by push_cast at t1 t2; omega
      rw [ht, Int.emod_eq_of_lt (by omega) (by omega)] at t3
      have hDP : D = P := by omega
      rw [hDP]
      exact ⟨c, p3, p4, 0, by push_cast; linarith, by push_cast; linarith⟩
    · rintro ⟨z, z1, z2, -⟩
      have := hall z (le_trans (hEnn D (by omega)) z1) (lt_of_lt_of_le z2 (hEle _ (by omega)))
      have h3 := hidx hD z1 z2
      have hDP : D = P := by omega
      refine ⟨⟨D, ?_, ?_, ?_⟩, lt_of_le_of_lt z1 z2⟩
      · rw [hLP, hDP]; simp
      · rw [hRP, hDP]; push_cast; simp
      · exact Int.emod_eq_of_lt (by omega) (by omega)
  · obtain ⟨hw1, hw2⟩ := hw
    change u + (E (P + 1) - E P) ≤ box at hw1
    change v + (E (P + 1) - E P) ≤ box at hw2
    have hsb1 : u < box := by linarith
    have hsb2 : v < box := by linarith
    -- the two end points of the range
    have hleft : (0 ≤ c - u ∧ zl = c - u ∧ L ≤ P ∧
          (((P + 1 : ℕ) : ℤ) - ((L + 1 : ℕ) : ℤ)) % (n : ℤ) = (P : ℤ) - L) ∨
        (c - u < 0 ∧ zl = c - u + box ∧ P < L ∧
          (((P + 1 : ℕ) : ℤ) - ((L + 1 : ℕ) : ℤ)) % (n : ℤ) = (P : ℤ) - L + n) := by
      rcases le_or_gt 0 (c - u) with hh | hh
      · left
        have ez : zl = c - u := by
          rw [hzl]; exact pyMod_eq_of hb hh (by linarith) 0 (by push_cast; ring)
        have hLP : L ≤ P := by
          have := digitize_mono (e := e) (z := zl) (z' := c) (by linarith)
          omega
        refine ⟨hh, ez, hLP, ?_⟩
        push_cast
        rw [Int.emod_eq_of_lt] <;> omega
      · right
        have ez : zl = c - u + box := by
          rw [hzl]; exact pyMod_eq_of hb (by linarith) (by linarith) (-1) (by push_cast; ring)
        have hPL : P < L := by
          have : E (P + 1) ≤ zl := by rw [ez]; linarith
          have : E (P + 1) < E (L + 1) := lt_of_le_of_lt this l4
          have := hlt (by omega) (by omega) this
          omega
        refine ⟨hh, ez, hPL, ?_⟩
        push_cast
        rw [← Int.add_emod_right, Int.emod_eq_of_lt] <;> omega
    have hright : (c + v < box ∧ zr = c + v ∧ P ≤ R ∧
          (((R + 1 : ℕ) : ℤ) - ((P + 1 : ℕ) : ℤ)) % (n : ℤ) = (R : ℤ) - P) ∨
        (box ≤ c + v ∧ zr = c + v - box ∧ R < P ∧
          (((R + 1 : ℕ) : ℤ) - ((P + 1 : ℕ) : ℤ)) % (n : ℤ) = (R : ℤ) - P + n) := by
      rcases lt_or_ge (c + v) box with hh | hh
      · left
        have ez : zr = c + v := by
          rw [hzr]; exact pyMod_eq_of hb (by linarith) hh 0 (by push_cast; ring)
        have hPR : P ≤ R := by
          have := digitize_mono (e := e) (z := c) (z' := zr) (by linarith)
          omega
        refine ⟨hh, ez, hPR, ?_⟩
        push_cast
        rw [Int.emod_eq_of_lt] <;> omega
      · right
        have ez : zr = c + v - box := by
          rw [hzr]; exact pyMod_eq_of hb (by linarith) (by linarith) 1 (by push_cast; ring)
        have hRP : R < P := by
          have : E R < E P := by
            have : zr < E P := by rw [ez]; linarith
            exact lt_of_le_of_lt r3 this
          exact hlt (by omega) (by omega) this
        refine ⟨hh, ez, hRP, ?_⟩
        push_cast
        rw [← Int.add_emod_right, Int.emod_eq_of_lt] <;> omega
    constructor
    · rintro ⟨⟨t, t1, t2, t3⟩, hnd⟩
      have ht : t = D - n ∨ t = D ∨ t = D + n := by
        have hb1 : -(n : ℤ) ≤ t := by
          rcases hleft with ⟨_, _, _, hq⟩ | ⟨_, _, _, hq⟩ <;> rw [hq] at t1 <;> push_cast at t1 <;> omega
        have hb2 : t < 2 * n := by
          rcases hright with ⟨_, _, _, hq⟩ | ⟨_, _, _, hq⟩ <;> rw [hq] at t2 <;> push_cast at t2 <;> omega
        rcases lt_or_ge t 0 with g | g
        · left
          rw [← Int.add_emod_right, Int.emod_eq_of_lt (by omega) (by omega)] at t3; omega
        · rcases lt_or_ge t n with g' | g'
          · right; left
            rw [Int.emod_eq_of_lt g g'] at t3; exact t3
          · right; right
            have : t % (n : ℤ) = (t - n) % n := by simp
            rw [this, Int.emod_eq_of_lt (by omega) (by omega)] at t3; omega
      rcases ht with rfl | rfl | rfl
      · -- reached by wrapping to the left
        rcases hleft with ⟨_, _, _, hq⟩ | ⟨g1, g2, g3, hq⟩
        · rw [hq] at t1; push_cast at t1; omega
        · rw [hq] at t1
          have hLD : L ≤ D := by push_cast at t1; omega
          refine ⟨max (E D) zl, le_max_left _ _, ?_, -1, ?_, ?_⟩
          · exact max_lt hnd (lt_of_lt_of_le l4 (hmono (by omega) (by omega)))
          · have := le_max_right (E D) zl
            push_cast; linarith
          · have h5 : max (E D) zl ≤ box := max_le (hEle D (by omega)) zl1.le
            push_cast; linarith
      · rcases Nat.lt_or_ge P D with hPD | hPD
        · -- to the right of the own domain
          have hED : E (P + 1) ≤ E D := hmono (by omega) (by omega)
          refine ⟨E D, le_rfl, hnd, 0, by push_cast; linarith, ?_⟩
          rcases hright with ⟨g1, g2, g3, hq⟩ | ⟨g1, g2, g3, hq⟩
          · rw [hq] at t2
            have hDR : D ≤ R := by push_cast at t2; omega
            have := hmono hDR (by omega)
            push_cast; linarith
          · have := hEle D (by omega)
            push_cast; linarith
        · refine ⟨max (E D) (c - u), le_max_left _ _, ?_, 0, ?_, ?_⟩
          · refine max_lt hnd ?_
            rcases hleft with ⟨g1, g2, g3, hq⟩ | ⟨g1, g2, g3, hq⟩
            · rw [hq] at t1
              have hLD : L ≤ D := by push_cast at t1; omega
              rw [← g2]
              exact lt_of_lt_of_le l4 (hmono (by omega) (by omega))
            · exact lt_of_lt_of_le g1 (hEnn _ (by omega))
          · have := le_max_right (E D) (c - u)
            push_cast; linarith
          · have h5 : max (E D) (c - u) ≤ c :=
              max_le (le_trans (hmono hPD (by omega)) p3) (by linarith)
            push_cast; linarith
      · rcases hright with ⟨_, _, _, hq⟩ | ⟨g1, g2, g3, hq⟩
        · rw [hq] at t2; push_cast at t2; omega
        · rw [hq] at t2
          have hDR : D ≤ R := by push_cast at t2; omega
          have hER := hmono hDR (by omega)
          have := hEnn D (by omega)
          refine ⟨E D, le_rfl, hnd, 1, by push_cast; linarith, by push_cast; linarith⟩
    · rintro ⟨z, z1, z2, m, m1, m2⟩
      refine ⟨?_, lt_of_le_of_lt z1 z2⟩
      have hz := hidx hD z1 z2
      have z0 : 0 ≤ z := le_trans (hEnn D (by omega)) z1
      have zb : z < box := lt_of_lt_of_le z2 (hEle _ (by omega))
      have hm1 : m < 2 := by
        by_contra hcon
        have : (2 : K) ≤ m := by exact_mod_cast not_lt.1 hcon
        have := mul_le_mul_of_nonneg_right this hb.le
        linarith
      have hm2 : -2 < m := by
        by_contra hcon
        have : (m : K) ≤ -2 := by exact_mod_cast not_lt.1 hcon
        have := mul_le_mul_of_nonneg_right this hb.le
        linarith
      have hm : m = -1 ∨ m = 0 ∨ m = 1 := by omega
      rcases hm with rfl | rfl | rfl
      · push_cast at m1 m2
        rcases hleft with ⟨g1, _, _, hq⟩ | ⟨g1, g2, g3, hq⟩
        · linarith
        · have hLD : L ≤ D := by
            have := digitize_mono (e := e) (z := zl) (z' := z) (by linarith)
            omega
          refine ⟨(D : ℤ) - n, ?_, ?_, ?_⟩
          · rw [hq]; push_cast; omega
          · rcases hright with ⟨_, _, _, hr⟩ | ⟨_, _, _, hr⟩ <;> rw [hr] <;> push_cast <;> omega
          · rw [← Int.add_emod_right, Int.emod_eq_of_lt] <;> omega
      · push_cast at m1 m2
        refine ⟨D, ?_, ?_, Int.emod_eq_of_lt (by omega) (by omega)⟩
        · rcases hleft with ⟨g1, g2, g3, hq⟩ | ⟨g1, g2, g3, hq⟩
          · have hLD : L ≤ D := by
              have := digitize_mono (e := e) (z := zl) (z' := z) (by linarith)
              omega
            rw [hq]; push_cast; omega
          · rw [hq]; push_cast; omega
        · rcases hright with ⟨g1, g2, g3, hq⟩ | ⟨g1, g2, g3, hq⟩
          · have hDR : D ≤ R := by
              have := digitize_mono (e := e) (z := z) (z' := zr) (by linarith)
              omega
            rw [hq]; push_cast; omega
          · rw [hq]; push_cast; omega
      · push_cast at m1 m2
        rcases hright with ⟨g1, _, _, hq⟩ | ⟨g1, g2, g3, hq⟩
        · linarith
        · have hDR : D ≤ R := by
            have := digitize_mono (e := e) (z := z) (z' := zr) (by linarith)
            omega
          refine ⟨(D : ℤ) + n, ?_, ?_, ?_⟩
          · rcases hleft with ⟨_, _, _, hr⟩ | ⟨_, _, _, hr⟩ <;> rw [hr] <;> push_cast <;> omega
          · rw [hq]; push_cast; omega
          · simp only [Int.add_emod_right]
            exact Int.emod_eq_of_lt (by omega) (by omega)


/-- The same with any representatives modulo the number of domains. -/
theorem axis_arc {e : List K} (h : EdgesOK e) {c u v : K} (c0 : 0 ≤ c) (c1 : c < e.getLastD 0) (hu : 0 ≤ u) (hv : 0 ≤ v)
    (hwrap : ∀ d < e.length - 1, (u + (e.getD (d + 1) 0 - e.getD d 0) ≤ e.getLastD 0 ∧
        v + (e.getD (d + 1) 0 - e.getD d 0) ≤ e.getLastD 0) ∨ e.getD (d + 1) 0 - e.getD d 0 = e.getLastD 0)
    {p l r : ℤ} (hp : ∃ k : ℤ, p = digitize c e + k * ((e.length - 1 : ℕ) : ℤ))
    (hl : ∃ k : ℤ, l = digitize (pyMod (c - u) (e.getLastD 0)) e + k * ((e.length - 1 : ℕ) : ℤ))
    (hr : ∃ k : ℤ, r = digitize (pyMod (c + v) (e.getLastD 0)) e + k * ((e.length - 1 : ℕ) : ℤ))
    {D : ℕ} (hD : D < e.length - 1) :
    ((∃ t : ℤ, p - (p - l) % ((e.length - 1 : ℕ) : ℤ) - 1 ≤ t ∧ t < p + (r - p) % ((e.length - 1 : ℕ) : ℤ) ∧
        t % ((e.length - 1 : ℕ) : ℤ) = D) ∧ e.getD D 0 < e.getD (D + 1) 0) ↔
      ∃ z, e.getD D 0 ≤ z ∧ z < e.getD (D + 1) 0 ∧ ∃ m : ℤ, c - u ≤ z + m * e.getLastD 0 ∧ z + m * e.getLastD 0 ≤ c + v := by
  rw [← axis_arc0 h c0 c1 hu hv hwrap hD]
  obtain ⟨kp, rfl⟩ := hp
  obtain ⟨kl, rfl⟩ := hl
  obtain ⟨kr, rfl⟩ := hr
  generalize ((e.length - 1 : ℕ) : ℤ) = n
  generalize (digitize c e : ℤ) = P
  generalize (digitize (pyMod (c - u) (e.getLastD 0)) e : ℤ) = L
  generalize (digitize (pyMod (c + v) (e.getLastD 0)) e : ℤ) = R
  rw [show P + kp * n - (L + kl * n) = P - L + (kp - kl) * n by ring, show R + kr * n - (P + kp * n) = R - P + (kr - kp) * n by ring,
    Int.add_mul_emod_self_right, Int.add_mul_emod_self_right]
  refine and_congr_left fun _ => ⟨?_, ?_⟩
  · rintro ⟨t, h1, h2, h3⟩
    refine ⟨t - kp * n, by linarith, by linarith, ?_⟩
    rw [Int.sub_mul_emod_self_right]
    exact h3
  · rintro ⟨t, h1, h2, h3⟩
    refine ⟨t + kp * n, by linarith, by linarith, ?_⟩
    rw [Int.add_mul_emod_self_right]
    exact h3

end
end Pmesh
