import Verif.Model.Rounding
import Verif.Lemmas.AxisArc
import Verif.Lemmas.Load

/-!
# Floating point: the wrapped coordinate and the range of domains along an axis
-/

set_option linter.unusedSectionVars false

namespace Pmesh

section
variable {K : Type*} [Field K] [LinearOrder K] [IsStrictOrderedRing K] [FloorRing K]

theorem cFmod_eq {b : K} (hb : 0 < b) (x : K) :
    cFmod x b = if 0 ≤ x ∨ pyMod x b = 0 then pyMod x b else pyMod x b - b := by
  unfold cFmod
  by_cases hx : 0 ≤ x
  · rw [if_pos (div_nonneg hx hb.le), if_pos (Or.inl hx)]
    rfl
  · have hx' : ¬ 0 ≤ x / b := not_le.2 (div_neg_of_neg_of_pos (not_le.1 hx) hb)
    rw [if_neg hx']
    by_cases h0 : pyMod x b = 0
    · rw [if_pos (Or.inr h0)]
      have h1 : x / b = (⌊x / b⌋ : K) := by
        unfold pyMod at h0
        rw [div_eq_iff hb.ne']
        linarith
      have : ⌈x / b⌉ = ⌊x / b⌋ := by rw [h1, Int.ceil_intCast, Int.floor_intCast]
      rw [this]
      rfl
    · rw [if_neg (by tauto)]
      have h1 : ⌈x / b⌉ = ⌊x / b⌋ + 1 := by
        rw [Int.ceil_eq_iff]
        have h2 := Int.floor_le (x / b)
        have h3 := Int.lt_floor_add_one (x / b)
        push_cast
        refine ⟨?_, h3.le⟩
        rw [add_sub_cancel_right]
        refine lt_of_le_of_ne h2 fun h => h0 ?_
        unfold pyMod
        rw [h, mul_div_cancel₀ _ hb.ne', sub_self]
      rw [h1]
      unfold pyMod
      push_cast
      ring

theorem fpMod_eq (R : Rounding K) {b : K} (hb : 0 < b) (x : K) :
    fpMod R x b = if 0 ≤ x then pyMod x b else R.rnd (pyMod x b) := by
  have h0 := pyMod_nonneg x hb
  have h1 := pyMod_lt x hb
  have hnb : ¬ b < 0 := not_lt.2 hb.le
  unfold fpMod
  simp only [cFmod_eq hb]
  by_cases hx : 0 ≤ x
  · rw [if_pos (Or.inl hx), if_pos hx]
    simp only [hnb, not_lt.2 h0, decide_false, bne_self_eq_false, Bool.false_eq_true, if_false]
    split_ifs with h
    · rfl
    · exact (not_not.1 h).symm
  · rw [if_neg hx]
    by_cases hz : pyMod x b = 0
    · rw [if_pos (Or.inr hz), hz, R.zero]
      simp
    · have h2 : pyMod x b - b < 0 := by linarith
      have h3 : (if 0 ≤ x ∨ pyMod x b = 0 then pyMod x b else pyMod x b - b) = pyMod x b - b := if_neg (by tauto)
      simp only [h3]
      simp [h2, h2.ne, hnb]

theorem fpMod_nonneg (R : Rounding K) {b : K} (hb : 0 < b) (x : K) : 0 ≤ fpMod R x b := by
  rw [fpMod_eq R hb]
  split_ifs
  · exact pyMod_nonneg x hb
  · rw [← R.zero]
    exact R.mono (pyMod_nonneg x hb)

theorem fpMod_le (R : Rounding K) {b : K} (hb : 0 < b) (hr : R.rnd b = b) (x : K) : fpMod R x b ≤ b := by
  rw [fpMod_eq R hb]
  split_ifs
  · exact (pyMod_lt x hb).le
  · rw [← hr]
    conv_lhs => rw [hr]
    exact R.mono (pyMod_lt x hb).le

theorem fpMod_rep (R : Rounding K) {b : K} (hb : 0 < b) (hr : R.rnd b = b) {x : K} (hx : R.rnd x = x) :
    R.rnd (fpMod R x b) = fpMod R x b := by
  rw [fpMod_eq R hb]
  split_ifs with h
  · have := R.fmod x b hx hr
    rwa [cFmod_eq hb, if_pos (Or.inl h)] at this
  · exact R.idem _

theorem pyMod_self_of {b x : K} (hb : 0 < b) (h0 : 0 ≤ x) (h1 : x < b) : pyMod x b = x :=
  pyMod_eq_of hb h0 h1 0 (by push_cast; ring)

theorem digitize_box {e : List K} (h : EdgesOK e) : digitize (e.getLastD 0) e = e.length := by
  unfold digitize
  rw [List.countP_eq_length]
  intro a ha
  obtain ⟨i, hi, rfl⟩ := List.getElem_of_mem ha
  rw [decide_eq_true_eq, h.last, ← List.getD_eq_getElem _ 0 hi]
  exact getD_le_of_sorted h.sorted (by omega) (by omega)

theorem digitize_first {e : List K} (h : EdgesOK e) (h1 : 0 < e.getD 1 0) : digitize 0 e = 1 := by
  have := h.two
  exact h.digitize_eq (D := 0) (by omega) h.first.le (by simpa using h1)

/-- A coordinate in `[0, box]`, with `box` read as `0`. -/
def foldBox (b z : K) : K := if z = b then 0 else z

theorem foldBox_spec {b z : K} (hb : 0 < b) (h0 : 0 ≤ z) (h1 : z ≤ b) :
    0 ≤ foldBox b z ∧ foldBox b z < b ∧ ∃ m : ℤ, z = foldBox b z + m * b := by
  unfold foldBox
  split_ifs with h
  · exact ⟨le_rfl, hb, 1, by rw [h]; push_cast; ring⟩
  · exact ⟨h0, lt_of_le_of_ne h1 h, 0, by push_cast; ring⟩

theorem digitize_foldBox {e : List K} (h : EdgesOK e) (h1 : 0 < e.getD 1 0) {z : K} :
    ∃ k : ℤ, (digitize z e : ℤ) = digitize (foldBox (e.getLastD 0) z) e + k * ((e.length - 1 : ℕ) : ℤ) := by
  have := h.two
  unfold foldBox
  split_ifs with hz
  · refine ⟨1, ?_⟩
    rw [hz, digitize_box h, digitize_first h h1]
    push_cast
    omega
  · exact ⟨0, by push_cast; ring⟩

/-- What the floating point code does along one axis is what the exact code would do for a slightly different interval: the wrapped
coordinate is off by at most one rounding, the ends by at most two. -/
theorem axisRangeR_arc (R : Rounding K) {e : List K} (h : EdgesOK e) (h1 : 0 < e.getD 1 0) (hbox : R.rnd (e.getLastD 0) = e.getLastD 0)
    {s x δ : K} (hs : 0 ≤ s) (hsb : s ≤ e.getLastD 0) (hx : R.rnd x = x)
    (hδ : ∀ y, |y| ≤ 2 * e.getLastD 0 → |R.rnd y - y| ≤ δ) :
    ∃ c u v : K, c = foldBox (e.getLastD 0) (fpMod R x (e.getLastD 0)) ∧ 0 ≤ c ∧ c < e.getLastD 0 ∧ 0 ≤ u ∧ 0 ≤ v ∧
      |u - s| ≤ 2 * δ ∧ |v - s| ≤ 2 * δ ∧ (s = 0 → u = 0 ∧ v = 0) ∧ (∃ m : ℤ, |c + m * e.getLastD 0 - x| ≤ δ) ∧
      v = R.rnd (fpMod R x (e.getLastD 0) + s) - fpMod R x (e.getLastD 0) ∧
      ((∀ d < e.length - 1, (u + (e.getD (d + 1) 0 - e.getD d 0) ≤ e.getLastD 0 ∧
        v + (e.getD (d + 1) 0 - e.getD d 0) ≤ e.getLastD 0) ∨ e.getD (d + 1) 0 - e.getD d 0 = e.getLastD 0) →
      ∀ D < e.length - 1, ((∃ t : ℤ, (axisRangeR R true e s x).1 ≤ t ∧ t < (axisRangeR R true e s x).2 ∧
        t % ((e.length - 1 : ℕ) : ℤ) = D) ∧ e.getD D 0 < e.getD (D + 1) 0) ↔
      ∃ z, e.getD D 0 ≤ z ∧ z < e.getD (D + 1) 0 ∧ ∃ m : ℤ, c - u ≤ z + m * e.getLastD 0 ∧ z + m * e.getLastD 0 ≤ c + v) := by
  set box := e.getLastD 0 with hboxe
  have hb : 0 < box := h.last_pos
  have hδ0 : 0 ≤ δ := le_trans (abs_nonneg _) (hδ 0 (by rw [abs_zero]; linarith))
  set cr := fpMod R x box with hcr
  have cr0 : 0 ≤ cr := fpMod_nonneg R hb x
  have cr1 : cr ≤ box := fpMod_le R hb hbox x
  have crr : R.rnd cr = cr := fpMod_rep R hb hbox hx
  set c := foldBox box cr with hc
  obtain ⟨c0, c1, mc, hmc⟩ := foldBox_spec hb cr0 cr1
  rw [← hc] at c0 c1 hmc
  set yl := R.rnd (cr - s) with hyl
  set yr := R.rnd (cr + s) with hyr
  have hyl1 : yl ≤ cr := by rw [← crr]; exact R.mono (by linarith)
  have hyr1 : cr ≤ yr := by rw [← crr]; exact R.mono (by linarith)
  have el : |yl - (cr - s)| ≤ δ := hδ _ (by rw [abs_le]; constructor <;> linarith)
  have er : |yr - (cr + s)| ≤ δ := hδ _ (by rw [abs_le]; constructor <;> linarith)
  rw [abs_le] at el er
  -- the left end
  have hzl0 := fpMod_nonneg R hb yl
  have hzl1 := fpMod_le R hb hbox yl
  obtain ⟨zl0, zl1, ml, hml⟩ := foldBox_spec hb hzl0 hzl1
  set zl := foldBox box (fpMod R yl box) with hzl
  obtain ⟨ul, hul0, hulm, hule, huls⟩ : ∃ ul : K, 0 ≤ ul ∧ (∃ m : ℤ, cr - ul = fpMod R yl box + m * box) ∧ |ul - s| ≤ 2 * δ ∧
      (s = 0 → ul = 0) := by
    by_cases hy : 0 ≤ yl
    · refine ⟨cr - yl, by linarith, ?_, ?_, ?_⟩
      · obtain ⟨m, hm⟩ := pyMod_spec yl box
        refine ⟨m, ?_⟩
        rw [fpMod_eq R hb, if_pos hy]
        linarith
      · rw [abs_le]; constructor <;> linarith [el.1, el.2]
      · rintro rfl
        rw [hyl, sub_zero, crr, sub_self]
    · push Not at hy
      obtain ⟨m, hm⟩ := pyMod_spec yl box
      have w0 := pyMod_nonneg yl hb
      have w1 := pyMod_lt yl hb
      have hz : fpMod R yl box = R.rnd (pyMod yl box) := by rw [fpMod_eq R hb, if_neg (not_le.2 hy)]
      have ez : |R.rnd (pyMod yl box) - pyMod yl box| ≤ δ := hδ _ (by rw [abs_of_nonneg w0]; linarith)
      rw [← hz, abs_le] at ez
      have hm1 : m ≤ -1 := by
        by_contra hcon
        have : (0 : K) ≤ m := by exact_mod_cast (by omega : (0 : ℤ) ≤ m)
        have := mul_nonneg this hb.le
        linarith
      have hm2 : (m : K) * box ≤ -box := by
        have : (m : K) ≤ -1 := by exact_mod_cast hm1
        nlinarith
      refine ⟨cr - (fpMod R yl box + m * box), by linarith, ⟨m, by ring⟩, ?_, ?_⟩
      · rw [abs_le]; constructor <;> linarith [el.1, el.2, ez.1, ez.2]
      · rintro rfl
        rw [hyl, sub_zero, crr] at hy
        linarith
  -- the right end
  have hyr0 : 0 ≤ yr := le_trans cr0 hyr1
  have hzr : fpMod R yr box = pyMod yr box := by rw [fpMod_eq R hb, if_pos hyr0]
  have huv : ∀ {w z : K} (m : ℤ), 0 ≤ z → z < box → w = z + m * box → pyMod w box = z := fun m a b c => pyMod_eq_of hb a b m c
  obtain ⟨mu, hmu⟩ := hulm
  have hpl : pyMod (c - ul) box = zl := by
    apply huv (mu + ml - mc) zl0 zl1
    push_cast
    linarith
  have hpr : pyMod (c + (yr - cr)) box = fpMod R yr box := by
    rw [hzr]
    obtain ⟨m, hm⟩ := pyMod_spec yr box
    apply huv (m - mc) (pyMod_nonneg _ hb) (pyMod_lt _ hb)
    push_cast
    linarith
  refine ⟨c, ul, yr - cr, rfl, c0, c1, hul0, by linarith, hule, ?_, ?_, ?_, rfl, ?_⟩
  · rw [abs_le]; constructor <;> linarith [er.1, er.2]
  · rintro rfl
    exact ⟨huls rfl, by rw [hyr, add_zero, crr, sub_self]⟩
  · obtain ⟨m, hm⟩ := pyMod_spec x box
    refine ⟨mc + m, ?_⟩
    have w0 := pyMod_nonneg x hb
    have w1 := pyMod_lt x hb
    have : |cr - pyMod x box| ≤ δ := by
      rw [hcr, fpMod_eq R hb]
      split_ifs
      · rw [sub_self, abs_zero]; exact hδ0
      · exact hδ _ (by rw [abs_of_nonneg w0]; linarith)
    have e2 : c + ((mc + m : ℤ) : K) * box - x = cr - pyMod x box := by
      push_cast
      linarith
    rw [e2]
    exact this
  · intro hwrap D hD
    have hrange : axisRangeR R true e s x =
        ((digitize cr e : ℤ) - ((digitize cr e : ℤ) - digitize (fpMod R yl box) e) % ((e.length - 1 : ℕ) : ℤ) - 1,
          (digitize cr e : ℤ) + ((digitize (fpMod R yr box) e : ℤ) - digitize cr e) % ((e.length - 1 : ℕ) : ℤ)) := rfl
    rw [hrange]
    refine axis_arc h c0 c1 hul0 (by linarith) hwrap (digitize_foldBox h h1) ?_ ?_ hD
    · rw [hpl]
      exact digitize_foldBox h h1
    · rw [hpr]
      exact ⟨0, by push_cast; ring⟩

theorem axisRangeR_le (R : Rounding K) {e : List K} (h : EdgesOK e) (s x : K) :
    (axisRangeR R true e s x).1 ≤ (axisRangeR R true e s x).2 := by
  have h2 := h.two
  have hn : (0 : ℤ) < ((e.length - 1 : ℕ) : ℤ) := by omega
  simp only [axisRangeR, if_true]
  generalize (digitize (fpMod R x (e.getLastD 0)) e : ℤ) = p
  generalize (digitize (fpMod R (R.rnd (fpMod R x (e.getLastD 0) - s)) (e.getLastD 0)) e : ℤ) = l
  generalize (digitize (fpMod R (R.rnd (fpMod R x (e.getLastD 0) + s)) (e.getLastD 0)) e : ℤ) = r
  have a1 := Int.emod_nonneg (p - l) hn.ne'
  have a2 := Int.emod_nonneg (r - p) hn.ne'
  linarith

end
end Pmesh
