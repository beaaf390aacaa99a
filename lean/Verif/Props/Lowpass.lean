import Verif.Props.Abopt
import Verif.Props.FWindow

/-!
# C53: what `lowpass` does to the field; C55: compensation of the tabulated windows
-/

set_option linter.unusedSectionVars false

namespace Pmesh

open Complex

/-- The frequency of mode `k` on every axis, in units of the fundamental one, is at most `b`. -/
def InBand (b : ℤ) : List ℕ → List ℕ → Prop
  | n :: ns, k :: ks => ((min k (n - k) : ℕ) : ℤ) ≤ b ∧ InBand b ns ks
  | _, _ => True

instance InBand.dec (b : ℤ) : (ns ks : List ℕ) → Decidable (InBand b ns ks)
  | _ :: ns, _ :: ks => @instDecidableAnd _ _ _ (InBand.dec b ns ks)
  | [], _ => isTrue trivial
  | _ :: _, [] => isTrue trivial

theorem lowpassFilter_band {nmesh : List ℕ} {box : List ℝ} (hb : box.length = nmesh.length) (hbp : ∀ b ∈ box, 0 < b)
    (heven : ∀ n ∈ nmesh, n % 2 = 0) (neff : ℤ) {k : List ℕ} (hk : ValidIndex nmesh k) (v : ℂ) :
    lowpassFilter nmesh box neff k v = if InBand (neff / 2) nmesh k then v else 0 := by
  unfold lowpassFilter
  congr 1
  rw [eq_iff_iff]
  induction hk generalizing box with
  | nil => simp [InBand]
  | @cons n a ns as ha _ ih =>
    match box, hb with
    | b :: bs, hb =>
      have h1 := ih (box := bs) (by simpa using hb) (fun b hb => hbp b (by simp [hb])) (fun n hn => heven n (by simp [hn]))
      simp only [List.zip_cons_cons, List.zipWith_cons_cons, List.all_cons, id, Bool.and_eq_true, decide_eq_true_eq, InBand]
      rw [h1]
      apply and_congr_left'
      have hpos : 0 < 2 * Real.pi / b := div_pos (by have := Real.pi_pos; linarith) (hbp b (by simp))
      rw [abs_mul, abs_of_pos hpos, mul_le_mul_iff_left₀ hpos, ← Int.cast_abs, Int.cast_le]
      have he := heven n (by simp)
      have : |wrapIndex n (a : ℤ)| = ((min a (n - a) : ℕ) : ℤ) := by
        unfold wrapIndex
        split_ifs with h
        · rw [abs_of_nonpos (by omega)]; omega
        · rw [abs_of_nonneg (by omega)]; omega
      rw [this]

theorem inBand_opposite (b : ℤ) {nmesh k : List ℕ} (hk : ValidIndex nmesh k) : InBand b nmesh (opposite nmesh k) ↔ InBand b nmesh k := by
  unfold opposite
  induction hk with
  | nil => simp [InBand]
  | @cons n a ns as ha _ ih =>
    rw [List.zipWith_cons_cons, InBand, InBand, ih]
    apply and_congr_left'
    by_cases h0 : a = 0
    · subst h0; simp
    · rw [Nat.mod_eq_of_lt (by omega), show min (n - a) (n - (n - a)) = min a (n - a) by omega]

/-- **C53**, the operator `lowpass`: on meshes with even numbers of cells it keeps the modes whose frequency is at most `Neff // 2` on
every axis, whichever of the two opposite modes is stored, and removes all others. Partial: the numbers of cells must be even
(`C53_violated_lowpass_odd`). -/
theorem C53_lowpass_band_partial (nmesh cshape : List ℕ) (hne : nmesh ≠ []) (hpos : ∀ n ∈ nmesh, 0 < n) (hs : StoredShape nmesh cshape)
    (heven : ∀ n ∈ nmesh, n % 2 = 0) (box : List ℝ) (hb : box.length = nmesh.length) (hbp : ∀ b ∈ box, 0 < b) (neff : ℤ)
    (f : List ℕ → ℝ) (k : List ℕ) (hk : ValidIndex cshape k) :
    r2c nmesh (abLowpass nmesh cshape box neff f) k = if InBand (neff / 2) nmesh k then r2c nmesh f k else 0 := by
  unfold abLowpass
  rw [C29_r2c_c2r nmesh cshape hne hpos hs _ ?_ k hk, lowpassFilter_band hb hbp heven neff (stored_valid hs hne hpos hk)]
  intro i hi ho
  have hv := stored_valid hs hne hpos hi
  beta_reduce
  rw [lowpassFilter_band hb hbp heven neff (stored_valid hs hne hpos ho), lowpassFilter_band hb hbp heven neff hv]
  simp only [inBand_opposite _ hv]
  split_ifs
  · exact r2c_opposite nmesh f hv
  · simp

/-- **C53 violated** on a mesh with an odd number of cells: of five cells, mode 2 has frequency 2, but its coordinate is -3 times the
fundamental frequency, and `lowpass` with `Neff = 4` removes it. -/
theorem C53_violated_lowpass_odd :
    r2c [5] (abLowpass [5] [3] [1] 4 fun x => if x = [0] then 1 else 0) [2] = 0 ∧
    r2c [5] (fun x => if x = [0] then 1 else 0) [2] = 1 / 5 ∧ InBand (4 / 2) [5] [2] := by
  have hr : ∀ k, r2c [5] (fun x => if x = [0] then 1 else 0) [k] = 1 / 5 := by
    intro k
    have hnd : ndindex [5] = [[0], [1], [2], [3], [4]] := by decide
    simp [r2c, dftForward, hnd, phaseArg]
  refine ⟨?_, hr 2, by decide⟩
  unfold abLowpass
  have hpi := Real.pi_pos
  rw [C29_r2c_c2r [5] [3] (by simp) (by simp) (Or.inr rfl) _ ?_ [2] (by decide)]
  · have h2 : ¬ (2 * Real.pi * 3 ≤ 2 * (2 * Real.pi)) := by linarith
    have h3 : ¬ (|(2 : ℝ) - 5| ≤ 2) := by norm_num
    simp [lowpassFilter, wrapIndex, abs_mul, abs_of_pos hpi]
    norm_num
    intro h
    nlinarith
  · intro k hk ho
    have : k = [0] := by
      have hl := hk.len
      match k, hl with
      | [a], _ =>
        have ha := (validIndex_iff.1 hk).2 0 (by simp)
        have hb := (validIndex_iff.1 ho).2 0 (by simp)
        simp [opposite] at ha hb
        interval_cases a <;> simp_all
    subst this
    simp [opposite, lowpassFilter, wrapIndex, hr, hpi.le]
    exact (Complex.conj_ofNat 5).symm

/-- Non-vacuity of `C53_lowpass_band_partial`: a mesh of 4 times 6 cells in compressed storage. -/
example := C53_lowpass_band_partial [4, 6] [4, 4] (by simp) (by simp) (Or.inr rfl) (by simp) [1, 2] rfl (by simp) 3
  (fun x => if x = [0, 0] then 1 else 0) [3, 1] (by decide)

/-- For the tabulated windows (`fwindow == NULL`) `get_compensation` changes nothing, so that it does not undo the window. -/
theorem C55_tabulated (native : ℕ) (support : ℤ) (w : List ℝ) (v : ℂ) : compensation native none support w v = v := by
  have h : w.foldl (fun tf wi => tf * getFwindow native none support wi) 1 = 1 := by
    induction w with
    | nil => rfl
    | cons a l ih => rw [List.foldl_cons]; simp [getFwindow]
  unfold compensation
  rw [h]
  simp

#print axioms C53_lowpass_band_partial
#print axioms C53_violated_lowpass_odd
#print axioms C55_tabulated

end Pmesh
