import Verif.Lemmas.OldCicNumpy
import Mathlib.Tactic.Linarith
import Mathlib.Tactic.NormNum
import Mathlib.Tactic.Positivity

/-! # The nnb, cic, tsc, pcs windows are nonnegative and add up to one -/

set_option linter.unusedSectionVars false

namespace Pmesh

section
variable {K : Type*} [Field K] [LinearOrder K] [IsStrictOrderedRing K] [FloorRing K]

theorem tuned_kernel_nonneg (t : Tuned) (x : K) : 0 ≤ (Tuned.kern t : Kern K).kernel x := by
  cases t
  · show 0 ≤ nearestKernel x
    unfold nearestKernel; split <;> norm_num
  · show 0 ≤ linearKernel x
    unfold linearKernel; split
    · next h => linarith
    · rfl
  · show 0 ≤ quadraticKernel x
    unfold quadraticKernel
    have := abs_nonneg x
    dsimp only
    split
    · next h => nlinarith
    · split
      · have := mul_self_nonneg (3 / 2 - |x|); linarith
      · rfl
  · show 0 ≤ cubicKernel x
    unfold cubicKernel
    have h0 := abs_nonneg x
    dsimp only
    split
    · next h => 
      have h1 : |x| * |x| ≤ 1 := by nlinarith
      have h2 : 0 ≤ |x| * |x| * |x| := by positivity
      have h3 : 0 ≤ (1 - |x|) * (1 - |x|) * (2 + |x|) := by
        have : 0 ≤ 1 - |x| := by linarith
        positivity
      nlinarith
    · split
      · next h =>
        have : 0 ≤ 2 - |x| := by linarith
        positivity
      · rfl

theorem windowInfo_vfactor_nonneg (native : ℕ) (s : K) : 0 ≤ (windowInfo native s).vfactor := by
  unfold windowInfo
  dsimp only
  split
  · positivity
  · next h =>
    have : 0 < s := not_le.1 h
    positivity

theorem genStencil_nonneg {k : Kern K} (hk : ∀ x, 0 ≤ k.kernel x) (native : ℕ) (s : K) (ax : PAxis K) (ho : ax.order = 0) (x : K) :
    ∀ p ∈ genStencil k (windowInfo native s) ax x, 0 ≤ p.2 := by
  intro p hp
  obtain ⟨r, hr, rfl⟩ := List.mem_map.1 hp
  have hr : r < (windowInfo native s).support := List.mem_range.1 hr
  simp only [fillAxis, ho, if_true]
  rw [List.getD_eq_getElem _ _ (by simpa using hr)]
  simp only [List.getElem_map]
  exact mul_nonneg (hk _) (windowInfo_vfactor_nonneg native s)

theorem tunedStencil_nonneg (t : Tuned) (ax : PAxis K) (ho : ax.order = 0) (x : K) : ∀ p ∈ tunedStencil t ax x, 0 ≤ p.2 := by
  have := tunedStencil_eq t ax x ((Tuned.kern t : Kern K).native : K) (by split <;> rfl) (Or.inl ho)
  rw [this]
  exact genStencil_nonneg (tuned_kernel_nonneg t) _ _ ax ho x

theorem axisStencil_nonneg {P : Painter K} {kind : Tuned} (hk : P.kern = Tuned.kern kind) (h : K) (ax : PAxis K)
    (ho : ax.order = 0) (x : K) : ∀ p ∈ axisStencil P h ax x, 0 ≤ p.2 := by
  unfold axisStencil
  split
  · exact tunedStencil_nonneg _ ax ho x
  · exact genStencil_nonneg (by rw [hk]; exact tuned_kernel_nonneg kind) _ _ ax ho x

theorem cw_nonneg {st : List (ℤ × K)} (h : ∀ p ∈ st, 0 ≤ p.2) (c : ℤ) : 0 ≤ cw st c := by
  apply List.sum_nonneg
  intro y hy
  obtain ⟨p, hp, rfl⟩ := List.mem_map.1 hy
  split
  · exact h p hp
  · rfl

theorem cwProd_nonneg : ∀ {sts : List (List (ℤ × K))}, (∀ st ∈ sts, ∀ p ∈ st, 0 ≤ p.2) → ∀ c : List ℕ, 0 ≤ cwProd sts c
  | [], _, _ => by simp [cwProd]
  | _ :: _, _, [] => by simp [cwProd]
  | st :: sts, h, c :: cs => by
    simp only [cwProd]
    exact mul_nonneg (cw_nonneg (h st (by simp)) c) (cwProd_nonneg (fun s hs => h s (by simp [hs])) cs)

theorem weights_nonneg {P : Painter K} {kind : Tuned} (hk : P.kern = Tuned.kern kind) (ho : ∀ ax ∈ P.axes, ax.order = 0)
    (h : K) (x : List K) (c : List ℕ) : 0 ≤ cwProd (List.zipWith (axisStencil P h) P.axes x) c := by
  apply cwProd_nonneg
  intro st hst
  rw [List.mem_iff_getElem] at hst
  obtain ⟨i, hi, rfl⟩ := hst
  rw [List.getElem_zipWith]
  exact axisStencil_nonneg hk h _ (ho _ (List.getElem_mem _)) _

theorem weights_sum {P : Painter K} (hP : P.Valid) {kind : Tuned} (hk : P.kern = Tuned.kern kind)
    (hper : ∀ ax ∈ P.axes, ax.order = 0 ∧ 0 < ax.size ∧ ax.period = ax.size) {h : K} (hw : windowSize P h = P.kern.native)
    {x : List K} (hx : x.length = P.axes.length) :
    ((ndindex (shapeOf P.axes)).map fun c => cwProd (List.zipWith (axisStencil P h) P.axes x) c).sum = 1 := by
  rw [sum_ndindex_cwProd _ _ (by simp [hx])]
  apply List.prod_eq_one
  intro y hy
  obtain ⟨i, hi, rfl⟩ := List.getElem_of_mem hy
  simp only [List.getElem_zipWith]
  simp only [List.length_zipWith] at hi
  have hi' : i < P.axes.length := by omega
  obtain ⟨ho, hsz, hpe⟩ := hper _ (List.getElem_mem hi')
  rw [axisStencil_native hP kind hk h hw _ ho]
  have hin : ∀ q ∈ tunedStencil kind P.axes[i] (x[i]'(by omega)), 0 ≤ q.1 ∧ q.1 < ((P.axes[i].size : ℕ) : ℤ) := by
    intro q hq
    unfold tunedStencil at hq
    obtain ⟨t, _, ht⟩ := List.mem_map.mp (List.of_mem_zip hq).1
    rw [← ht, tunedWrap_eq, ← hpe]
    exact genWrap_range _ (by omega) t
  have := sum_cw_all P.axes[i].size (tunedStencil kind P.axes[i] (x[i]'(by omega))) hin (fun _ => 1)
  simp only [mul_one] at this
  rw [this]
  have := tunedStencil_map kind P.axes[i] (x[i]'(by omega)) (fun _ => 1)
  simp only [mul_one] at this
  rw [this, zipWith_snd_sum _ _ (by rw [(tunedSetup_length kind _ _).1, (tunedSetup_length kind _ _).2]),
    tunedVals_sum kind _ ho]

theorem sum_le_of_weights {α : Type*} (l : List α) (wt f : α → K) (hi : K) (hw : ∀ a ∈ l, 0 ≤ wt a) (hf : ∀ a ∈ l, f a ≤ hi) :
    (l.map fun a => wt a * f a).sum ≤ (l.map wt).sum * hi := by
  induction l with
  | nil => simp
  | cons a l ih =>
    simp only [List.map_cons, List.sum_cons, add_mul]
    exact add_le_add (mul_le_mul_of_nonneg_left (hf a (by simp)) (hw a (by simp)))
      (ih (fun b hb => hw b (by simp [hb])) (fun b hb => hf b (by simp [hb])))

theorem le_sum_of_weights {α : Type*} (l : List α) (wt f : α → K) (lo : K) (hw : ∀ a ∈ l, 0 ≤ wt a) (hf : ∀ a ∈ l, lo ≤ f a) :
    (l.map wt).sum * lo ≤ (l.map fun a => wt a * f a).sum := by
  induction l with
  | nil => simp
  | cons a l ih =>
    simp only [List.map_cons, List.sum_cons, add_mul]
    exact add_le_add (mul_le_mul_of_nonneg_left (hf a (by simp)) (hw a (by simp)))
      (ih (fun b hb => hw b (by simp [hb])) (fun b hb => hf b (by simp [hb])))

end
end Pmesh
