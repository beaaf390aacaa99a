import Verif.Lemmas.FStencil
import Verif.Spec.FPaint

/-!
# The weights of the windows are those of their pieces
-/

set_option linter.unusedSectionVars false

namespace Pmesh

section
variable {K : Type*} [Field K] [LinearOrder K] [IsStrictOrderedRing K] [FloorRing K]

theorem tunedSetup_pieces (t : Tuned) (ax : PAxis K) (ho : ax.order = 0) (x : K) :
    tunedSetup t ax x = ((pieces (K := K) t).map fun q => pieceBase t (ax.grid x) + q.1, (pieces t).map fun q => q.2 (ax.grid x - pieceBase t (ax.grid x))) := by
  cases t <;> simp only [tunedSetup, pieces, pieceBase, pieceLo, ho, if_true, List.map_cons, List.map_nil, Prod.mk.injEq, List.cons.injEq,
    and_true, true_and, sub_zero, sub_neg_eq_add, add_zero]
  · push_cast
    ring_nf
    trivial
  · push_cast
    refine ⟨⟨?_, ?_⟩, ?_⟩
    · ring
    · ring
    · ring_nf
      trivial

theorem cw_tuned (t : Tuned) (ax : PAxis K) (ho : ax.order = 0) (hN : 0 < ax.period) (x : K) (c : ℤ) :
    cw (tunedStencil t ax x) c = pieceWeight t ax.period c (pieceBase t (ax.grid x)) (ax.grid x) := by
  unfold cw tunedStencil pieceWeight
  rw [tunedSetup_pieces t ax ho]
  simp only [List.map_map]
  rw [List.zip_map', List.map_map]
  congr 1
  apply List.map_congr_left
  intro q _
  simp only [Function.comp, tunedWrap_emod hN]

theorem periodicWeight_eq (t : Tuned) (N : ℕ) (hN : 0 < N) (z : K) (g : ℤ) :
    periodicWeight (Tuned.kern t) N z g = pieceWeight t N g (pieceBase t z) z := by
  set ax : PAxis K := ⟨0, 1, 0, N, 0, 0⟩ with hax
  have hg : ax.grid z = z := by simp [PAxis.grid, hax]
  have h := cw_tuned t ax rfl hN z g
  rw [hg] at h
  rw [← h, tunedStencil_eq t ax z 0 (by simp) (Or.inl rfl), cw_eq_axisWeight (tuned_confined t)]
  unfold axisWeight periodicWeight
  have hn : ((Tuned.kern t : Kern K).native : K) ≠ 0 := by cases t <;> norm_num [Tuned.kern, nearestK, linearK, quadraticK, cubicK]
  apply finsum_congr
  intro n
  have e : IsCell ax.period n g ↔ n % (N : ℤ) = g := by
    unfold IsCell
    rw [if_neg (by simpa [hax] using hN.ne')]
    exact eq_comm
  simp only [e, le_refl, if_true, windowAt]
  rw [div_self hn]
  simp [hax]

/-- A cell whose images are all almost out of reach of the window has almost no weight. -/
theorem pieceWeight_far (t : Tuned) (ht : t ≠ .nnb) (N : ℕ) (c i : ℤ) {z θ : K} (hθ0 : 0 ≤ θ) (hθ : θ ≤ 1 / 4) (h1 : pieceLo t ≤ z - i)
    (h2 : z - i ≤ pieceLo t + 1)
    (hfar : ∀ n : ℤ, n % (N : ℤ) = c → ((Tuned.kern t : Kern K).native : K) / 2 - θ ≤ |z - n|) : pieceWeight t N c i z ≤ 6 * θ := by
  have h := abs_sum_le_of (pieces t) (fun q => if (i + q.1) % (N : ℤ) = c then q.2 (z - i) else 0) (3 / 2 * θ) 4 (pieces_length_le t)
    (by positivity) (by
      intro q hq
      have hnn := pieces_nonneg t h1 h2 q hq
      split_ifs with hc
      · rw [abs_of_nonneg hnn]
        have hf := hfar _ hc
        push_cast at hf
        rw [← sub_sub] at hf
        set f := z - (i : K) with hfd
        rw [le_abs] at hf
        cases t with
        | nnb => exact absurd rfl ht
        | cic =>
          simp only [pieces, pieceLo, List.mem_cons, List.not_mem_nil, or_false, Tuned.kern, linearK] at hq h1 h2 hf
          rcases hq with rfl | rfl <;> simp only at hf ⊢ <;> push_cast at hf <;> rcases hf with hf | hf <;> linarith
        | tsc =>
          simp only [pieces, pieceLo, List.mem_cons, List.not_mem_nil, or_false, Tuned.kern, quadraticK] at hq h1 h2 hf
          rcases hq with rfl | rfl | rfl <;> simp only at hf ⊢ <;> push_cast at hf <;> rcases hf with hf | hf <;> first | linarith | nlinarith
        | pcs =>
          simp only [pieces, pieceLo, List.mem_cons, List.not_mem_nil, or_false, Tuned.kern, cubicK] at hq h1 h2 hf
          have g1 : 0 ≤ 1 - f := by linarith
          rcases hq with rfl | rfl | rfl | rfl <;> simp only at hf ⊢ <;> push_cast at hf <;> rcases hf with hf | hf
          · have a : (1 - f) * (1 - f) ≤ 1 := by nlinarith
            have b : (1 - f) * (1 - f) * (1 - f) ≤ 1 * θ := mul_le_mul a (by linarith) g1 (by norm_num)
            linarith
          · linarith
          · linarith
          · linarith
          · linarith
          · linarith
          · linarith
          · have a : f * f ≤ 1 := by nlinarith
            have b : f * f * f ≤ 1 * θ := mul_le_mul a (by linarith) (by linarith) (by norm_num)
            linarith
      · rw [abs_zero]; positivity)
  push_cast at h
  have := le_abs_self (pieceWeight t N c i z)
  unfold pieceWeight at this ⊢
  linarith

end
end Pmesh
