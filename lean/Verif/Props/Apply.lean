import Verif.Spec.Apply
import Verif.Lemmas.Apply
import Mathlib.Tactic.Ring

/-! # C32: `apply` visits every mesh point once with its own coordinates -/

namespace Pmesh
section
variable {K V : Type} [Field K]

/-- **C32**: `field.apply(func, kind, out)` sets each local element of `out` to `func` of the coordinates and the value of that
element of the field, once, and nothing else; for every shape with at least two axes, every order of the axes in memory (all
strides, every way `argsort` may break ties), in place or not, and for an output with other strides than the field. -/
theorem C32_apply (shape : List ℕ) (hdim : 2 ≤ shape.length) (strides : List ℤ) (hp : Proper shape strides) (order : List ℕ)
    (horder : order.Perm (List.range shape.length)) (kind : ApplyKind) (box nmesh : List K) (x i : ℕ → ℕ → K)
    (func : List K → V → V) (mem : ℤ → V) :
    Applied shape strides strides (kindCoord kind box nmesh x i) func mem mem
      (applyField shape strides order kind box nmesh x i func none mem) ∧
    ∀ ostr omem, Proper shape ostr →
      Applied shape strides ostr (kindCoord kind box nmesh x i) func mem omem
        (applyField shape strides order kind box nmesh x i func (some (ostr, omem)) mem) := by
  have hk : kindCoord kind box nmesh x i = applyCoord kind box nmesh x i := by
    funext d j
    cases kind <;> simp [kindCoord, applyCoord]
    ring
  rw [hk]
  have ho : AxisPerm shape.length order :=
    ⟨by rw [horder.length_eq, List.length_range], horder.nodup_iff.2 List.nodup_range,
      fun d hd => List.mem_range.1 (horder.mem_iff.1 hd)⟩
  have key : ∀ (ostr : List ℤ) (omem : ℤ → V) (inp : (ℤ → V) → ℤ → V), Proper shape ostr →
      ((∀ m, inp m = mem) ∨ ((∀ m, inp m = m) ∧ omem = mem ∧ strides = ostr)) →
      Applied shape strides ostr (applyCoord kind box nmesh x i) func mem omem
        ((List.range (slabCount shape order)).foldl (fun m irow =>
          applySlab shape order (applyCoord kind box nmesh x i) func strides ostr irow (inp m) m) omem) := by
    intro ostr omem inp hpo hin
    obtain ⟨h1, h2⟩ := applySlabs_eq (.inr ho) hdim (applyCoord kind box nmesh x i) func hp.len hpo.len hpo.inj inp omem mem hin
      (slabCount shape order) le_rfl
    refine ⟨fun c hc => ?_, h2⟩
    obtain ⟨j, p, hjp⟩ := slabPos_cons (.inr ho) hdim c
    have hj := ((slab_shape (.inr ho) hdim strides).2 ⟨c, hc, hjp⟩).1
    have := h1 c hc j p hjp
    rw [if_pos hj] at this
    unfold ownCoords
    rw [hc.len]
    exact this
  exact ⟨key strides mem (fun m => m) hp (.inr ⟨fun _ => rfl, rfl, rfl⟩),
    fun ostr omem hpo => key ostr omem (fun _ => mem) hpo (.inl fun _ => rfl)⟩

end

theorem proper_of_decide {shape : List ℕ} {strides : List ℤ} (h1 : strides.length = shape.length)
    (h2 : ((ndindex shape).map (elementAddr strides)).Nodup) : Proper shape strides :=
  ⟨h1, fun c c' hc hc' he => List.inj_on_of_nodup_map h2 (mem_ndindex.2 hc) (mem_ndindex.2 hc') he⟩

/-- Non-vacuity of C32: a transposed complex field of shape 2×3×2, whose slowest axis is the second, written to an array in C
order. -/
example : Applied [2, 3, 2] [2, 4, 1] [6, 2, 1]
    (kindCoord .circular [4, 4, 4] [2, 3, 2] (fun d j => (10 * d + j : ℚ)) (fun _ j => (j : ℚ)))
    (fun k (y : ℚ) => k.sum + y) (fun a => a) (fun _ => 99)
    (applyField [2, 3, 2] [2, 4, 1] [1, 0, 2] .circular [4, 4, 4] [2, 3, 2] (fun d j => (10 * d + j : ℚ)) (fun _ j => (j : ℚ))
      (fun k y => k.sum + y) (some ([6, 2, 1], fun _ => 99)) (fun a => a)) :=
  (C32_apply [2, 3, 2] (by decide) [2, 4, 1] (proper_of_decide rfl (by decide)) [1, 0, 2] (by decide) .circular [4, 4, 4]
    [2, 3, 2] _ _ _ _).2 [6, 2, 1] _ (proper_of_decide rfl (by decide))

#print axioms C32_apply

end Pmesh
