import Verif.Model.Fourier
import Verif.Lemmas.Norm
import Mathlib.Analysis.SpecialFunctions.Complex.Log
import Mathlib.Algebra.Ring.GeomSum

set_option linter.unusedSectionVars false

namespace Pmesh

open Complex

theorem sum_ndindex_cons' {M : Type} [AddCommMonoid M] (n : ℕ) (ns : List ℕ) (F : List ℕ → M) :
    ((ndindex (n :: ns)).map F).sum = ((List.range n).map fun a => ((ndindex ns).map fun t => F (a :: t)).sum).sum := by
  rw [ndindex]
  induction List.range n with
  | nil => rfl
  | cons a l ih =>
    rw [List.flatMap_cons, List.map_append, List.sum_append, ih, List.map_cons, List.sum_cons, List.map_map]
    rfl

theorem sum_swapC {M α β : Type} [AddCommMonoid M] (l : List α) (l' : List β) (f : α → β → M) :
    (l.map fun a => (l'.map fun b => f a b).sum).sum = (l'.map fun b => (l.map fun a => f a b).sum).sum := by
  induction l with
  | nil => simp
  | cons a l ih => simp only [List.map_cons, List.sum_cons, ih, sum_add_map']

theorem sum_cmul {R α : Type} [NonUnitalNonAssocSemiring R] (l : List α) (f : α → R) (c : R) :
    (l.map fun a => c * f a).sum = c * (l.map f).sum := by
  induction l with
  | nil => simp
  | cons a l ih => simp only [List.map_cons, List.sum_cons, ih, mul_add]

theorem sum_mulc {R α : Type} [NonUnitalNonAssocSemiring R] (l : List α) (f : α → R) (c : R) :
    (l.map fun a => f a * c).sum = (l.map f).sum * c := by
  induction l with
  | nil => simp
  | cons a l ih => simp only [List.map_cons, List.sum_cons, ih, add_mul]

theorem sum_congr' {M α : Type} [AddCommMonoid M] {l : List α} {f g : α → M} (h : ∀ a ∈ l, f a = g a) :
    (l.map f).sum = (l.map g).sum := by
  rw [List.map_congr_left h]

/-- `exp(2πi k·x/N)`. -/
noncomputable def phase (nmesh k x : List ℕ) : ℂ := exp (2 * Real.pi * I * phaseArg nmesh k x)

theorem phaseArg_comm : ∀ nmesh k x : List ℕ, phaseArg nmesh k x = phaseArg nmesh x k
  | [], _, _ => by simp [phaseArg]
  | _ :: _, [], [] => by simp [phaseArg]
  | _ :: _, [], _ :: _ => by simp [phaseArg]
  | _ :: _, _ :: _, [] => by simp [phaseArg]
  | n :: ns, k :: ks, x :: xs => by
    simp only [phaseArg]
    rw [phaseArg_comm ns ks xs, mul_comm (k : ℝ)]

theorem phase_comm (nmesh k x : List ℕ) : phase nmesh k x = phase nmesh x k := by
  unfold phase
  rw [phaseArg_comm]

theorem conj_two : (starRingEnd ℂ) 2 = 2 := Complex.conj_ofNat 2

theorem exp_neg_phase (nmesh k x : List ℕ) : exp (-(2 * Real.pi * I * phaseArg nmesh k x)) = (starRingEnd ℂ) (phase nmesh k x) := by
  unfold phase
  rw [← exp_conj]
  congr 1
  simp [conj_two]

theorem phase_cons (n k x : ℕ) (ns ks xs : List ℕ) :
    phase (n :: ns) (k :: ks) (x :: xs) = exp (2 * Real.pi * I * (k * x / n)) * phase ns ks xs := by
  unfold phase
  rw [← exp_add]
  congr 1
  simp only [phaseArg]
  push_cast
  ring

/-- Orthogonality on one axis. -/
theorem orth_axis {N x y : ℕ} (hx : x < N) (hy : y < N) :
    ((List.range N).map fun (k : ℕ) => exp (2 * Real.pi * I * (k * x / N)) *
      (starRingEnd ℂ) (exp (2 * Real.pi * I * (k * y / N)))).sum = if x = y then (N : ℂ) else 0 := by
  have hN : (N : ℂ) ≠ 0 := by exact_mod_cast (by omega : N ≠ 0)
  set w : ℂ := exp (2 * Real.pi * I * (((x : ℂ) - y) / N)) with hw
  have h1 : ∀ k : ℕ, exp (2 * Real.pi * I * (k * x / N)) * (starRingEnd ℂ) (exp (2 * Real.pi * I * (k * y / N))) = w ^ k := by
    intro k
    rw [← exp_conj, ← exp_add, hw, ← exp_nat_mul]
    congr 1
    simp [conj_two]
    ring
  simp only [h1]
  rw [show ((List.range N).map fun k => w ^ k).sum = ∑ k ∈ Finset.range N, w ^ k from by
    rw [Finset.sum_eq_multiset_sum]; rfl]
  by_cases hxy : x = y
  · subst hxy
    rw [if_pos rfl]
    have : w = 1 := by rw [hw]; simp
    simp [this]
  · rw [if_neg hxy]
    have hwN : w ^ N = 1 := by
      rw [hw, ← exp_nat_mul]
      have : (N : ℂ) * (2 * Real.pi * I * (((x : ℂ) - y) / N)) = ((x : ℤ) - (y : ℤ) : ℤ) * (2 * Real.pi * I) := by
        push_cast
        field_simp
      rw [this]
      exact exp_int_mul_two_pi_mul_I _
    have hw1 : w ≠ 1 := by
      intro h
      rw [hw, exp_eq_one_iff] at h
      obtain ⟨n, hn⟩ := h
      have hpi : (2 * Real.pi * I : ℂ) ≠ 0 := two_pi_I_ne_zero
      have h2 : ((x : ℂ) - y) / N = n := by
        have : (2 * Real.pi * I : ℂ) * (((x : ℂ) - y) / N) = (2 * Real.pi * I) * n := by rw [hn]; ring
        exact mul_left_cancel₀ hpi this
      rw [div_eq_iff hN] at h2
      have h3 : (x : ℤ) - y = n * N := by exact_mod_cast h2
      have h4 : n = 0 := by
        by_contra h5
        rcases lt_or_gt_of_ne h5 with h6 | h6
        · have : n * (N : ℤ) ≤ -1 * N := Int.mul_le_mul_of_nonneg_right (by omega) (by omega)
          omega
        · have : 1 * (N : ℤ) ≤ n * N := Int.mul_le_mul_of_nonneg_right (by omega) (by omega)
          omega
      rw [h4] at h3
      omega
    have := geom_sum_mul w N
    rw [hwN, sub_self] at this
    exact (mul_eq_zero.1 this).resolve_right (sub_ne_zero.2 hw1)

/-- Orthogonality of the modes. -/
theorem orth {nmesh x y : List ℕ} (hx : ValidIndex nmesh x) (hy : ValidIndex nmesh y) :
    ((ndindex nmesh).map fun k => phase nmesh k x * (starRingEnd ℂ) (phase nmesh k y)).sum =
      if x = y then ((nmesh.prod : ℕ) : ℂ) else 0 := by
  induction hx generalizing y with
  | nil => cases hy; simp [ndindex, phase, phaseArg]
  | @cons n a ns as ha _ ih =>
    cases hy with
    | @cons _ b _ bs hb hbs =>
      rw [sum_ndindex_cons']
      have h1 : ∀ k : ℕ, ((ndindex ns).map fun t => phase (n :: ns) (k :: t) (a :: as) *
          (starRingEnd ℂ) (phase (n :: ns) (k :: t) (b :: bs))).sum =
          (exp (2 * Real.pi * I * (k * a / n)) * (starRingEnd ℂ) (exp (2 * Real.pi * I * (k * b / n)))) *
            (if as = bs then ((ns.prod : ℕ) : ℂ) else 0) := by
        intro k
        rw [← ih hbs, ← sum_cmul]
        apply sum_congr'
        intro t _
        rw [phase_cons, phase_cons, map_mul]
        ring
      simp only [h1]
      rw [sum_mulc, orth_axis ha hb]
      by_cases e1 : a = b
      · by_cases e2 : as = bs
        · simp [e1, e2]
        · simp [e2]
      · simp [e1]

theorem dftForward_eq (nmesh : List ℕ) (f : List ℕ → ℂ) (k : List ℕ) :
    dftForward nmesh f k = ((ndindex nmesh).map fun x => f x * (starRingEnd ℂ) (phase nmesh k x)).sum := by
  unfold dftForward
  simp only [exp_neg_phase]

theorem dftBackward_eq (nmesh : List ℕ) (F : List ℕ → ℂ) (x : List ℕ) :
    dftBackward nmesh F x = ((ndindex nmesh).map fun k => F k * phase nmesh k x).sum := rfl

/-- Picking one term of a sum over the mesh. -/
theorem sum_single {M : Type} [AddCommMonoid M] (nmesh : List ℕ) {x : List ℕ} (hx : ValidIndex nmesh x) (f : List ℕ → M) :
    ((ndindex nmesh).map fun y => if x = y then f y else 0).sum = f x := by
  have h1 := sum_ite_filter (ndindex nmesh) (fun y => decide (x = y)) f
  simp only [decide_eq_true_eq] at h1
  rw [h1]
  have h2 : (ndindex nmesh).filter (fun y => decide (x = y)) = [x] := by
    have := (List.perm_ext_iff_of_nodup ((ndindex_nodup nmesh).filter fun y => decide (x = y)) (List.nodup_singleton x)).2 (by
      intro a
      rw [List.mem_filter, mem_ndindex, List.mem_singleton, decide_eq_true_eq]
      constructor
      · rintro ⟨_, rfl⟩; rfl
      · rintro rfl; exact ⟨hx, rfl⟩)
    exact List.perm_singleton.1 this
  simp [h2]

theorem backward_forward (nmesh : List ℕ) (f : List ℕ → ℂ) {x : List ℕ} (hx : ValidIndex nmesh x) :
    dftBackward nmesh (dftForward nmesh f) x = ((nmesh.prod : ℕ) : ℂ) * f x := by
  rw [dftBackward_eq]
  simp only [dftForward_eq]
  have h1 : ((ndindex nmesh).map fun k => ((ndindex nmesh).map fun y => f y * (starRingEnd ℂ) (phase nmesh k y)).sum *
      phase nmesh k x).sum = ((ndindex nmesh).map fun y => ((ndindex nmesh).map fun k =>
        f y * (phase nmesh k x * (starRingEnd ℂ) (phase nmesh k y))).sum).sum := by
    rw [sum_swapC]
    apply sum_congr'
    intro k _
    rw [← sum_mulc]
    apply sum_congr'
    intro y _
    ring
  rw [h1, ← sum_single nmesh hx fun y => ((nmesh.prod : ℕ) : ℂ) * f y]
  apply sum_congr'
  intro y hy
  rw [sum_cmul, orth hx (mem_ndindex.1 hy)]
  split_ifs
  · ring
  · simp

theorem forward_backward (nmesh : List ℕ) (F : List ℕ → ℂ) {k : List ℕ} (hk : ValidIndex nmesh k) :
    dftForward nmesh (dftBackward nmesh F) k = ((nmesh.prod : ℕ) : ℂ) * F k := by
  rw [dftForward_eq]
  simp only [dftBackward_eq]
  have h1 : ((ndindex nmesh).map fun x => ((ndindex nmesh).map fun j => F j * phase nmesh j x).sum *
      (starRingEnd ℂ) (phase nmesh k x)).sum = ((ndindex nmesh).map fun j => ((ndindex nmesh).map fun x =>
        F j * (phase nmesh x j * (starRingEnd ℂ) (phase nmesh x k))).sum).sum := by
    rw [sum_swapC]
    apply sum_congr'
    intro x _
    rw [← sum_mulc]
    apply sum_congr'
    intro j _
    rw [phase_comm nmesh j x, phase_comm nmesh k x]
    ring
  rw [h1, ← sum_single nmesh hk fun j => ((nmesh.prod : ℕ) : ℂ) * F j]
  apply sum_congr'
  intro j hj
  rw [sum_cmul, orth (mem_ndindex.1 hj) hk]
  by_cases e : j = k
  · subst e; simp; ring
  · rw [if_neg e, if_neg (Ne.symm e), mul_zero]

/-- The phase of the opposite mode is the conjugate. -/
theorem phase_opposite {nmesh k : List ℕ} (hk : ValidIndex nmesh k) (x : List ℕ) :
    phase nmesh (opposite nmesh k) x = (starRingEnd ℂ) (phase nmesh k x) := by
  unfold opposite
  induction hk generalizing x with
  | nil => simp [phase, phaseArg]
  | @cons n a ns as ha _ ih =>
    cases x with
    | nil => simp [phase, phaseArg]
    | cons b xs =>
      rw [List.zipWith_cons_cons, phase_cons, phase_cons, ih, map_mul]
      congr 1
      have hn : (n : ℂ) ≠ 0 := by exact_mod_cast (by omega : n ≠ 0)
      rw [← exp_conj]
      by_cases h0 : a = 0
      · subst h0; simp
      · rw [Nat.mod_eq_of_lt (by omega), Nat.cast_sub (by omega)]
        have : 2 * (Real.pi : ℂ) * I * (((n : ℂ) - a) * b / n) = (starRingEnd ℂ) (2 * Real.pi * I * (a * b / n)) + b * (2 * Real.pi * I) := by
          simp [conj_two]
          field_simp
          ring
        rw [this, exp_add, exp_nat_mul_two_pi_mul_I, mul_one]

theorem prod_inv (nmesh : List ℕ) : (nmesh.map fun (n : ℕ) => ((n : ℝ)⁻¹)).prod = ((nmesh.prod : ℕ) : ℝ)⁻¹ := by
  induction nmesh with
  | nil => simp
  | cons n ns ih => rw [List.map_cons, List.prod_cons, ih, List.prod_cons, Nat.cast_mul, mul_inv]

theorem prod_cast (nmesh : List ℕ) : (nmesh.map fun (n : ℕ) => (n : ℝ)).prod = ((nmesh.prod : ℕ) : ℝ) := by
  induction nmesh with
  | nil => simp
  | cons n ns ih => rw [List.map_cons, List.prod_cons, ih, List.prod_cons, Nat.cast_mul]

theorem conj_sum {α : Type} (l : List α) (f : α → ℂ) : (starRingEnd ℂ) (l.map f).sum = (l.map fun a => (starRingEnd ℂ) (f a)).sum := by
  induction l with
  | nil => simp
  | cons a l ih => simp [ih]

end Pmesh
