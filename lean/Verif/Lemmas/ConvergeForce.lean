import Verif.Lemmas.ConvergeRun
import Verif.Props.Liouville
import Verif.Lemmas.Symmetry
import Verif.Lemmas.Deriv

/-! # The mesh force is bounded and Lipschitz -/

namespace Pmesh

/-- Bounded and Lipschitz. -/
def BL {X E : Type*} [NormedAddCommGroup X] [NormedAddCommGroup E] (f : X → E) : Prop :=
  ∃ M L : ℝ, 0 ≤ M ∧ 0 ≤ L ∧ (∀ x, ‖f x‖ ≤ M) ∧ ∀ x y, ‖f x - f y‖ ≤ L * ‖x - y‖

section
variable {X E : Type*} [NormedAddCommGroup X]

theorem BL.const [NormedAddCommGroup E] (c : E) : BL fun _ : X => c := ⟨‖c‖, 0, norm_nonneg _, le_rfl, fun _ => le_rfl, fun _ _ => by simp⟩

theorem BL.add [NormedAddCommGroup E] {f g : X → E} : BL f → BL g → BL fun x => f x + g x := by
  rintro ⟨M, L, hM, hL, h1, h2⟩ ⟨M', L', hM', hL', h1', h2'⟩
  refine ⟨M + M', L + L', add_nonneg hM hM', add_nonneg hL hL', fun x => (norm_add_le _ _).trans (add_le_add (h1 x) (h1' x)), fun x y => ?_⟩
  rw [add_sub_add_comm, add_mul]
  exact (norm_add_le _ _).trans (add_le_add (h2 x y) (h2' x y))

theorem BL.mul [NormedRing E] {f g : X → E} : BL f → BL g → BL fun x => f x * g x := by
  rintro ⟨M, L, hM, hL, h1, h2⟩ ⟨M', L', hM', hL', h1', h2'⟩
  refine ⟨M * M', M * L' + L * M', mul_nonneg hM hM', by positivity, fun x => (norm_mul_le _ _).trans (mul_le_mul (h1 x) (h1' x) (norm_nonneg _) hM), fun x y => ?_⟩
  rw [show f x * g x - f y * g y = f x * (g x - g y) + (f x - f y) * g y by noncomm_ring]
  have e1 : ‖f x * (g x - g y)‖ ≤ M * (L' * ‖x - y‖) := (norm_mul_le _ _).trans (mul_le_mul (h1 x) (h2' x y) (norm_nonneg _) hM)
  have e2 : ‖(f x - f y) * g y‖ ≤ L * ‖x - y‖ * M' := (norm_mul_le _ _).trans (mul_le_mul (h2 x y) (h1' y) (norm_nonneg _) (by positivity))
  refine (norm_add_le _ _).trans ((add_le_add e1 e2).trans (le_of_eq (by ring)))

theorem BL.listSum [NormedAddCommGroup E] {A : Type*} (l : List A) (f : A → X → E) (h : ∀ a ∈ l, BL (f a)) : BL fun x => (l.map fun a => f a x).sum := by
  induction l with
  | nil => simpa using BL.const 0
  | cons a l ih =>
    simp only [List.map_cons, List.sum_cons]
    exact (h a List.mem_cons_self).add (ih fun b hb => h b (List.mem_cons_of_mem _ hb))

theorem BL.listProd [NormedRing E] {A : Type*} (l : List A) (f : A → X → E) (h : ∀ a ∈ l, BL (f a)) : BL fun x => (l.map fun a => f a x).prod := by
  induction l with
  | nil => simpa using BL.const 1
  | cons a l ih =>
    simp only [List.map_cons, List.prod_cons]
    exact (h a List.mem_cons_self).mul (ih fun b hb => h b (List.mem_cons_of_mem _ hb))

/-- After a map that keeps differences and does not enlarge norms. -/
theorem BL.map {E' : Type*} [NormedAddCommGroup E] [NormedAddCommGroup E'] {f : X → E} (g : E → E') (hg : ∀ x, ‖g x‖ ≤ ‖x‖) (hs : ∀ x y, g (x - y) = g x - g y) (hf : BL f) :
    BL fun x => g (f x) := by
  obtain ⟨M, L, hM, hL, h1, h2⟩ := hf
  exact ⟨M, L, hM, hL, fun x => (hg _).trans (h1 x), fun x y => by rw [← hs]; exact (hg _).trans (h2 x y)⟩

theorem BL.comp [NormedAddCommGroup E] {f : ℝ → E} (hf : BL f) {u : X → ℝ} {c : ℝ} (hc : 0 ≤ c) (hu : ∀ x y, |u x - u y| ≤ c * ‖x - y‖) : BL fun x => f (u x) := by
  obtain ⟨M, L, hM, hL, h1, h2⟩ := hf
  refine ⟨M, L * c, hM, mul_nonneg hL hc, fun x => h1 _, fun x y => (h2 _ _).trans ?_⟩
  rw [mul_assoc]
  exact mul_le_mul_of_nonneg_left (hu x y) hL
end

/-- The window summed over some integers. -/
theorem windowSum_BL {G : ℝ → ℝ} {l R : ℝ} (hG : ∀ x y, |G x - G y| ≤ l * |x - y|) (hR : 0 ≤ R) (h0 : ∀ x, R < |x| → G x = 0) (p : ℤ → Prop) [DecidablePred p] :
    BL fun u : ℝ => ∑ᶠ n : ℤ, if p n then G (u - n) else 0 := by
  have hl : 0 ≤ l := by have := (abs_nonneg _).trans (hG 1 0); simpa using this
  obtain ⟨b, hb, hb0⟩ : ∃ b, (∀ x, |G x| ≤ b) ∧ 0 ≤ b := by
    refine ⟨l * (2 * (R + 1)), fun x => ?_, by positivity⟩
    by_cases h : R < |x|
    · rw [h0 x h, abs_zero]; positivity
    · have e := hG x (R + 1)
      rw [h0 (R + 1) (by rw [abs_of_nonneg (by linarith)]; linarith), sub_zero] at e
      refine e.trans (mul_le_mul_of_nonneg_left ?_ hl)
      have := abs_le.1 (not_lt.1 h)
      rw [abs_le]
      constructor <;> linarith
  obtain ⟨I, hI⟩ : ∃ I : ℝ → Finset ℤ, I = fun u => Finset.Icc ⌈u - (R + 1)⌉ ⌊u + (R + 1)⌋ := ⟨_, rfl⟩
  have hcard : ∀ u, ((I u).card : ℝ) ≤ 2 * R + 3 := by
    intro u
    rw [hI]
    simp only [Int.card_Icc]
    have h1 := Int.le_ceil (u - (R + 1))
    have h2 := Int.floor_le (u + (R + 1))
    rcases le_or_gt 0 (⌊u + (R + 1)⌋ + 1 - ⌈u - (R + 1)⌉) with h | h
    · have : (((⌊u + (R + 1)⌋ + 1 - ⌈u - (R + 1)⌉).toNat : ℕ) : ℝ) = ((⌊u + (R + 1)⌋ + 1 - ⌈u - (R + 1)⌉ : ℤ) : ℝ) := by
        exact_mod_cast Int.toNat_of_nonneg h
      rw [this]
      push_cast
      linarith
    · rw [Int.toNat_of_nonpos h.le]
      simp only [Nat.cast_zero]
      linarith
  have hmem : ∀ u v : ℝ, |u - v| ≤ 1 → ∀ n : ℤ, n ∉ I u → G (v - n) = 0 := by
    intro u v huv n hn
    apply h0
    by_contra h
    apply hn
    have h := abs_le.1 (not_lt.1 h)
    have huv := abs_le.1 huv
    rw [hI]
    simp only [Finset.mem_Icc]
    exact ⟨Int.ceil_le.2 (by linarith), Int.le_floor.2 (by linarith)⟩
  have hsum : ∀ u v : ℝ, |u - v| ≤ 1 → (∑ᶠ n : ℤ, if p n then G (v - n) else 0) = ∑ n ∈ I u, if p n then G (v - n) else 0 := by
    intro u v huv
    refine finsum_eq_sum_of_support_subset _ fun n hn => ?_
    by_contra h
    apply hn
    show (if p n then G (v - n) else 0) = 0
    rw [hmem u v huv n h, ite_self]
  have hbound : ∀ u, ‖∑ᶠ n : ℤ, if p n then G (u - n) else 0‖ ≤ (2 * R + 3) * b := by
    intro u
    rw [hsum u u (by simp)]
    refine (norm_sum_le_of_le (I u) (f := fun n => if p n then G (u - n) else 0) (n := fun _ => b) fun n _ => ?_).trans ?_
    · rw [Real.norm_eq_abs]
      split_ifs
      · exact hb _
      · simpa using hb0
    · rw [Finset.sum_const, nsmul_eq_mul]
      exact mul_le_mul_of_nonneg_right (hcard u) hb0
  refine ⟨(2 * R + 3) * b, max ((2 * R + 3) * l) (2 * ((2 * R + 3) * b)), by positivity, by positivity, hbound, fun u v => ?_⟩
  beta_reduce
  rcases le_or_gt |u - v| 1 with huv | huv
  · rw [hsum u u (by simp), hsum u v huv, ← Finset.sum_sub_distrib]
    refine (norm_sum_le_of_le (I u) (n := fun _ => l * |u - v|) fun n _ => ?_).trans ?_
    · rw [Real.norm_eq_abs]
      split_ifs
      · have := hG (u - n) (v - n)
        rwa [sub_sub_sub_cancel_right] at this
      · simp only [sub_self, abs_zero]; positivity
    · rw [Finset.sum_const, nsmul_eq_mul, Real.norm_eq_abs, ← mul_assoc]
      exact mul_le_mul_of_nonneg_right ((mul_le_mul_of_nonneg_right (hcard u) hl).trans (le_max_left _ _)) (abs_nonneg _)
  · calc _ ≤ _ := norm_sub_le _ _
      _ ≤ 2 * ((2 * R + 3) * b) := by linarith [hbound u, hbound v]
      _ ≤ 2 * ((2 * R + 3) * b) * ‖u - v‖ := le_mul_of_one_le_right (by positivity) huv.le
      _ ≤ _ := mul_le_mul_of_nonneg_right (le_max_right _ _) (norm_nonneg _)

theorem width1_pos {w : Resampler ℝ} (hk : Confined w.kern) : 0 < w.width1 := by
  unfold Resampler.width1
  split_ifs with h
  · exact_mod_cast hk.native_pos
  · exact not_le.1 h

theorem gridW_BL {w : Resampler ℝ} (hw : w.Valid) (hk : Confined w.kern) (hl : LipschitzKernel w.kern) (d n : ℕ) (c : ℕ) : BL fun u : ℝ => gridW w d n u c := by
  have hs := width1_pos hk
  have hn : (0 : ℝ) < w.kern.native := by exact_mod_cast hk.native_pos
  simp only [gridW_axisWeight hw hk]
  unfold axisWeight
  simp only [unitAxis, mul_one, add_zero]
  obtain ⟨l, hl⟩ := hl
  obtain ⟨f, hf⟩ : ∃ f : ℝ, f = w.kern.native / w.width1 := ⟨_, rfl⟩
  have hf0 : 0 < f := by rw [hf]; positivity
  refine windowSum_BL (G := fun x => windowAt w.kern w.width1 0 1 x) (l := l * f * f) (R := w.width1 / 2) ?_ (by positivity) ?_ _
  · intro x y
    simp only [windowAt, if_true, ← hf]
    rw [← sub_mul, abs_mul, abs_of_pos hf0, show l * f * f * |x - y| = l * (|x - y| * f) * f by ring]
    refine mul_le_mul_of_nonneg_right ((hl _ _).trans (le_of_eq ?_)) hf0.le
    rw [← sub_mul, abs_mul, abs_of_pos hf0]
  · intro x hx
    simp only [windowAt, if_true, ← hf]
    have e : (w.kern.native / 2 : ℝ) = w.width1 / 2 * f := by rw [hf]; field_simp
    have : w.kern.kernel (x * f) = 0 := by
      rcases lt_abs.1 hx with h | h
      · exact hk.kernel_right _ (by rw [e]; exact mul_le_mul_of_nonneg_right h.le hf0.le)
      · exact hk.kernel_left _ (by rw [e, ← neg_mul]; exact mul_lt_mul_of_pos_right (by linarith) hf0)
    rw [this, zero_mul]

section
variable {X : Type*} [NormedAddCommGroup X]

theorem weightAt_BL {m : PMesh ℝ} (hm : m.OK) {w : Resampler ℝ} (hw : w.Valid) (hk : Confined w.kern) (hl : LipschitzKernel w.kern)
    {x : X → List ℝ} (hx : ∀ z, (x z).length = m.nmesh.length) (hlip : ∀ j < m.nmesh.length, ∀ z z', |(x z).getD j 0 - (x z').getD j 0| ≤ ‖z - z'‖) {g : List ℕ} (hg : g.length = m.nmesh.length) :
    BL fun z => m.weightAt w (x z) g := by
  simp only [fun z => weightAt_prod hm w (hx z) hg]
  refine BL.listProd _ _ fun j hj => ?_
  have hj := List.mem_range.1 hj
  refine BL.comp (gridW_BL hw hk hl _ _ _) (u := fun z => (x z).getD j 0 * ((m.nmesh.getD j 0 : ℕ) / m.box.getD j 0)) (c := |(m.nmesh.getD j 0 : ℕ) / m.box.getD j 0|) (abs_nonneg _) fun z z' => ?_
  rw [← sub_mul, abs_mul, mul_comm]
  exact mul_le_mul_of_nonneg_left (hlip j hj z z') (abs_nonneg _)

theorem r2c_BL (nmesh : List ℕ) {f : X → List ℕ → ℝ} (hf : ∀ g, ValidIndex nmesh g → BL fun z => f z g) (k : List ℕ) : BL fun z => r2c nmesh (f z) k := by
  unfold r2c dftForward
  refine (BL.listSum _ (fun g z => (f z g : ℂ) * _) fun g hg => BL.mul (BL.map (fun x : ℝ => (x : ℂ)) (fun x => by simp) (fun x y => by simp) (hf g (mem_ndindex.1 hg))) (BL.const _)).mul (BL.const _)

theorem c2r_BL (nmesh cshape : List ℕ) {F : X → List ℕ → ℂ} (hF : ∀ k, BL fun z => F z k) (g : List ℕ) : BL fun z => c2r nmesh cshape (F z) g := by
  unfold c2r dftBackward
  refine BL.map Complex.re (fun x => Complex.abs_re_le_norm x) (fun x y => rfl) (BL.listSum _ _ fun k _ => BL.mul ?_ (BL.const _))
  unfold decompress
  split
  · exact hF k
  · exact BL.map (starRingEnd ℂ) (fun x => by simp) (fun x y => map_sub _ _ _) (hF _)
end

theorem pmForce_BL {N : ℕ} {m : PMesh ℝ} (hm : m.OK) (Q : Fin N → Fin m.nmesh.length → ℝ) (cshape : List ℕ) {w : Resampler ℝ} (hw : w.Valid) (hk : Confined w.kern) (hl : LipschitzKernel w.kern)
    (om : ℝ) (J : List (Fin N)) : BL (pmForce Q m cshape w om J) := by
  have hx : ∀ (i : Fin N) (g : List ℕ), ValidIndex m.nmesh g → BL fun S : Fin N → Fin m.nmesh.length → ℝ => m.weightAt w (List.ofFn fun d => S i d + Q i d) g := by
    intro i g hg
    refine weightAt_BL hm hw hk hl (fun S => by simp) (fun j hj S S' => ?_) hg.len
    rw [List.getD_eq_getElem _ _ (by simpa using hj), List.getD_eq_getElem _ _ (by simpa using hj)]
    simp only [List.getElem_ofFn, add_sub_add_right_eq_sub]
    exact (norm_le_pi_norm ((S - S') i) ⟨j, hj⟩).trans (norm_le_pi_norm (S - S') i)
  have hcomp : ∀ i d, BL fun S => pmForce Q m cshape w om J S i d := by
    intro i d
    unfold pmForce
    refine (BL.const _).mul (BL.listSum _ _ fun g hg => (hx i g (mem_ndindex.1 hg)).mul (c2r_BL _ _ (fun k => ?_) g))
    exact (BL.const _).mul (r2c_BL _ (fun g hg => BL.listSum _ _ fun j _ => (BL.const _).mul (hx j g hg)) k)
  choose M L hM hL h1 h2 using hcomp
  refine ⟨∑ i, ∑ d, M i d, ∑ i, ∑ d, L i d, Finset.sum_nonneg fun i _ => Finset.sum_nonneg fun d _ => hM i d, Finset.sum_nonneg fun i _ => Finset.sum_nonneg fun d _ => hL i d, fun S => ?_, fun S S' => ?_⟩
  · have hnn : 0 ≤ ∑ i, ∑ d, M i d := Finset.sum_nonneg fun i _ => Finset.sum_nonneg fun d _ => hM i d
    refine (pi_norm_le_iff_of_nonneg hnn).2 fun i => (pi_norm_le_iff_of_nonneg hnn).2 fun d => (h1 i d S).trans ?_
    exact (Finset.single_le_sum (f := fun d => M i d) (fun d _ => hM i d) (Finset.mem_univ d)).trans
      (Finset.single_le_sum (f := fun i => ∑ d, M i d) (fun i _ => Finset.sum_nonneg fun d _ => hM i d) (Finset.mem_univ i))
  · have hnn : 0 ≤ (∑ i, ∑ d, L i d) * ‖S - S'‖ := mul_nonneg (Finset.sum_nonneg fun i _ => Finset.sum_nonneg fun d _ => hL i d) (norm_nonneg _)
    refine (pi_norm_le_iff_of_nonneg hnn).2 fun i => (pi_norm_le_iff_of_nonneg hnn).2 fun d => (h2 i d S S').trans (mul_le_mul_of_nonneg_right ?_ (norm_nonneg _))
    exact (Finset.single_le_sum (f := fun d => L i d) (fun d _ => hL i d) (Finset.mem_univ d)).trans
      (Finset.single_le_sum (f := fun i => ∑ d, L i d) (fun i _ => Finset.sum_nonneg fun d _ => hL i d) (Finset.mem_univ i))

/-! ## The kernels -/

theorem lipschitz_of_deriv {k k' : ℝ → ℝ} (h : ∀ x, HasDerivAt k (k' x) x) {c : ℝ} (hc : ∀ x, |k' x| ≤ c) (x y : ℝ) : |k x - k y| ≤ c * |x - y| :=
  convex_univ.norm_image_sub_le_of_norm_hasDerivWithin_le (f := k) (fun s _ => (h s).hasDerivWithinAt) (fun s _ => hc s) (Set.mem_univ y) (Set.mem_univ x)

theorem linear_lipschitz : LipschitzKernel (linearK : Kern ℝ) := by
  refine ⟨1, fun x y => ?_⟩
  show |linearKernel x - linearKernel y| ≤ _
  have e : ∀ x : ℝ, linearKernel x = max (1 - |x|) 0 := by
    intro x
    unfold linearKernel
    split_ifs with h
    · rw [max_eq_left (by linarith)]
    · rw [max_eq_right (by linarith [not_lt.1 h])]
  rw [e, e, one_mul]
  calc _ ≤ |(1 - |x|) - (1 - |y|)| := abs_max_sub_max_le_abs _ _ _
    _ = |(|y| - |x|)| := by congr 1; ring
    _ ≤ |y - x| := abs_abs_sub_abs_le _ _
    _ = _ := abs_sub_comm _ _

theorem quadratic_lipschitz : LipschitzKernel (quadraticK : Kern ℝ) := by
  refine ⟨1, lipschitz_of_deriv quadratic_hasDerivAt fun x => ?_⟩
  simp only [quadraticDiff]
  split_ifs <;> simp only at * <;> rw [abs_le] <;> constructor <;> nlinarith

theorem cubic_lipschitz : LipschitzKernel (cubicK : Kern ℝ) := by
  refine ⟨2, lipschitz_of_deriv cubic_hasDerivAt fun x => ?_⟩
  simp only [cubicDiff]
  split_ifs <;> simp only at * <;> rw [abs_le] <;> constructor <;> nlinarith

end Pmesh
