import Verif.Model.AddMul
import Verif.Props.Norm
import Verif.Props.Helpers
import Verif.Props.Fourier
import Mathlib.Tactic.Ring
import Mathlib.Tactic.LinearCombination

/-!
# C121: a step of the optimiser adds a multiple of the direction

`addmul(a, b, c, p)` of the vector space of abopt is `a + c ** p * b` for real numbers `c`, on real fields, complex fields and arrays,
and the inner product of the space is linear in it, so that along a line the squared distance is the parabola a line search assumes.
Violated for complex fields: a number `a` is added to the imaginary parts too, the imaginary part of a number `c` is
dropped, a field `c` multiplies real with real and imaginary with imaginary parts; untransposed fields are refused.
-/

namespace Pmesh

section
variable {K : Type} [Field K]

theorem cxPow_real (c : K) (p : ℕ) : cxPow (c, 0) p = (c ^ p, 0) := by
  induction p with
  | zero => simp [cxPow]
  | succ p ih => simp [cxPow, ih, cxMul, pow_succ, mul_comm]

theorem vsAddmul_real (f g : List ℕ → K) (c : K) (p : ℕ) :
    vsAddmul (.real f) (.real g) (.num (c, 0)) p = .ok (.real fun i => f i + c ^ p * g i) := by
  simp only [vsAddmul, VsVal.pow, VsVal.ufunc, bind, Except.bind, cxPow_real]
  congr 2
  funext i
  simp [cxMul, mul_comm]

theorem vsAddmul_complex (f g : List ℕ → Cx K) (c : K) (p : ℕ) :
    vsAddmul (.complex f) (.complex g) (.num (c, 0)) p =
      .ok (.complex fun i => ((f i).1 + c ^ p * (g i).1, (f i).2 + c ^ p * (g i).2)) := by
  simp only [vsAddmul, VsVal.parts, bind, Except.bind, pure, Except.pure, cxPow_real]
  congr 2
  funext i
  simp [cxMul, mul_comm]

/-- **C121, real fields.**  The ranks hold `A + c ** p * B`. -/
theorem C121_real (t : Tiling) (f g : ℕ → List ℕ → K) (A B : List ℕ → K) (hf : t.Holds f A) (hg : t.Holds g B) (c : K) (p : ℕ) :
    ∃ v : ℕ → List ℕ → K, (∀ r, vsAddmul (.real (f r)) (.real (g r)) (.num (c, 0)) p = .ok (.real (v r))) ∧
      t.Holds v fun x => A x + c ^ p * B x :=
  ⟨fun r i => f r i + c ^ p * g r i, fun r => vsAddmul_real _ _ c p, fun r hr i hi => by
    show _ + _ * _ = _
    rw [hf r hr i hi, hg r hr i hi]⟩

/-- **C121, real fields**, a number `a` is added everywhere; a field `c` multiplies point by point. -/
theorem C121_pointwise (t : Tiling) (g h : ℕ → List ℕ → K) (B C : List ℕ → K) (hg : t.Holds g B) (hh : t.Holds h C) (a : K) (p : ℕ) :
    ∃ v : ℕ → List ℕ → K, (∀ r, vsAddmul (.num (a, 0)) (.real (g r)) (.real (h r)) p = .ok (.real (v r))) ∧
      t.Holds v fun x => a + B x * C x ^ p := by
  refine ⟨fun r i => a + g r i * h r i ^ p, fun r => ?_, fun r hr i hi => ?_⟩
  · simp only [vsAddmul, VsVal.pow, VsVal.ufunc, bind, Except.bind, cxPow_real]
    congr 2
    funext i
    simp [cxMul]
  · show _ + _ * _ = _
    rw [hg r hr i hi, hh r hr i hi]

/-- **C121, complex fields.**  The ranks hold `S + c ** p * T`, which is the spectrum of a real field if `S` and `T` are. -/
theorem C121_complex (t : Tiling) (f g : ℕ → List ℕ → Cx K) (S T : List ℕ → Cx K) (hf : t.Holds f S) (hg : t.Holds g T) (c : K) (p : ℕ) :
    ∃ (v : ℕ → List ℕ → Cx K) (V : List ℕ → Cx K),
      (∀ r, vsAddmul (.complex (f r)) (.complex (g r)) (.num (c, 0)) p = .ok (.complex (v r))) ∧ t.Holds v V ∧
      (∀ x, V x = S x + cxMul (c ^ p, 0) (T x)) ∧
      (HermitianSpectrum t.nmesh S → HermitianSpectrum t.nmesh T → HermitianSpectrum t.nmesh V) := by
  refine ⟨fun r i => ((f r i).1 + c ^ p * (g r i).1, (f r i).2 + c ^ p * (g r i).2),
    fun x => S x + cxMul (c ^ p, 0) (T x), fun r => vsAddmul_complex _ _ c p, fun r hr i hi => ?_, fun _ => rfl, fun hS hT x hx => ?_⟩
  · show (_, _) = _
    rw [hf r hr i hi, hg r hr i hi]
    ext <;> simp [cxMul]
  · show _ + cxMul _ _ = cxConj (_ + cxMul _ _)
    rw [hS x hx, hT x hx]
    ext <;> simp [cxMul, cxConj] <;> ring

/-- **C121, inner product of real fields.**  All ranks get `A·D + c ** p * B·D`, and `A·A + 2 s A·B + s² B·B` with `s = c ** p` for the
square. -/
theorem C121_dot_real (t : Tiling) (ht : t.OK) (f g h : ℕ → List ℕ → K) (A B D : List ℕ → K) (hf : t.Holds f A) (hg : t.Holds g B)
    (hh : t.Holds h D) (c : K) (p : ℕ) (v : ℕ → List ℕ → K)
    (hv : ∀ r, vsAddmul (.real (f r)) (.real (g r)) (.num (c, 0)) p = .ok (.real (v r))) :
    AllReturn t.nrank (fun r => realCdot t r (v r) (h r)) (fun _ =>
      ((ndindex t.cshape).map fun x => A x * D x).sum + c ^ p * ((ndindex t.cshape).map fun x => B x * D x).sum) ∧
    AllReturn t.nrank (fun r => realCdot t r (v r) (v r)) (fun _ =>
      ((ndindex t.cshape).map fun x => A x * A x).sum + 2 * c ^ p * ((ndindex t.cshape).map fun x => A x * B x).sum +
        (c ^ p) ^ 2 * ((ndindex t.cshape).map fun x => B x * B x).sum) := by
  obtain ⟨w, hw, hV⟩ := C121_real t f g A B hf hg c p
  have hvw : v = w := by
    funext r
    have := (hv r).symm.trans (hw r)
    simpa using this
  subst hvw
  have key : ∀ (u : ℕ → List ℕ → K) (U : List ℕ → K), t.Holds u U → AllReturn t.nrank (fun r => realCdot t r (v r) (u r)) fun _ =>
      ((ndindex t.cshape).map fun x => (A x + c ^ p * B x) * U x).sum := by
    intro u U hu
    refine AllReturn.coll ht.rank_pos ?_
    refine AllReturn.congr (fun _ _ => rfl) (fun r _ => ?_) (AllReturn.ret t.nrank _)
    rw [← tiles_sum ht]
    refine congrArg List.sum (List.map_congr_left fun r hr => ?_)
    rw [List.mem_range] at hr
    refine congrArg List.sum (List.map_congr_left fun i hi => ?_)
    rw [hV r hr i (mem_ndindex.1 hi), hu r hr i (mem_ndindex.1 hi)]
  constructor
  · refine AllReturn.congr (fun _ _ => rfl) (fun _ _ => ?_) (key h D hh)
    induction ndindex t.cshape with
    | nil => simp
    | cons x l ih => simp only [List.map_cons, List.sum_cons]; linear_combination ih
  · refine AllReturn.congr (fun _ _ => rfl) (fun _ _ => ?_) (key v _ hV)
    induction ndindex t.cshape with
    | nil => simp
    | cons x l ih => simp only [List.map_cons, List.sum_cons]; linear_combination ih

theorem cdot_value (pi : K) (t : Tiling) (hn : 0 < t.nrank) {comp : Bool} (hc : t.compressed = some comp) (box : List K)
    (metric2 : Option (K → K)) (f g : ℕ → List ℕ → Cx K) :
    AllReturn t.nrank (fun r => cdot pi t box metric2 r (f r) (g r)) fun _ =>
      some ((List.range t.nrank).map fun r => ((ndindex (t.lshape r)).map fun c =>
        cxMul (expandHermitian t comp (t.global r c) (cxMul (cxConj (g r c)) (f r c)))
          (metric2.elim 1 fun m => m (kSquared pi t.nmesh box (t.global r c)), 0)).sum).sum := by
  unfold cdot
  rw [hc]
  exact AllReturn.coll hn (AllReturn.ret t.nrank _)

/-- Sums over the elements of all ranks keep linear relations. -/
theorem sums_linear {M : Type} [AddCommGroup M] [Module K M] (n : ℕ) (I : ℕ → List (List ℕ)) (F G H : ℕ → List ℕ → M) (s : K)
    (h : ∀ r i, F r i = G r i + s • H r i) :
    ((List.range n).map fun r => ((I r).map (F r)).sum).sum =
      ((List.range n).map fun r => ((I r).map (G r)).sum).sum + s • ((List.range n).map fun r => ((I r).map (H r)).sum).sum := by
  have h1 : ∀ r, ((I r).map (F r)).sum = ((I r).map (G r)).sum + s • ((I r).map (H r)).sum := by
    intro r
    induction I r with
    | nil => simp
    | cons i l ih => simp only [List.map_cons, List.sum_cons, ih, h]; module
  induction List.range n with
  | nil => simp
  | cons r l ih =>
    simp only [List.map_cons, List.sum_cons]
    rw [ih, h1]
    module

/-- **C121, inner product of complex fields**, for every mesh, also of odd size, and every metric: if `cdot` gives `x` for `a` and `y`
for `b`, it gives `x + c ** p * y` for `addmul(a, b, c, p)`. -/
theorem C121_dot_complex (pi : K) (t : Tiling) (ht : t.OK) (hst : t.compressed ≠ none) (box : List K) (metric2 : Option (K → K))
    (f g h v : ℕ → List ℕ → Cx K) (c : K) (p : ℕ)
    (hv : ∀ r, vsAddmul (.complex (f r)) (.complex (g r)) (.num (c, 0)) p = .ok (.complex (v r))) :
    ∃ x y : Cx K, AllReturn t.nrank (fun r => cdot pi t box metric2 r (f r) (h r)) (fun _ => some x) ∧
      AllReturn t.nrank (fun r => cdot pi t box metric2 r (g r) (h r)) (fun _ => some y) ∧
      AllReturn t.nrank (fun r => cdot pi t box metric2 r (v r) (h r)) (fun _ => some (x + cxMul (c ^ p, 0) y)) := by
  obtain ⟨comp, hc⟩ := Option.ne_none_iff_exists'.1 hst
  have hv' : v = fun r i => ((f r i).1 + c ^ p * (g r i).1, (f r i).2 + c ^ p * (g r i).2) := by
    funext r
    have := (hv r).symm.trans (vsAddmul_complex _ _ c p)
    simpa using this
  refine ⟨_, _, cdot_value pi t ht.rank_pos hc box metric2 f h, cdot_value pi t ht.rank_pos hc box metric2 g h, ?_⟩
  refine AllReturn.congr (fun _ _ => rfl) (fun _ _ => ?_) (cdot_value pi t ht.rank_pos hc box metric2 v h)
  have hs : ∀ y : Cx K, cxMul (c ^ p, 0) y = c ^ p • y := fun y => by ext <;> simp [cxMul]
  refine congrArg some ?_
  rw [hs]
  symm
  refine sums_linear (K := K) t.nrank (fun r => ndindex (t.lshape r)) _ _ _ (c ^ p) fun r i => ?_
  subst hv'
  unfold expandHermitian
  split_ifs <;> ext <;> simp [cxMul, cxConj] <;> (try split_ifs) <;> (try simp) <;> ring

/-- **C121, squares of complex fields.**  The real part of `cdot` along a line is the parabola of the values at its two fields. -/
theorem C121_square_complex (pi : K) (t : Tiling) (ht : t.OK) (hst : t.compressed ≠ none) (box : List K) (metric2 : Option (K → K))
    (f g v : ℕ → List ℕ → Cx K) (c : K) (p : ℕ)
    (hv : ∀ r, vsAddmul (.complex (f r)) (.complex (g r)) (.num (c, 0)) p = .ok (.complex (v r))) :
    ∃ x y z w : Cx K, AllReturn t.nrank (fun r => cdot pi t box metric2 r (f r) (f r)) (fun _ => some x) ∧
      AllReturn t.nrank (fun r => cdot pi t box metric2 r (f r) (g r)) (fun _ => some y) ∧
      AllReturn t.nrank (fun r => cdot pi t box metric2 r (g r) (g r)) (fun _ => some z) ∧
      AllReturn t.nrank (fun r => cdot pi t box metric2 r (v r) (v r)) (fun _ => some w) ∧
      w.1 = x.1 + 2 * c ^ p * y.1 + (c ^ p) ^ 2 * z.1 := by
  obtain ⟨comp, hc⟩ := Option.ne_none_iff_exists'.1 hst
  have hv' : v = fun r i => ((f r i).1 + c ^ p * (g r i).1, (f r i).2 + c ^ p * (g r i).2) := by
    funext r
    have := (hv r).symm.trans (vsAddmul_complex _ _ c p)
    simpa using this
  refine ⟨_, _, _, _, cdot_value pi t ht.rank_pos hc box metric2 f f, cdot_value pi t ht.rank_pos hc box metric2 f g,
    cdot_value pi t ht.rank_pos hc box metric2 g g, cdot_value pi t ht.rank_pos hc box metric2 v v, ?_⟩
  have hfst : ∀ F : ℕ → List ℕ → Cx K,
      (((List.range t.nrank).map fun r => ((ndindex (t.lshape r)).map (F r)).sum).sum).1 =
        ((List.range t.nrank).map fun r => ((ndindex (t.lshape r)).map fun i => (F r i).1).sum).sum := by
    intro F
    have h0 : ∀ (l : List (Cx K)), l.sum.1 = (l.map Prod.fst).sum := fun l => by
      induction l with
      | nil => rfl
      | cons a l ih => simp [ih]
    rw [h0, List.map_map]
    refine congrArg List.sum (List.map_congr_left fun r _ => ?_)
    rw [Function.comp, h0, List.map_map]
    rfl
  rw [hfst, hfst, hfst, hfst]
  let E : (ℕ → List ℕ → Cx K) → (ℕ → List ℕ → Cx K) → ℕ → List ℕ → K := fun u w r i =>
    (cxMul (expandHermitian t comp (t.global r i) (cxMul (cxConj (w r i)) (u r i)))
      (metric2.elim 1 fun m => m (kSquared pi t.nmesh box (t.global r i)), 0)).1
  have e1 := sums_linear (K := K) (M := K) t.nrank (fun r => ndindex (t.lshape r))
    (fun r i => E f f r i + (2 * c ^ p) • E f g r i) (E f f) (E f g) (2 * c ^ p) fun _ _ => rfl
  have e2 := sums_linear (K := K) (M := K) t.nrank (fun r => ndindex (t.lshape r))
    (E v v) (fun r i => E f f r i + (2 * c ^ p) • E f g r i) (E g g) ((c ^ p) ^ 2) (fun r i => ?_)
  · exact e2.trans (by rw [e1]; rfl)
  · subst hv'
    show (cxMul (expandHermitian _ _ _ _) _).1 = (cxMul (expandHermitian _ _ _ _) _).1 +
      _ • (cxMul (expandHermitian _ _ _ _) _).1 + _ • (cxMul (expandHermitian _ _ _ _) _).1
    unfold expandHermitian
    split_ifs <;> simp [cxMul, cxConj] <;> (try split_ifs) <;> (try simp) <;> ring

/-- **C121, arrays** with one number for each particle: `dot` of `addmul` is linear, on any number of ranks. -/
theorem C121_dot_array {n : ℕ} (hn : 0 < n) (q : ℕ → ℕ) (a b d : ℕ → List K) (ha : ∀ r < n, (a r).length = q r)
    (hb : ∀ r < n, (b r).length = q r) (hd : ∀ r < n, (d r).length = q r) (c : K) (p : ℕ) :
    ∃ v : ℕ → List K, (∀ r < n, vsAddmulArray (q r) (.arr (a r)) (b r) (.num c) p = .ok (v r)) ∧
      (∀ r < n, (v r).length = q r) ∧ (∀ r < n, ∀ j < q r, (v r).getD j 0 = (a r).getD j 0 + c ^ p * (b r).getD j 0) ∧
      AllReturn n (fun r => vsDot (q r) (.vec (v r)) (.vec (d r))) fun _ =>
        .ok (.num (((List.range n).map fun r => dot (a r) (d r)).sum + c ^ p * ((List.range n).map fun r => dot (b r) (d r)).sum)) := by
  have hlen : ∀ r < n, (List.zipWith (fun y x => x + y) ((b r).map fun y => y * c ^ p) (a r)).length = q r := by
    intro r hr; simp [ha r hr, hb r hr]
  refine ⟨fun r => List.zipWith (fun y x => x + y) ((b r).map fun y => y * c ^ p) (a r), fun r hr => ?_, hlen, fun r hr j hj => ?_, ?_⟩
  · simp [vsAddmulArray, ArrVal.with, bind, Except.bind, ha r hr, hb r hr]
  · have h1 : j < (a r).length := by rw [ha r hr]; exact hj
    have h2 : j < (b r).length := by rw [hb r hr]; exact hj
    simp [List.getD_eq_getElem?_getD, List.getElem?_zipWith, h1, h2, mul_comm]
  · refine AllReturn.congr (fun _ _ => rfl) (fun _ _ => ?_) (C97_vectors_partial hn q _ d hlen hd)
    have hlin : ∀ (a b d : List K), a.length = b.length → d.length = b.length →
        dot (List.zipWith (fun y x => x + y) (b.map fun y => y * c ^ p) a) d = dot a d + c ^ p * dot b d := by
      intro a
      induction a with
      | nil => intro b d h1 h2; cases b <;> simp_all [dot]
      | cons x a ih =>
        intro b d h1 h2
        cases b with
        | nil => simp at h1
        | cons y b =>
          cases d with
          | nil => simp at h2
          | cons z d =>
            have := ih b d (by simpa using h1) (by simpa using h2)
            simp only [dot, List.map_cons, List.zipWith_cons_cons, List.sum_cons] at this ⊢
            rw [this]; ring
    congr 2
    have : ∀ l : List ℕ, (∀ r ∈ l, r < n) →
        (l.map fun r => dot (List.zipWith (fun y x => x + y) ((b r).map fun y => y * c ^ p) (a r)) (d r)).sum =
        (l.map fun r => dot (a r) (d r)).sum + c ^ p * (l.map fun r => dot (b r) (d r)).sum := by
      intro l
      induction l with
      | nil => simp
      | cons r l ih =>
        intro hl
        have hr := hl r (by simp)
        simp only [List.map_cons, List.sum_cons]
        rw [ih fun r hr => hl r (by simp [hr]), hlin _ _ _ ((ha r hr).trans (hb r hr).symm) ((hd r hr).trans (hb r hr).symm)]
        ring
    exact (this _ fun r hr => List.mem_range.1 hr).symm

/-- **C121, untransposed fields** are refused, and so is an array of another length. -/
theorem C121_refused (a c : VsVal K) (f : List ℕ → Cx K) (q : ℕ) (a' c' : ArrVal K) (b : List K) (p : ℕ) :
    vsAddmul a (.untransposed f) c p = .error .type ∧ vsAddmul a .other c p = .error .type ∧
      (b.length ≠ q → vsAddmulArray q a' b c' p = .error .assertion) :=
  ⟨rfl, rfl, fun h => by simp [vsAddmulArray, h]⟩

/-- **C121 violated, numbers added to complex fields.**  Every mode gets `a (1 + i)` instead of `a`: unless `a = 0`, the spectrum of a
real field does not stay one. -/
theorem C121_violated_number [CharZero K] (a : K) (ha : a ≠ 0) (g : List ℕ → Cx K) (c : K) (p : ℕ) (nmesh : List ℕ) (hpos : ∀ n ∈ nmesh, 0 < n)
    (hg : HermitianSpectrum nmesh g) :
    ∃ v, vsAddmul (.num (a, 0)) (.complex g) (.num (c, 0)) p = .ok (.complex v) ∧
      (∀ i, v i = (a, a) + cxMul (c ^ p, 0) (g i)) ∧ ¬ HermitianSpectrum nmesh v := by
  refine ⟨fun i => (a, a) + cxMul (c ^ p, 0) (g i), ?_, fun _ => rfl, fun h => ?_⟩
  · simp only [vsAddmul, VsVal.parts, bind, Except.bind, pure, Except.pure, cxPow_real]
    congr 2
    funext i
    ext <;> simp [cxMul, mul_comm]
  · have hv : ValidIndex nmesh (nmesh.map fun _ => 0) := by
      clear hg h
      induction nmesh with
      | nil => exact List.Forall₂.nil
      | cons n l ih => exact List.Forall₂.cons (hpos n (by simp)) (ih fun m hm => hpos m (by simp [hm]))
    have h1 := congrArg Prod.snd (h _ hv)
    have h2 := congrArg Prod.snd (hg _ hv)
    simp only [cxConj, cxMul, Prod.snd_add] at h1 h2
    rw [h2] at h1
    have : (2 : K) * a = 0 := by linear_combination h1
    rcases mul_eq_zero.1 this with h | h
    · exact two_ne_zero h
    · exact ha h

/-- **C121 violated, complex numbers.**  The imaginary part of the factor is dropped: `addmul(a, b, 1j)` is `a`. -/
theorem C121_violated_imaginary (f g : List ℕ → Cx K) (x y : K) :
    vsAddmul (.complex f) (.complex g) (.num (x, y)) = .ok (.complex fun i => f i + cxMul (x, 0) (g i)) := by
  simp only [vsAddmul, VsVal.parts, bind, Except.bind, pure, Except.pure, cxPow]
  congr 2
  funext i
  ext <;> simp [cxMul, mul_comm]

/-- **C121 violated, complex fields as factors.**  Real parts meet real parts and imaginary parts imaginary parts; this is not the
product of complex numbers (example below). -/
theorem C121_violated_product (f g h : List ℕ → Cx K) :
    vsAddmul (.complex f) (.complex g) (.complex h) =
      .ok (.complex fun i => ((f i).1 + (g i).1 * (h i).1, (f i).2 + (g i).2 * (h i).2)) := by
  simp only [vsAddmul, VsVal.parts, bind, Except.bind, pure, Except.pure, cxPow]
  congr 2
  funext i
  ext <;> simp [cxMul]

end

/-! ## Examples -/

example := C121_real exTiling (fun r c => ((exTiling.global r c).sum : ℚ)) (fun _ _ => 1) (fun x => (x.sum : ℚ)) (fun _ => 1)
  (fun _ _ _ _ => rfl) (fun _ _ _ _ => rfl) 3 2

example := C121_pointwise exTiling (fun r c => ((exTiling.global r c).sum : ℚ)) (fun _ _ => 5) (fun x => (x.sum : ℚ)) (fun _ => 5)
  (fun _ _ _ _ => rfl) (fun _ _ _ _ => rfl) 7 2

/-- A non-trivial step along the spectrum `exFull`, and the hypotheses of the statements about inner products. -/
example := C121_complex exTiling (fun r c => exFull (exTiling.global r c)) (fun r c => exFull (exTiling.global r c)) exFull exFull
  (fun _ _ _ _ => rfl) (fun _ _ _ _ => rfl) (1 / 2) 1

example := C121_dot_real exTiling exTiling_ok (fun r c => ((exTiling.global r c).sum : ℚ)) (fun _ _ => 1) (fun _ _ => 2) (fun x => (x.sum : ℚ))
  (fun _ => 1) (fun _ => 2) (fun _ _ _ _ => rfl) (fun _ _ _ _ => rfl) (fun _ _ _ _ => rfl) 3 1 _ fun _ => vsAddmul_real _ _ 3 1

example := C121_dot_complex (22 / 7) exTiling exTiling_ok (by decide) [1, 2] (some fun k2 => k2 + 1) (fun r c => exFull (exTiling.global r c))
  (fun _ _ => (1, 2)) (fun _ _ => (3, 4)) _ 3 1 fun _ => vsAddmul_complex _ _ 3 1

example := C121_square_complex (22 / 7) exTiling exTiling_ok (by decide) [1, 2] (some fun k2 => k2 + 1)
  (fun r c => exFull (exTiling.global r c)) (fun _ _ => (1, 2)) _ 3 1 fun _ => vsAddmul_complex _ _ 3 1

example := C121_dot_array (K := ℚ) (n := 2) (by decide) (fun r => r) (fun r => if r = 0 then [] else [3])
  (fun r => if r = 0 then [] else [5]) (fun r => if r = 0 then [] else [7]) (by decide) (by decide) (by decide) 2 3

example := C121_violated_number (1 : ℚ) (by decide) exFull 2 1 [4, 4] (by decide) exFull_hermitian

/-- The wrong product: `i` times `i` is `-1`, but `addmul` adds `i`. -/
example : ∃ v, vsAddmul (.complex fun _ => (0, 0)) (.complex fun _ => (0, 1)) (.complex fun _ => ((0, 1) : Cx ℚ)) = .ok (.complex v) ∧
    v [] = (0, 1) ∧ cxMul (0, 1) ((0, 1) : Cx ℚ) = (-1, 0) :=
  ⟨_, C121_violated_product _ _ _, by norm_num, by norm_num [cxMul]⟩

#print axioms C121_real
#print axioms C121_pointwise
#print axioms C121_complex
#print axioms C121_dot_real
#print axioms C121_dot_complex
#print axioms C121_square_complex
#print axioms C121_dot_array
#print axioms C121_refused
#print axioms C121_violated_number
#print axioms C121_violated_imaginary
#print axioms C121_violated_product

end Pmesh
