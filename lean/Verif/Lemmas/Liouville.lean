import Verif.Lemmas.NBody
import Verif.Spec.Liouville
import Mathlib.MeasureTheory.Measure.Prod
import Mathlib.MeasureTheory.Group.Prod
import Mathlib.MeasureTheory.Constructions.BorelSpace.Order
import Mathlib.MeasureTheory.Function.Floor
import Mathlib.MeasureTheory.Measure.Haar.OfBasis
import Mathlib.MeasureTheory.Constructions.BorelSpace.Complex

/-! # Phase space: forces are measurable, statements are shears -/

namespace Pmesh

open MeasureTheory

section
variable {Z : Type*} [MeasurableSpace Z]

theorem measurable_listSum {A M : Type*} [AddCommMonoid M] [MeasurableSpace M] [MeasurableAdd₂ M] (l : List A) (f : A → Z → M) (h : ∀ a ∈ l, Measurable (f a)) :
    Measurable fun z => (l.map fun a => f a z).sum := by
  induction l with
  | nil => simp
  | cons a l ih =>
    simp only [List.map_cons, List.sum_cons]
    exact (h a List.mem_cons_self).add (ih fun b hb => h b (List.mem_cons_of_mem _ hb))

theorem measurable_cell {f : Z → ℤ} (hf : Measurable f) {v : Z → ℝ} (hv : Measurable v) (c : ℤ) : Measurable fun z => if f z = c then v z else 0 :=
  Measurable.ite (hf (measurableSet_singleton c)) hv measurable_const

theorem measurable_ints {f : Z → ℤ} (hf : Measurable f) (g : ℤ → ℤ) : Measurable fun z => g (f z) := Measurable.of_discrete.comp hf

theorem genStencil_measurable (k : Kern ℝ) (hk : Measurable k.kernel) (w : Win ℝ) (ax : PAxis ℝ) (h0 : ax.order = 0) (c : ℤ) {x : Z → ℝ} (hx : Measurable x) :
    Measurable fun z => cw (genStencil k w ax (x z)) c := by
  unfold cw genStencil
  simp only [List.map_map]
  refine measurable_listSum (List.range w.support) (fun j z => if genWrap ax.period ((fillAxis k w ax (x z)).1 + j) = c then
    (fillAxis k w ax (x z)).2.getD j 0 else 0) fun j hj => ?_
  have hj := List.mem_range.1 hj
  have hg : Measurable fun z => ax.grid (x z) := (hx.mul_const _).add_const _
  have hi : Measurable fun z => (fillAxis k w ax (x z)).1 := by
    simp only [fillAxis]
    exact measurable_ints (hg.add_const _).floor (fun i => i - w.left)
  refine measurable_cell (measurable_ints hi fun i => genWrap ax.period (i + j)) ?_ c
  have : ∀ z, (fillAxis k w ax (x z)).2.getD j 0 = k.kernel ((ax.grid (x z) - ((fillAxis k w ax (x z)).1 : ℝ) - j) * w.vfactor) * w.vfactor := by
    intro z
    simp [fillAxis, h0, hj]
  simp only [this]
  have hc : Measurable fun z => (((fillAxis k w ax (x z)).1 : ℤ) : ℝ) := (Measurable.of_discrete (f := fun i : ℤ => (i : ℝ))).comp hi
  exact (hk.comp (((hg.sub hc).sub_const _).mul_const _)).mul_const _

theorem tunedStencil_measurable (t : Tuned) (ax : PAxis ℝ) (h0 : ax.order = 0) (c : ℤ) {x : Z → ℝ} (hx : Measurable x) :
    Measurable fun z => cw (tunedStencil t ax (x z)) c := by
  have hg : Measurable fun z => ax.grid (x z) := (hx.mul_const _).add_const _
  have hf0 : Measurable fun z => ⌊ax.grid (x z)⌋ := hg.floor
  have hf1 : Measurable fun z => ⌊ax.grid (x z) + 1 / 2⌋ := (hg.add_const _).floor
  have c0 : Measurable fun z => ((⌊ax.grid (x z)⌋ : ℤ) : ℝ) := (Measurable.of_discrete (f := fun i : ℤ => (i : ℝ))).comp hf0
  have c1 : Measurable fun z => ((⌊ax.grid (x z) + 1 / 2⌋ : ℤ) : ℝ) := (Measurable.of_discrete (f := fun i : ℤ => (i : ℝ))).comp hf1
  cases t
  · simp only [cw, tunedStencil, tunedSetup, h0, if_true, List.map_cons, List.map_nil, List.zip_cons_cons, List.zip_nil_right, List.sum_cons, List.sum_nil,
      add_zero]
    exact measurable_cell (measurable_ints hf1 (tunedWrap ax.period)) measurable_const c
  · simp only [cw, tunedStencil, tunedSetup, h0, if_true, List.map_cons, List.map_nil, List.zip_cons_cons, List.zip_nil_right, List.sum_cons, List.sum_nil,
      add_zero]
    exact (measurable_cell (measurable_ints hf0 (tunedWrap ax.period)) (by fun_prop) c).add
      (measurable_cell (measurable_ints hf0 fun i => tunedWrap ax.period (i + 1)) (by fun_prop) c)
  · simp only [cw, tunedStencil, tunedSetup, h0, if_true, List.map_cons, List.map_nil, List.zip_cons_cons, List.zip_nil_right, List.sum_cons, List.sum_nil,
      add_zero, Int.cast_sub, Int.cast_add, Int.cast_one]
    exact (measurable_cell (measurable_ints hf1 fun i => tunedWrap ax.period (i - 1)) (by fun_prop) c).add
      ((measurable_cell (measurable_ints hf1 (tunedWrap ax.period)) (by fun_prop) c).add
      (measurable_cell (measurable_ints hf1 fun i => tunedWrap ax.period (i + 1)) (by fun_prop) c))
  · simp only [cw, tunedStencil, tunedSetup, h0, if_true, List.map_cons, List.map_nil, List.zip_cons_cons, List.zip_nil_right, List.sum_cons, List.sum_nil,
      add_zero, Int.cast_sub, Int.cast_add, Int.cast_one]
    exact (measurable_cell (measurable_ints hf0 fun i => tunedWrap ax.period (i - 1)) (by fun_prop) c).add
      ((measurable_cell (measurable_ints hf0 (tunedWrap ax.period)) (by fun_prop) c).add
      ((measurable_cell (measurable_ints hf0 fun i => tunedWrap ax.period (i + 1)) (by fun_prop) c).add
      (measurable_cell (measurable_ints hf0 fun i => tunedWrap ax.period (i + 1 + 1)) (by fun_prop) c)))

theorem axisStencil_measurable (P : Painter ℝ) (hk : Measurable P.kern.kernel) (h : ℝ) (ax : PAxis ℝ) (h0 : ax.order = 0) (c : ℤ) {x : Z → ℝ} (hx : Measurable x) :
    Measurable fun z => cw (axisStencil P h ax (x z)) c := by
  unfold axisStencil
  cases fastMethod P (partWin P h) with
  | none => exact genStencil_measurable P.kern hk _ ax h0 c hx
  | some t => exact tunedStencil_measurable t ax h0 c hx

theorem cwProd_measurable (P : Painter ℝ) (hk : Measurable P.kern.kernel) (h : ℝ) : ∀ (axes : List (PAxis ℝ)) (_ : ∀ ax ∈ axes, ax.order = 0) (xs : List (Z → ℝ))
    (_ : ∀ x ∈ xs, Measurable x) (g : List ℕ), Measurable fun z => cwProd (List.zipWith (axisStencil P h) axes (xs.map fun x => x z)) g
  | [], _, xs, _, g => by simp [cwProd]
  | ax :: axes, _, [], _, g => by simp [cwProd]
  | ax :: axes, _, x :: xs, _, [] => by simp [cwProd]
  | ax :: axes, ha, x :: xs, hx, c :: g => by
    simp only [List.map_cons, List.zipWith_cons_cons, cwProd]
    exact (axisStencil_measurable P hk h ax (ha ax List.mem_cons_self) c (hx x List.mem_cons_self)).mul
      (cwProd_measurable P hk h axes (fun a h => ha a (List.mem_cons_of_mem _ h)) xs (fun a h => hx a (List.mem_cons_of_mem _ h)) g)

theorem weightAt_measurable (m : PMesh ℝ) (w : Resampler ℝ) (hk : Measurable w.kern.kernel) {n : ℕ} {x : Z → Fin n → ℝ} (hx : Measurable x) (g : List ℕ) :
    Measurable fun z => m.weightAt w (List.ofFn (x z)) g := by
  unfold PMesh.weightAt
  have : ∀ z, List.ofFn (x z) = (List.ofFn fun d z => x z d).map fun f => f z := by
    intro z
    simp [List.map_ofFn, Function.comp_def]
  simp only [this]
  refine cwProd_measurable _ hk 1 _ ?_ _ ?_ g
  · intro ax hax
    obtain ⟨j, -, rfl⟩ := List.mem_map.1 hax
    simp
  · intro f hf
    obtain ⟨d, rfl⟩ := (List.mem_ofFn' _ _).1 hf
    exact (measurable_pi_apply d).comp hx

theorem r2c_measurable (nmesh : List ℕ) {f : Z → List ℕ → ℝ} (hf : ∀ g, Measurable fun z => f z g) (k : List ℕ) : Measurable fun z => r2c nmesh (f z) k := by
  unfold r2c dftForward
  exact (measurable_listSum _ _ fun g _ => ((Complex.measurable_ofReal.comp (hf g)).mul_const _)).mul_const _

theorem c2r_measurable (nmesh cshape : List ℕ) {F : Z → List ℕ → ℂ} (hF : ∀ k, Measurable fun z => F z k) (g : List ℕ) :
    Measurable fun z => c2r nmesh cshape (F z) g := by
  unfold c2r dftBackward
  refine Complex.measurable_re.comp (measurable_listSum _ _ fun k _ => Measurable.mul_const ?_ _)
  unfold decompress
  split
  · exact hF k
  · exact Complex.continuous_conj.measurable.comp (hF _)

end

/-! ## Statements on phase space -/

section
variable {E : Type*} [AddCommGroup E] [Module ℝ E]

/-- A statement, when the force is a function `Φ` of the displacements. -/
def phaseStep (fac : Factors) (Φ : E → E) : NbOp → E × E × E → E × E × E
  | .force, p => (p.1, p.2.1, Φ p.1)
  | .kick ai af ar, p => (p.1, p.2.1 + fac.K ai af ar • p.2.2, p.2.2)
  | .drift ai af ar, p => (p.1 + fac.D ai af ar • p.2.1, p.2.1, p.2.2)

/-- The statements. -/
def phaseRun (fac : Factors) (Φ : E → E) : List NbOp → E × E × E → E × E × E
  | [], p => p
  | op :: l, p => phaseRun fac Φ l (phaseStep fac Φ op p)

/-- Every kick uses the force of the present displacements. -/
def FreshKicks : Bool → List NbOp → Prop
  | _, [] => True
  | _, .force :: l => FreshKicks true l
  | b, .kick _ _ _ :: l => b = true ∧ FreshKicks b l
  | _, .drift _ _ _ :: l => FreshKicks false l

theorem FreshKicks.mono {l : List NbOp} (h : FreshKicks false l) : ∀ b, FreshKicks b l
  | false => h
  | true => by
    cases l with
    | nil => trivial
    | cons op l =>
      cases op with
      | force => exact h
      | kick => exact absurd h.1 (by simp)
      | drift => exact h

theorem freshKicks_steps {A : Type*} (f : A → List NbOp) (hf : ∀ p l, FreshKicks true l → FreshKicks true (f p ++ l)) : ∀ l : List A, FreshKicks true (l.flatMap f)
  | [] => trivial
  | p :: l => by
    rw [List.flatMap_cons]
    exact hf p _ (freshKicks_steps f hf l)

theorem freshKicks_scheme (scheme : List ℝ → List NbOp) (hs : scheme ∈ nbSchemes) (times : List ℝ) : ∃ l, scheme times = .force :: l ∧ FreshKicks true l := by
  simp only [nbSchemes, List.mem_cons, List.not_mem_nil, or_false] at hs
  rcases hs with rfl | rfl | rfl
  · exact ⟨_, rfl, freshKicks_steps _ (fun p l h => by simpa [FreshKicks] using h) _⟩
  · exact ⟨_, rfl, freshKicks_steps _ (fun p l h => by simpa [FreshKicks] using h) _⟩
  · exact ⟨_, rfl, freshKicks_steps _ (fun p l h => by simpa [FreshKicks] using h) _⟩

/-- What holds of shears, and of one map after the other, holds of the schemes. -/
theorem phaseRun_good (fac : Factors) (Φ : E → E) (Good : (E × E → E × E) → Prop) (hid : Good id) (hcomp : ∀ f g, Good f → Good g → Good (g ∘ f))
    (hkick : ∀ c : ℝ, Good fun z => (z.1, z.2 + c • Φ z.1)) (hdrift : ∀ c : ℝ, Good fun z => (z.1 + c • z.2, z.2)) :
    ∀ (l : List NbOp) (b : Bool), FreshKicks b l → ∃ T, Good T ∧ ∀ S V F, (b = true → F = Φ S) →
      (phaseRun fac Φ l (S, V, F)).1 = (T (S, V)).1 ∧ (phaseRun fac Φ l (S, V, F)).2.1 = (T (S, V)).2
  | [], b, _ => ⟨id, hid, fun S V F _ => ⟨rfl, rfl⟩⟩
  | .force :: l, b, h => by
    obtain ⟨T, h1, h2⟩ := phaseRun_good fac Φ Good hid hcomp hkick hdrift l true h
    exact ⟨T, h1, fun S V F _ => h2 S V (Φ S) fun _ => rfl⟩
  | .kick ai af ar :: l, b, h => by
    obtain ⟨T, h1, h2⟩ := phaseRun_good fac Φ Good hid hcomp hkick hdrift l b h.2
    refine ⟨T ∘ fun z => (z.1, z.2 + fac.K ai af ar • Φ z.1), hcomp _ _ (hkick _) h1, fun S V F hF => ?_⟩
    have hF' := hF h.1
    subst hF'
    exact h2 S (V + fac.K ai af ar • Φ S) (Φ S) fun _ => rfl
  | .drift ai af ar :: l, b, h => by
    obtain ⟨T, h1, h2⟩ := phaseRun_good fac Φ Good hid hcomp hkick hdrift l false h
    refine ⟨T ∘ fun z => (z.1 + fac.D ai af ar • z.2, z.2), hcomp _ _ (hdrift _) h1, fun S V F _ => ?_⟩
    exact h2 (S + fac.D ai af ar • V) V F (by simp)

end

/-! ## Shears keep volumes -/

section
variable {E : Type*} [AddCommGroup E] [MeasureSpace E] [MeasurableAdd₂ E] [MeasurableNeg E] [SFinite (volume : Measure E)]
  [(volume : Measure E).IsAddLeftInvariant]

/-- Invertible, and keeps volumes. -/
def KeepsVolume (T : E × E → E × E) : Prop := ∃ e : (E × E) ≃ᵐ (E × E), ⇑e = T ∧ MeasurePreserving e volume volume

omit [AddCommGroup E] [MeasurableAdd₂ E] [MeasurableNeg E] [SFinite (volume : Measure E)] [(volume : Measure E).IsAddLeftInvariant] in
theorem keeps_id : KeepsVolume (id : E × E → E × E) := ⟨MeasurableEquiv.refl _, rfl, MeasurePreserving.id _⟩

omit [AddCommGroup E] [MeasurableAdd₂ E] [MeasurableNeg E] [SFinite (volume : Measure E)] [(volume : Measure E).IsAddLeftInvariant] in
theorem keeps_comp (f g : E × E → E × E) (hf : KeepsVolume f) (hg : KeepsVolume g) : KeepsVolume (g ∘ f) := by
  obtain ⟨e, rfl, he⟩ := hf
  obtain ⟨e', rfl, he'⟩ := hg
  exact ⟨e.trans e', rfl, he'.comp he⟩

theorem keeps_kick {f : E → E} (hf : Measurable f) : KeepsVolume fun z : E × E => (z.1, z.2 + f z.1) := by
  have m1 : ∀ g : E → E, Measurable g → Measurable fun z : E × E => (z.1, z.2 + g z.1) :=
    fun g hg => measurable_fst.prodMk (measurable_snd.add (hg.comp measurable_fst))
  refine ⟨⟨⟨fun z => (z.1, z.2 + f z.1), fun z => (z.1, z.2 + (-f z.1)), fun z => by simp, fun z => by simp⟩, m1 f hf, m1 _ hf.neg⟩, rfl, ?_⟩
  refine MeasurePreserving.skew_product (μa := volume) (μb := volume) (μc := volume) (μd := volume) (f := id) (g := fun s v => v + f s)
    (MeasurePreserving.id _) ?_ ?_
  · exact measurable_snd.add (hf.comp measurable_fst)
  · refine Filter.Eventually.of_forall fun s => ?_
    simp only [add_comm _ (f s)]
    exact map_add_left_eq_self volume (f s)

theorem keeps_drift {f : E → E} (hf : Measurable f) : KeepsVolume fun z : E × E => (z.1 + f z.2, z.2) := by
  have hswap : KeepsVolume (Prod.swap : E × E → E × E) := ⟨MeasurableEquiv.prodComm, rfl, Measure.measurePreserving_swap⟩
  exact keeps_comp _ _ (keeps_comp _ _ hswap (keeps_kick hf)) hswap

end

end Pmesh
