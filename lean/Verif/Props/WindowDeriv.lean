import Verif.Props.Window
import Verif.Lemmas.Deriv

/-!
# C21: gradients are derivatives
-/

namespace Pmesh

/-- C21: the gradient kernel of tsc is the derivative of its kernel, everywhere. -/
theorem C21_kernel_tsc (x : ℝ) : HasDerivAt (quadraticK : Kern ℝ).kernel ((quadraticK : Kern ℝ).diff x) x :=
  quadratic_hasDerivAt x

/-- C21: the gradient kernel of pcs is the derivative of its kernel, everywhere. -/
theorem C21_kernel_pcs (x : ℝ) : HasDerivAt (cubicK : Kern ℝ).kernel ((cubicK : Kern ℝ).diff x) x :=
  cubic_hasDerivAt x

/-- C21: the gradient kernel of cic is the derivative of its kernel away from the kinks. -/
theorem C21_kernel_cic (x : ℝ) (h1 : x ≠ -1) (h2 : x ≠ 0) (h3 : x ≠ 1) :
    HasDerivAt (linearK : Kern ℝ).kernel ((linearK : Kern ℝ).diff x) x := linear_hasDerivAt x h1 h2 h3

/-- C21: the gradient kernel of nnb is the derivative of its kernel away from the jumps. -/
theorem C21_kernel_nnb (x : ℝ) (h1 : x ≠ -(1 / 2)) (h2 : x ≠ 1 / 2) :
    HasDerivAt (nearestK : Kern ℝ).kernel ((nearestK : Kern ℝ).diff x) x := nearest_hasDerivAt x h1 h2

/-- Every position is smooth for tsc. -/
theorem C21_smooth_tsc (s g : ℝ) : SmoothAt quadraticK s g := fun _ => C21_kernel_tsc _

/-- Every position is smooth for pcs. -/
theorem C21_smooth_pcs (s g : ℝ) : SmoothAt cubicK s g := fun _ => C21_kernel_pcs _

/-- Every position not on a grid point is smooth for cic with its native size. -/
theorem C21_smooth_cic (g : ℝ) (hg : ∀ n : ℤ, g ≠ n) : SmoothAt linearK 2 g := by
  intro n
  have e : (((linearK : Kern ℝ).native : ℕ) : ℝ) / 2 = 1 := by simp [linearK]
  rw [e, mul_one]
  apply C21_kernel_cic
  · intro h; exact hg (n - 1) (by push_cast; linarith)
  · intro h; exact hg n (by linarith)
  · intro h; exact hg (n + 1) (by push_cast; linarith)

/-- Every position not half way between grid points is smooth for nnb with its native size. -/
theorem C21_smooth_nnb (g : ℝ) (hg : ∀ n : ℤ, g ≠ n + 1 / 2) : SmoothAt nearestK 1 g := by
  intro n
  have e : (((nearestK : Kern ℝ).native : ℕ) : ℝ) / 1 = 1 := by simp [nearestK]
  rw [e, mul_one]
  apply C21_kernel_nnb
  · intro h; exact hg (n - 1) (by push_cast; linarith)
  · intro h; exact hg n (by linarith)

/-- C21: `readout(gradient=d)` is the derivative of `readout` with respect to coordinate `d` of the position, for every
field and window at a smooth position.  Missing: derivative axes on which the tuned code does not use the declared
kernel (`Faithful`, see C20 and `C21_pcs_gradient`). -/
theorem C21_readout_gradient_partial (P : Painter ℝ) (hP : P.Valid) (hk : Confined P.kern)
    (hv : ∀ ax ∈ P.axes, ax.order = 0) (p : Particle ℝ) (hl : p.pos.length = P.axes.length)
    (d : ℕ) (hd : d < P.axes.length) (hd' : d < p.pos.length) (hf : Faithful (P.grad d) p)
    (hs : SmoothAt P.kern (windowSize P p.hsml) (p.pos[d] * P.axes[d].scale + P.axes[d].translate)) (f : ℤ → ℝ) :
    ∃ (v : ℝ → ℝ) (g : ℝ), (∀ y, readout P f [{ p with pos := p.pos.set d y }] = some [v y]) ∧
      readout (P.grad d) f [p] = some [g] ∧ HasDerivAt v g p.pos[d] := by
  have hg := C14_readout_partial (P.grad d) (grad_valid hP d) (by rw [(grad_rest P d).1]; exact hk) [p]
    (by simpa [grad_axes_length] using ⟨hl, hf⟩) f
  have hR := fun y => C14_readout_partial P hP hk [{ p with pos := p.pos.set d y }]
    (by simpa using ⟨hl, faithful_values_of_grad (p := p) hv rfl hf⟩) f
  simp only [List.map_cons, List.map_nil] at hg hR
  refine ⟨_, _, hR, hg, ?_⟩
  · rw [grad_axes P d hd, shapeOf_set_grad _ _ hd P.axes[d].grad rfl, grad_windowSize, (grad_rest P d).1]
    apply sum_hasDerivAt
    intro c hc
    rw [elemAddr_set_grad _ _ hd P.axes[d].grad _ rfl]
    apply HasDerivAt.mul_const
    have hcl : c.length = P.axes.length := by
      have := (mem_ndindex.mp hc).length_eq
      simpa [shapeOf] using this.symm
    apply cellWeight_hasDerivAt hk _ _ _ _ _ hd hd' (hv _ (List.getElem_mem hd)) hs hcl
    unfold windowSize
    split
    · exact_mod_cast hP.native_pos
    · linarith

/-- C21 for painting: with a unit particle the field painted with `gradient=d` is, in every cell, the derivative of the
painted field with respect to coordinate `d` of the particle. -/
theorem C21_paint_gradient_partial (P : Painter ℝ) (hP : P.Valid) (hk : Confined P.kern) (hdi : DistinctElems P.axes)
    (hv : ∀ ax ∈ P.axes, ax.order = 0) (p : Particle ℝ) (hl : p.pos.length = P.axes.length)
    (d : ℕ) (hd : d < P.axes.length) (hd' : d < p.pos.length) (hf : Faithful (P.grad d) p)
    (hs : SmoothAt P.kern (windowSize P p.hsml) (p.pos[d] * P.axes[d].scale + P.axes[d].translate)) (m0 : ℤ → ℝ) :
    ∃ (F : ℝ → ℤ → ℝ) (G : ℤ → ℝ), (∀ y, paint P m0 [{ p with pos := p.pos.set d y }] = some (F y)) ∧
      paint (P.grad d) m0 [p] = some G ∧ ∀ c, ValidIndex (shapeOf P.axes) c →
        HasDerivAt (fun y => F y (elemAddr P.axes c)) (G (elemAddr P.axes c) - m0 (elemAddr P.axes c)) p.pos[d] := by
  have hG := C14_paint_partial (P.grad d) (grad_valid hP d) (by rw [(grad_rest P d).1]; exact hk)
    (by
      intro c c' h1 h2 h3
      rw [grad_axes P d hd, shapeOf_set_grad _ _ hd P.axes[d].grad rfl] at h1 h2
      rw [grad_axes P d hd, elemAddr_set_grad _ _ hd P.axes[d].grad _ rfl, elemAddr_set_grad _ _ hd P.axes[d].grad _ rfl] at h3
      exact hdi c c' h1 h2 h3)
    [p] (by simpa [grad_axes_length] using ⟨hl, hf⟩) m0
  obtain ⟨G, hG1, hG2, _⟩ := hG
  have hF := fun y => C14_paint_partial P hP hk hdi [{ p with pos := p.pos.set d y }]
      (by simpa using ⟨hl, faithful_values_of_grad (p := p) hv rfl hf⟩) m0
  choose F hF1 hF2 hF3 using hF
  refine ⟨F, G, hF1, hG1, fun c hc => ?_⟩
  have hcl : c.length = P.axes.length := by
    have := hc.length_eq
    simpa [shapeOf] using this.symm
  have hpos : 0 < windowSize P p.hsml := by
    unfold windowSize
    split
    · exact_mod_cast hP.native_pos
    · linarith
  have hder := (cellWeight_hasDerivAt hk hpos P.axes p.pos c d hd hd' (hv _ (List.getElem_mem hd)) hs hcl).const_mul p.mass
  have hg := hG2 c (by rw [grad_axes P d hd, shapeOf_set_grad _ _ hd P.axes[d].grad rfl]; exact hc)
  rw [grad_axes P d hd, elemAddr_set_grad _ _ hd P.axes[d].grad _ rfl] at hg
  simp only [List.map_cons, List.map_nil, List.sum_cons, List.sum_nil, add_zero] at hg
  rw [grad_windowSize, (grad_rest P d).1] at hg
  rw [hg, add_sub_cancel_left]
  have : (fun y => F y (elemAddr P.axes c)) = fun y => m0 (elemAddr P.axes c) +
      p.mass * cellWeight P.kern (windowSize P p.hsml) P.axes (p.pos.set d y) c := by
    funext y
    rw [hF2 y c hc]; simp [windowSize]
  rw [this]
  exact hder.const_add _

/-- C21 for the tuned pcs painter (native size, up to three dimensions): what `readout(gradient=d)` returns has to be
multiplied with the scale of axis `d` to get the derivative. -/
theorem C21_pcs_gradient (P : Painter ℝ) (hP : P.Valid) (ht : P.tuned = some .pcs)
    (hv : ∀ ax ∈ P.axes, ax.order = 0) (h3 : P.axes.length ≤ 3) (p : Particle ℝ) (hl : p.pos.length = P.axes.length)
    (hw : windowSize P p.hsml = 4) (d : ℕ) (hd : d < P.axes.length) (hd' : d < p.pos.length) (f : ℤ → ℝ) :
    ∃ (v : ℝ → ℝ) (g : ℝ), (∀ y, readout P f [{ p with pos := p.pos.set d y }] = some [v y]) ∧
      readout (P.grad d) f [p] = some [g] ∧ HasDerivAt v (P.axes[d].scale * g) p.pos[d] := by
  have hkern : P.kern = cubicK := hP.tuned_kern _ ht
  have hk : Confined P.kern := by rw [hkern]; exact cubic_confined
  have hnat : (P.kern.native : ℝ) = 4 := by rw [hkern]; simp [cubicK]
  have hfv : ∀ q : Particle ℝ, q.hsml = p.hsml → Faithful P q := by
    intro q hq
    apply faithful_of_values hv
    intro t _
    rw [hq, hw, hnat]
    exact Or.inr (Or.inr le_rfl)
  -- the same reading through an axis of unit scale
  let ax' : PAxis ℝ := { P.axes[d] with order := 1, scale := 1, translate := 0 }
  let x' : ℝ := p.pos[d] * P.axes[d].scale + P.axes[d].translate
  let P' : Painter ℝ := { P with axes := P.axes.set d ax' }
  let p' : Particle ℝ := { p with pos := p.pos.set d x' }
  have hP' : P'.Valid := by
    refine ⟨hP.native_pos, ?_, hP.tuned_kern⟩
    intro h
    apply hP.axes_ne
    have := congrArg List.length h
    simp only [P', List.length_set, List.length_nil] at this
    exact List.length_eq_zero_iff.mp this
  have hf' : Faithful P' p' := by
    intro t ht'
    have : t = .pcs := by
      have h1 : P'.tuned = some .pcs := ht
      rw [h1] at ht'; exact (Option.some.inj ht').symm
    subst this
    refine Or.inr (Or.inr (Or.inr ⟨?_, ?_⟩))
    · show windowSize P p.hsml = P.kern.native
      rw [hw, hnat]
    · intro q hq
      have hq1 := (List.of_mem_zip (a := q.1) (b := q.2) hq).1
      rcases List.mem_or_eq_of_mem_set hq1 with h | h
      · exact Or.inl (hv _ h)
      · exact Or.inr (Or.inr (Or.inr (Or.inr ⟨rfl, by rw [h]⟩)))
  have hshape : shapeOf P'.axes = shapeOf (P.grad d).axes := by
    rw [grad_axes P d hd, shapeOf_set_grad _ _ hd P.axes[d].grad rfl]
    exact shapeOf_set_grad _ _ hd ax' rfl
  have haddr : ∀ c, elemAddr P'.axes c = elemAddr (P.grad d).axes c := by
    intro c
    rw [grad_axes P d hd, elemAddr_set_grad _ _ hd P.axes[d].grad _ rfl]
    exact elemAddr_set_grad _ _ hd ax' c rfl
  have hsten : List.zipWith (axisStencil (P.grad d) p.hsml) (P.grad d).axes p.pos =
      List.zipWith (axisStencil P' p'.hsml) P'.axes p'.pos := by
    have hst : ∀ Q : Painter ℝ, Q.kern = P.kern → Q.support = P.support → Q.tuned = some .pcs →
        Q.axes.length = P.axes.length → (∀ ax ∈ Q.axes, ax.order ≤ 1) →
        axisStencil Q p.hsml = tunedStencil .pcs := by
      intro Q q1 q2 q3 q4 q5
      funext ax x
      unfold axisStencil
      have : fastMethod Q (partWin Q p.hsml) = some .pcs := by
        unfold fastMethod
        rw [q3]
        simp only
        rw [if_neg, if_neg (by omega), if_neg, if_pos]
        · have : P.axes.length ≠ 0 := fun h => hP.axes_ne (List.length_eq_zero_iff.mp h)
          omega
        · rw [not_not]
          obtain ⟨s, hs0, hs1, _, _, hle, hlt⟩ := windowInfo_eq (K := ℝ) (native := P.kern.native) hP.native_pos (P.support * p.hsml)
          have hs4 : s = 4 := by rw [hs1]; exact hw
          unfold partWin
          rw [q1, q2]
          rw [hs4] at hle hlt
          have a1 : 4 ≤ (windowInfo P.kern.native ((P.support : ℝ) * p.hsml)).support := by exact_mod_cast hle
          have a2 : (windowInfo P.kern.native ((P.support : ℝ) * p.hsml)).support < 4 + 1 := by exact_mod_cast hlt
          have a3 : (Tuned.kern .pcs : Kern ℝ).native = 4 := rfl
          omega
        · intro h
          rw [List.any_eq_true] at h
          obtain ⟨ax, hax, ho⟩ := h
          have := q5 ax (List.mem_of_mem_take hax)
          simp at ho; omega
      rw [this]
    rw [hst (P.grad d) (grad_rest P d).1 (grad_rest P d).2.2 (by rw [(grad_rest P d).2.1, ht]) (grad_axes_length P d),
      hst P' rfl rfl ht (by simp [P'])]
    · rw [grad_axes P d hd]
      have e1 : p.pos = p.pos.set d p.pos[d] := by simp
      conv_lhs => rw [e1]
      show _ = List.zipWith (tunedStencil .pcs) (P.axes.set d ax') (p.pos.set d x')
      rw [zipWith_set _ _ _ _ hd hd', zipWith_set _ _ _ _ hd hd']
      congr 1
      have e2 : ax'.grid x' = P.axes[d].grad.grid p.pos[d] := by
        simp only [PAxis.grid, PAxis.grad, ax', x', mul_one, add_zero]
      unfold tunedStencil tunedSetup
      rw [e2]
      rfl
    · intro ax hax
      rcases List.mem_or_eq_of_mem_set hax with h | h
      · rw [hv _ h]; omega
      · rw [h]
    · intro ax hax
      rw [grad_axes P d hd] at hax
      rcases List.mem_or_eq_of_mem_set hax with h | h
      · rw [hv _ h]; omega
      · rw [h]; exact le_refl 1
  have hg' := readout_eq (P.grad d) (grad_valid hP d) [p] (by simpa [grad_axes_length] using hl) f
  simp only [List.map_cons, List.map_nil] at hg'
  rw [hsten, ← hshape] at hg'
  have hR := fun y => C14_readout_partial P hP hk [{ p with pos := p.pos.set d y }] (by simpa using ⟨hl, hfv _ rfl⟩) f
  simp only [List.map_cons, List.map_nil] at hR
  refine ⟨_, _, hR, hg', ?_⟩
  · have hsh : shapeOf P'.axes = shapeOf P.axes := shapeOf_set_grad _ _ hd ax' rfl
    rw [hsh, ← sum_mul_left']
    apply sum_hasDerivAt
    intro c hc
    have hcl : c.length = P.axes.length := by
      have := (mem_ndindex.mp hc).length_eq
      simpa [shapeOf] using this.symm
    rw [← haddr, show elemAddr P'.axes c = elemAddr P.axes c from elemAddr_set_grad _ _ hd ax' c rfl]
    rw [← mul_assoc]
    apply HasDerivAt.mul_const
    rw [cwProd_cellWeight hP' hk hf' c]
    have h4 : (0 : ℝ) < windowSize P p.hsml := by rw [hw]; norm_num
    have := cellWeight_hasDerivAt hk h4 P.axes p.pos c d hd hd' (hv _ (List.getElem_mem hd))
      (by rw [hkern]; exact C21_smooth_pcs _ _) hcl
    refine this.congr_deriv ?_
    exact cellWeight_unscale _ _ _ _ _ _ hd hd' hcl

/-- A pcs painter whose axis has two cells per unit of length. -/
noncomputable def exPcsScaled : Painter ℝ := ⟨cubicK, some .pcs, 4, [⟨0, 2, 0, 0, 8, 1⟩]⟩

theorem exPcsScaled_valid : exPcsScaled.Valid :=
  ⟨by show 0 < 4; decide, by simp [exPcsScaled], by intro t ht; cases ht; rfl⟩

theorem exPcsScaled_size : windowSize exPcsScaled 1 = 4 := by
  simp [windowSize, exPcsScaled]

/-- C21 violated by the tuned pcs painter: the field `f(c) = c` in a box with two cells per unit of length has slope 2,
`readout(gradient=0)` says 1. -/
theorem C21_violated_pcs : ∃ (v : ℝ → ℝ) (g : ℝ),
    (∀ y, readout exPcsScaled (fun a => (a : ℝ)) [⟨[y], 1, 1⟩] = some [v y]) ∧
    readout (exPcsScaled.grad 0) (fun a => (a : ℝ)) [⟨[7 / 4], 1, 1⟩] = some [g] ∧
    HasDerivAt v 2 (7 / 4) ∧ g = 1 ∧ ¬ HasDerivAt v g (7 / 4) := by
  obtain ⟨v, g, h1, h2, h3⟩ := C21_pcs_gradient exPcsScaled exPcsScaled_valid rfl
    (by intro ax hax; simp [exPcsScaled] at hax; rw [hax]) (by simp [exPcsScaled]) ⟨[7 / 4], 1, 1⟩
    (by simp [exPcsScaled]) exPcsScaled_size 0 (by simp [exPcsScaled]) (by simp) (fun a => (a : ℝ))
  simp only [List.set_cons_zero, List.getElem_cons_zero] at h1 h3
  have hscale : (exPcsScaled.axes[0]'(by simp [exPcsScaled])).scale = 2 := rfl
  rw [hscale] at h3
  have hlin : HasDerivAt v 2 (7 / 4) := by
    have : HasDerivAt (fun y : ℝ => y * 2) 2 (7 / 4) := by
      simpa using (hasDerivAt_id (7 / 4 : ℝ)).mul_const 2
    refine this.congr_of_eventuallyEq ?_
    filter_upwards [Ioo_mem_nhds (a := (3 / 2 : ℝ)) (b := 2) (by norm_num) (by norm_num)] with y hy
    have := C22_linear_exact exPcsScaled exPcsScaled_valid .pcs rfl 0 [1] (by simp [exPcsScaled]) (fun a => (a : ℝ))
      (by
        intro c hc
        match c, hc with
        | [i], _ => simp [exPcsScaled, elemAddr, linAt])
      [⟨[y], 1, 1⟩] (by
        intro p hp
        simp only [List.mem_singleton] at hp
        subst hp
        refine ⟨by simp [exPcsScaled], by rw [exPcsScaled_size]; simp [exPcsScaled, cubicK], ?_⟩
        intro i hi1 hi2 hi3
        have : i = 0 := by simp at hi3; omega
        subst this
        refine ⟨rfl, Or.inr ⟨⟨?_, ?_, Or.inl rfl⟩, Or.inl (by simp)⟩⟩
        · simp only [exPcsScaled, cubicK, List.getElem_cons_zero]; push_cast; linarith [hy.1]
        · simp only [exPcsScaled, cubicK, List.getElem_cons_zero]; push_cast; linarith [hy.2])
    rw [h1 y] at this
    simpa [linAt, exPcsScaled] using this
  have hg : g = 1 := by
    have := h3.unique hlin
    linarith
  refine ⟨v, g, h1, h2, hlin, hg, ?_⟩
  intro h
  have := h.unique hlin
  rw [hg] at this
  norm_num at this

/-- Hypotheses of C21: a tuned tsc painter on a periodic axis with scale 2, any particle. -/
noncomputable def exTsc : Painter ℝ := ⟨quadraticK, some .tsc, 3, [⟨0, 2, 1 / 2, 8, 8, 1⟩]⟩

example (x : ℝ) : exTsc.Valid ∧ Confined exTsc.kern ∧ DistinctElems exTsc.axes ∧ (∀ ax ∈ exTsc.axes, ax.order = 0) ∧
    Faithful (exTsc.grad 0) ⟨[x], 1, 1⟩ ∧ SmoothAt exTsc.kern (windowSize exTsc 1) (x * 2 + 1 / 2) := by
  refine ⟨⟨by show 0 < 3; decide, by simp [exTsc], by intro t ht; cases ht; rfl⟩, quadratic_confined, ?_, ?_, ?_,
    C21_smooth_tsc _ _⟩
  · exact C14_contiguous_distinct 1 one_pos _ ⟨by simp [exTsc, shapeOf], trivial⟩
  · intro ax hax; simp [exTsc] at hax; rw [hax]
  · intro t ht
    have : t = .tsc := by simp [exTsc, Painter.grad] at ht; exact ht.symm
    subst this
    refine Or.inr (Or.inr (Or.inr ⟨?_, fun q _ => Or.inr (Or.inr (Or.inl rfl))⟩))
    rw [grad_windowSize, (grad_rest exTsc 0).1]
    simp [windowSize, exTsc, quadraticK]

/-- A smooth position for cic and for nnb. -/
example : SmoothAt linearK 2 (1 / 3) ∧ SmoothAt nearestK 1 (1 / 3) := by
  constructor
  · apply C21_smooth_cic
    intro n h
    have h2 : (3 * n : ℝ) = 1 := by rw [← h]; norm_num
    have h3 : 3 * n = 1 := by exact_mod_cast h2
    omega
  · apply C21_smooth_nnb
    intro n h
    have h2 : (6 * n : ℝ) = -1 := by linarith
    have h3 : 6 * n = -1 := by exact_mod_cast h2
    omega

#print axioms C21_kernel_tsc
#print axioms C21_kernel_pcs
#print axioms C21_kernel_cic
#print axioms C21_kernel_nnb
#print axioms C21_smooth_tsc
#print axioms C21_smooth_pcs
#print axioms C21_smooth_cic
#print axioms C21_smooth_nnb
#print axioms C21_readout_gradient_partial
#print axioms C21_paint_gradient_partial
#print axioms C21_pcs_gradient
#print axioms C21_violated_pcs

end Pmesh
