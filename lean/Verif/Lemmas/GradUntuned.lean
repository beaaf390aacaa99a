import Verif.Lemmas.GradAccuracy
import Verif.Lemmas.AxisWeight

/-! # Gradients of the windows without tuned code: `quadratic` and `cubic` -/

namespace Pmesh

section
variable {K : Type} [Field K] [LinearOrder K] [IsStrictOrderedRing K] [FloorRing K]

/-- The factor by which the derivative weights of the generic code differ from those of the tuned code. -/
def tunedMissing (kind : Tuned) (scale : K) : K := if kind = .pcs then scale else 1

/-- The axis in units of cells. -/
def plainScaleAxis (ax : PAxis K) : PAxis K := { ax with scale := 1, translate := 0 }

theorem genStencil_rescaled (k : Kern K) (w : Win K) (ax : PAxis K) (x : K) (ho : ax.order ≠ 0) :
    genStencil k w ax x = (genStencil k w (plainScaleAxis ax) (ax.grid x)).map fun p => (p.1, ax.scale * p.2) := by
  have hg : PAxis.grid (plainScaleAxis ax) (ax.grid x) = ax.grid x := by simp [PAxis.grid, plainScaleAxis]
  unfold genStencil
  rw [List.map_map]
  apply List.map_congr_left
  intro r hr
  have hr : r < w.support := List.mem_range.1 hr
  have ho' : (plainScaleAxis ax).order ≠ 0 := ho
  simp only [Function.comp_def, fillAxis, hg, ho, ho', if_false]
  rw [List.getD_eq_getElem _ _ (by simpa using hr), List.getD_eq_getElem _ _ (by simpa using hr)]
  simp only [List.getElem_map, List.getElem_range]
  rw [Prod.mk.injEq]
  exact ⟨rfl, by simp only [plainScaleAxis]; ring⟩

theorem tunedStencil_pcs_rescaled (ax : PAxis K) (x : K) :
    tunedStencil .pcs ax x = tunedStencil .pcs (plainScaleAxis ax) (ax.grid x) := by
  have hg : PAxis.grid (plainScaleAxis ax) (ax.grid x) = ax.grid x := by simp [PAxis.grid, plainScaleAxis]
  unfold tunedStencil tunedSetup
  simp only [hg]
  rfl

/-- The stencil of the generic code at native size, in terms of the tuned one. -/
theorem genStencil_tuned {kind : Tuned} (hkind : kind = .tsc ∨ kind = .pcs) (ax : PAxis K) (x s0 : K)
    (hs : (if s0 ≤ 0 then ((Tuned.kern kind : Kern K).native : K) else s0) = (Tuned.kern kind : Kern K).native) :
    genStencil (Tuned.kern kind) (windowInfo (Tuned.kern kind : Kern K).native s0) ax x =
      (tunedStencil kind ax x).map fun p => (p.1, (if ax.order = 0 then 1 else tunedMissing kind ax.scale) * p.2) := by
  by_cases ho : ax.order = 0
  · rw [← tunedStencil_eq kind ax x s0 hs (Or.inl ho)]
    simp [ho]
  · rcases hkind with rfl | rfl
    · rw [← tunedStencil_eq .tsc ax x s0 hs (Or.inr (Or.inr (Or.inl rfl)))]
      simp [tunedMissing]
    · rw [genStencil_rescaled _ _ _ _ ho, ← tunedStencil_eq .pcs (plainScaleAxis ax) (ax.grid x) s0 hs
        (Or.inr (Or.inr (Or.inr (Or.inr ⟨rfl, rfl⟩)))), ← tunedStencil_pcs_rescaled]
      simp [ho, tunedMissing]

/-- One factor per stencil. -/
theorem expect_factors : ∀ (sts : List (List (ℤ × K))) (f : ℕ → K) (G : List ℤ → K),
    expect (sts.mapIdx fun j s => s.map fun p => (p.1, f j * p.2)) G = (∏ j ∈ Finset.range sts.length, f j) * expect sts G
  | [], f, G => by simp [expect]
  | s :: sts, f, G => by
    rw [List.mapIdx_cons]
    simp only [expect, List.map_map, Function.comp_def]
    rw [List.length_cons, Finset.prod_range_succ', ← List.sum_map_mul_left]
    congr 1
    apply List.map_congr_left
    intro p _
    have := expect_factors sts (fun j => f (j + 1)) (fun c => G (p.1 :: c))
    rw [this]
    ring

theorem grad_eq_untuned {m : PMesh K} (hm : m.OK) (st : List ℤ) {w : Resampler K} {kind : Tuned} (hkind : kind = .tsc ∨ kind = .pcs)
    (hk : w.kern = Tuned.kern kind) (ht : w.tuned = none) (hsup : w.support = w.kern.native) {d : ℕ} (hd : d < m.nmesh.length) {x : List K}
    (hx : x.length = m.nmesh.length)
    (G : List ℤ → K) (hG : ∀ c : List ℤ, c.length = m.nmesh.length →
      G (c.mapIdx fun j i => genWrap (m.nmesh.getD j 0) i) = G c) :
    ((ndindex m.nmesh).map fun g =>
        cwProd (List.zipWith (axisStencil ((m.serial st).painter w (some d) 0) 1) ((m.serial st).painter w (some d) 0).axes x) g *
          G (g.map (Nat.cast : ℕ → ℤ))).sum = tunedMissing kind (m.scale.getD d 0) * expect (gradStencils m st kind d x) G := by
  have hfast : fastMethod ((m.serial st).painter w (some d) 0) (partWin ((m.serial st).painter w (some d) 0) 1) = none := by
    unfold fastMethod
    have ht' : ((m.serial st).painter w (some d) 0).tuned = none := ht
    rw [ht']
  have hst : ∀ ax x, axisStencil ((m.serial st).painter w (some d) 0) 1 ax x =
      (tunedStencil kind ax x).map fun p => (p.1, (if ax.order = 0 then 1 else tunedMissing kind ax.scale) * p.2) := by
    intro ax x
    unfold axisStencil
    rw [hfast]
    simp only
    rw [← genStencil_tuned hkind ax x ((w.support : K) * 1) (by rw [hsup, hk]; split <;> simp)]
    show genStencil w.kern (partWin _ 1) ax x = _
    rw [hk]
    congr 1
    show windowInfo w.kern.native _ = _
    rw [hk]
    rfl
  set f : ℕ → K := fun j => if j = d then tunedMissing kind (m.scale.getD d 0) else 1 with hf
  have e : List.zipWith (axisStencil ((m.serial st).painter w (some d) 0) 1) ((m.serial st).painter w (some d) 0).axes x =
      ((gradStencils m st kind d x).mapIdx fun j s => s.map fun p => (p.1, f j * p.2)).mapIdx fun j s => s.map fun p => (genWrap (m.nmesh.getD j 0) p.1, p.2) := by
    rw [serial_axes_grad]
    apply List.ext_getElem
    · simp [gradStencils, hx]
    · intro i h1 h2
      simp only [gradStencils, List.length_mapIdx, List.length_map, List.length_range] at h2
      simp only [List.getElem_zipWith, List.getElem_map, List.getElem_range, List.getElem_mapIdx, gradStencils]
      rw [hst, rawStencil_wrap, List.getD_eq_getElem (l := x) _ (by omega), List.map_map, List.map_map]
      apply List.map_congr_left
      intro p _
      simp only [Function.comp_def, Prod.mk.injEq]
      refine ⟨rfl, ?_⟩
      congr 1
      by_cases hid : i = d
      · subst hid
        simp [gradAxis, hf]
      · have : ¬ d = i := fun h => hid h.symm
        simp [gradAxis, hf, hid, this]
  have hprod : ∏ j ∈ Finset.range (gradStencils m st kind d x).length, f j = tunedMissing kind (m.scale.getD d 0) := by
    rw [Finset.prod_eq_single d (fun j _ hj => by simp [hf, hj]) (fun h => absurd (Finset.mem_range.2 (by simpa [gradStencils] using hd)) h)]
    simp [hf]
  rw [e, sum_expect, ← hprod, ← expect_factors]
  · have := expect_map (fun j i => genWrap (m.nmesh.getD j 0) i) ((gradStencils m st kind d x).mapIdx fun j s => s.map fun p => (p.1, f j * p.2)) 0 G
    simp only [Nat.zero_add] at this
    rw [this]
    apply expect_congr
    intro c hc
    exact hG c (by simpa [gradStencils] using hc)
  · simp [gradStencils]
  · intro i h1 h2 p hp
    simp only [List.getElem_mapIdx, List.mem_map] at hp
    obtain ⟨q, _, rfl⟩ := hp
    have hpos := hm.nmesh_pos h2
    rw [List.getD_eq_getElem _ _ h2] at hpos
    simp only
    rw [List.getD_eq_getElem _ _ h2]
    exact genWrap_range _ hpos _

end
end Pmesh
