import Verif.Lemmas.Rounding
import Verif.Spec.Rounding

/-!
# Floating point: targets, primary ranks and loads
-/

set_option linter.unusedSectionVars false

namespace Pmesh

section
variable {K : Type*} [Field K] [LinearOrder K] [IsStrictOrderedRing K] [FloorRing K]

theorem particleRangeR_length {R : Rounding K} {g : Grid K} {s x : List K} (hs : s.length = g.edges.length)
    (hx : g.edges.length ≤ x.length) : (particleRangeR R g s x).length = g.edges.length := by
  unfold particleRangeR
  simp; omega

theorem particleRangeR_getElem {R : Rounding K} {g : Grid K} {s x : List K} (hs : s.length = g.edges.length)
    (hx : g.edges.length ≤ x.length) {j : ℕ} (hj : j < (particleRangeR R g s x).length) :
    (particleRangeR R g s x)[j] = axisRangeR R g.periodic (g.axis j) (s.getD j 0) (x.getD j 0) := by
  have hj' : j < g.edges.length := by rwa [particleRangeR_length hs hx] at hj
  simp only [particleRangeR, List.getElem_zipWith, List.getElem_zip]
  rw [g.axis_eq hj', List.getD_eq_getElem _ _ (by omega), List.getD_eq_getElem _ _ (by omega)]

/-- The wrapped coordinate of the code, with the box size read as 0. -/
def wrapR (R : Rounding K) (g : Grid K) (x : List K) (j : ℕ) : K := foldBox (g.box j) (fpMod R (x.getD j 0) (g.box j))

theorem wrapR_mem {R : Rounding K} {g : Grid K} (hg : GridOK g) (hf : GridInFormat R g) (x : List K) {j : ℕ} (hj : j < g.ndim) :
    0 ≤ wrapR R g x j ∧ wrapR R g x j < g.box j := by
  have := foldBox_spec (hg.box_pos hj) (fpMod_nonneg R (hg.box_pos hj) (x.getD j 0))
    (fpMod_le R (hg.box_pos hj) (hf.box j hj) (x.getD j 0))
  exact ⟨this.1, this.2.1⟩

theorem targetsR {R : Rounding K} {g : Grid K} (hg : GridOK g) (hper : g.periodic = true) (hflag : g.FlagsAgree)
    (hf : GridInFormat R g) {δ : K} (hδ : ErrorBound R g δ) {s x : List K} (hs : s.length = g.ndim) (hx : PosInFormat R g x)
    (hs0 : ∀ j < g.ndim, 0 ≤ s.getD j 0 ∧ s.getD j 0 ≤ g.box j)
    (hfit : g.SmoothingFits (s.map (· + 2 * δ)) ∨ ∀ a ∈ s, a = 0) :
    ∃ T, particleTargets g ((particleRangeR R g s x).map (·.1)) ((particleRangeR R g s x).map (·.2)) = .ok T ∧
      T.Pairwise (· < ·) ∧ (∀ r ∈ T, r < g.nrank) ∧ ∃ u v : ℕ → K,
        (∀ j < g.ndim, |u j - s.getD j 0| ≤ 2 * δ ∧ |v j - s.getD j 0| ≤ 2 * δ ∧ (s.getD j 0 = 0 → u j = 0 ∧ v j = 0) ∧
          (∃ m : ℤ, |wrapR R g x j + m * g.box j - x.getD j 0| ≤ δ) ∧ 0 ≤ u j ∧ 0 ≤ v j ∧
          v j = R.rnd (fpMod R (x.getD j 0) (g.box j) + s.getD j 0) - fpMod R (x.getD j 0) (g.box j)) ∧
        ∀ r, r ∈ T ↔ ∃ D, g.IsDomain D ∧ g.Owner D r ∧ ∀ j < g.ndim, ∃ z, g.lo D j ≤ z ∧ z < g.hi D j ∧
          ∃ m : ℤ, wrapR R g x j - u j ≤ z + m * g.box j ∧ z + m * g.box j ≤ wrapR R g x j + v j := by
  have hx1 := hx.1
  unfold Grid.ndim at hs hx1
  have hget : ∀ {j} (hj : j < (particleRangeR R g s x).length), (particleRangeR R g s x)[j] =
      axisRangeR R g.periodic (g.axis j) (s.getD j 0) (x.getD j 0) := fun hj => particleRangeR_getElem hs hx1 hj
  have hlen := particleRangeR_length (R := R) (g := g) hs hx1
  obtain ⟨T, h1, h2, h3, h4⟩ := targets_by hg (FlagsAgree.rank_lt hg hflag) (particleRangeR R g s x) hlen
    (fun a ha => by
      obtain ⟨j, hj, rfl⟩ := List.getElem_of_mem ha
      rw [hget hj, hper]
      exact axisRangeR_le R (hg.axisOK (by omega)) _ _) (Or.inl hper) _ hget
  have hc := fun (j : ℕ) (hj : j < g.ndim) => axisRangeR_arc R (hg.axisOK hj) (hf.first j hj) (hf.box j hj) (hs0 j hj).1 (hs0 j hj).2
    (hx.2 j hj) (hδ j hj)
  choose! c u v hc1 hc2 hc3 hu hv hue hve hz hm hvv harc using hc
  have hc' : ∀ j < g.ndim, c j = wrapR R g x j := hc1
  refine ⟨T, h1, h2, h3, u, v, fun j hj => ⟨hue j hj, hve j hj, hz j hj, ?_, hu j hj, hv j hj, hvv j hj⟩, fun r => ?_⟩
  · rw [← hc' j hj]
    exact hm j hj
  rw [h4]
  have hwrap : ∀ j < g.ndim, ∀ d < (g.axis j).length - 1,
      (u j + ((g.axis j).getD (d + 1) 0 - (g.axis j).getD d 0) ≤ (g.axis j).getLastD 0 ∧
        v j + ((g.axis j).getD (d + 1) 0 - (g.axis j).getD d 0) ≤ (g.axis j).getLastD 0) ∨
        (g.axis j).getD (d + 1) 0 - (g.axis j).getD d 0 = (g.axis j).getLastD 0 := by
    intro j hj d hd
    rcases hfit with hfit | hfit
    · have hjs : j < s.length := by unfold Grid.ndim at hj; omega
      have h := hfit j hj d hd
      have e : (s.map (· + 2 * δ)).getD j 0 = s.getD j 0 + 2 * δ := by
        rw [List.getD_eq_getElem _ _ (by simpa using hjs), List.getD_eq_getElem _ _ hjs, List.getElem_map]
      rw [e] at h
      rcases h with h | h
      · left
        have a := (abs_le.1 (hue j hj)).2
        have b := (abs_le.1 (hve j hj)).2
        unfold Grid.box at h
        constructor <;> linarith
      · exact Or.inr h
    · left
      have hsj : s.getD j 0 = 0 := by
        have hjs : j < s.length := by unfold Grid.ndim at hj; omega
        rw [List.getD_eq_getElem _ _ hjs]
        exact hfit _ (List.getElem_mem _)
      obtain ⟨a, b⟩ := hz j hj hsj
      rw [a, b]
      have e := hg.axisOK hj
      have a1 := (e.getD_mem_box (i := d + 1) (by omega)).2
      have a2 := (e.getD_mem_box (i := d) (by omega)).1
      constructor <;> linarith
  constructor
  · rintro ⟨⟨D, hD, ho, hvis⟩, hdg⟩
    refine ⟨D, hD, ho, fun j hj => ?_⟩
    obtain ⟨D', hD', hcr, hemp⟩ := hflag D r hD ho
    have hne : ¬ g.EmptyDomain D := by
      rw [← hemp]
      apply (degenerate_getElem? hg hD').1.1
      rw [show cOrder g.shape D' = r from hcr]; exact hdg
    have hlt : g.lo D j < g.hi D j :=
      lt_of_le_of_ne (hg.lo_le_hi hD hj) (fun h => hne ⟨j, hj, h.symm⟩)
    have := (harc j hj (hwrap j hj) _ (IsDomain.getD_lt hD hj)).1 ⟨by have := hvis j hj; rwa [hper] at this, hlt⟩
    rw [hc' j hj] at this
    exact this
  · rintro ⟨D, hD, ho, hm⟩
    have key : ∀ j < g.ndim, _ := fun j hj => (harc j hj (hwrap j hj) _ (IsDomain.getD_lt hD hj)).2
      (by rw [hc' j hj]; exact hm j hj)
    refine ⟨⟨D, hD, ho, fun j hj => ?_⟩, ?_⟩
    · rw [hper]; exact (key j hj).1
    · obtain ⟨D', hD', hcr, hemp⟩ := hflag D r hD ho
      rw [← show cOrder g.shape D' = r from hcr]
      apply (degenerate_getElem? hg hD').1.2
      rw [hemp]
      rintro ⟨j, hj, e⟩
      exact absurd e (ne_of_gt (key j hj).2)

theorem ErrorBound.nonneg {R : Rounding K} {g : Grid K} (hg : GridOK g) {δ : K} (hδ : ErrorBound R g δ) : 0 ≤ δ := by
  have h0 : 0 < g.ndim := by
    have := hg.axes
    unfold Grid.ndim
    exact List.length_pos_iff.2 this
  exact le_trans (abs_nonneg _) (hδ 0 h0 0 (by rw [abs_zero]; linarith [hg.box_pos h0]))

theorem fpMod_eq_box_iff {R : Rounding K} {b : K} (hb : 0 < b) (x : K) :
    fpMod R x b = b ↔ x < 0 ∧ R.rnd (x - ⌊x / b⌋ * b) = b := by
  rw [fpMod_eq R hb]
  have e : pyMod x b = x - ⌊x / b⌋ * b := by unfold pyMod; ring
  split_ifs with h
  · constructor
    · intro hh
      exact absurd hh (pyMod_lt x hb).ne
    · rintro ⟨hh, -⟩
      exact absurd h (not_le.2 hh)
  · rw [e]
    exact ⟨fun hh => ⟨not_le.1 h, hh⟩, fun hh => hh.2⟩

theorem roundsToBox_iff {R : Rounding K} {g : Grid K} (hg : GridOK g) (x : List K) :
    RoundsToBox R g x ↔ ∃ j < g.ndim, fpMod R (x.getD j 0) (g.box j) = g.box j := by
  unfold RoundsToBox
  refine exists_congr fun j => and_congr_right fun hj => ?_
  rw [fpMod_eq_box_iff (hg.box_pos hj)]

/-- `isprimary` wraps the position and then works as on a grid that is not periodic. -/
theorem isPrimaryR_eq {R : Rounding K} {g : Grid K} (hper : g.periodic = true) (rank : ℕ) (x : List K) (hx : g.ndim ≤ x.length) :
    isPrimaryR R g rank x = isPrimary { g with periodic := false } rank
      (List.zipWith (fpMod R) (x.take g.edges.length) (g.edges.map fun e => e.getLastD 0)) := by
  unfold isPrimaryR isPrimary
  simp only [hper, if_true, Bool.false_eq_true, if_false]
  rw [List.take_of_length_le (l := List.zipWith (fpMod R) (x.take g.edges.length) _) (by simp)]
  rfl

theorem zipMod_getD {R : Rounding K} {g : Grid K} {x : List K} (hx : g.ndim ≤ x.length) {j : ℕ} (hj : j < g.ndim) :
    (List.zipWith (fpMod R) (x.take g.edges.length) (g.edges.map fun e => e.getLastD 0)).getD j 0 = fpMod R (x.getD j 0) (g.box j) := by
  unfold Grid.ndim at hx hj
  rw [List.getD_eq_getElem _ _ (by simp; omega), List.getElem_zipWith, List.getElem_take, List.getElem_map,
    List.getD_eq_getElem _ _ (by omega)]
  unfold Grid.box
  rw [g.axis_eq hj]

theorem isPrimaryR_iff {R : Rounding K} {g : Grid K} (hg : GridOK g) (hper : g.periodic = true) (rank : ℕ) (x : List K)
    (hx : g.ndim ≤ x.length) : isPrimaryR R g rank x = true ↔ ∃ D, g.IsDomain D ∧ g.Owner D rank ∧
      ∀ j < g.ndim, g.lo D j ≤ fpMod R (x.getD j 0) (g.box j) ∧ fpMod R (x.getD j 0) (g.box j) < g.hi D j := by
  rw [isPrimaryR_eq hper rank x hx, isPrimary_iff (g := { g with periodic := false }) ⟨hg.1, hg.2, hg.3, hg.4⟩ rank _
    (by unfold Grid.ndim at hx ⊢; simp; omega)]
  refine exists_congr fun D => and_congr_right fun _ => and_congr_right fun _ => forall_congr' fun j => forall_congr' fun hj => ?_
  simp only [Bool.false_eq_true, if_false]
  rw [zipMod_getD hx hj]
  rfl

/-- Along an axis, a coordinate up to and including the box size is in the domain `D` exactly if it is not the box size and the folded
coordinate is. -/
theorem foldBox_dom {R : Rounding K} {g : Grid K} (hg : GridOK g) (hf : GridInFormat R g) (x : List K) {D : List ℕ} (hD : g.IsDomain D) :
    (∀ j < g.ndim, g.lo D j ≤ fpMod R (x.getD j 0) (g.box j) ∧ fpMod R (x.getD j 0) (g.box j) < g.hi D j) ↔
      ¬ RoundsToBox R g x ∧ D = domIdx g (wrapR R g x) := by
  rw [roundsToBox_iff hg]
  have hd := (domIdx_spec hg (wrapR R g x) fun j hj => wrapR_mem hg hf x hj).2 D hD
  rw [← hd]
  constructor
  · intro h
    have hn : ∀ j < g.ndim, fpMod R (x.getD j 0) (g.box j) ≠ g.box j := by
      intro j hj he
      have h1 := (h j hj).2
      have h2 := ((hg.axisOK hj).getD_mem_box (i := D.getD j 0 + 1) (by have := IsDomain.getD_lt hD hj; omega)).2
      rw [he] at h1
      exact absurd (lt_of_lt_of_le h1 h2) (lt_irrefl _)
    refine ⟨fun ⟨j, hj, he⟩ => hn j hj he, fun j hj => ?_⟩
    unfold wrapR foldBox
    rw [if_neg (hn j hj)]
    exact h j hj
  · rintro ⟨hn, h⟩ j hj
    have := h j hj
    unfold wrapR foldBox at this
    rwa [if_neg fun he => hn ⟨j, hj, he⟩] at this

theorem loadDomainR_eq {R : Rounding K} {g : Grid K} (hg : GridOK g) (hf : GridInFormat R g) (hper : g.periodic = true) (x : List K)
    (hx : g.ndim ≤ x.length) (hb : ¬ RoundsToBox R g x) :
    loadDomainR R g x = some (cOrder g.shape (domIdx g (wrapR R g x))) := by
  have hd : ValidIndex g.shape (domIdx g (wrapR R g x)) := (domIdx_spec hg _ fun j hj => wrapR_mem hg hf x hj).1
  unfold loadDomainR
  rw [hper]
  simp only [if_true, Bool.not_true]
  rw [← ravelMultiIndex_eq hd]
  congr 1
  rw [roundsToBox_iff hg] at hb
  have hx' := hx
  unfold Grid.ndim at hx
  apply List.ext_getElem
  · simp [domIdx, Grid.ndim]; omega
  · intro j h1 h2
    simp only [List.length_zipWith, lt_inf_iff] at h1
    have hj : j < g.ndim := h1.1
    simp only [List.getElem_zipWith, List.getElem_map]
    have hm := wrapR_mem hg hf x hj
    have hs := (hg.axisOK hj).digitize_spec hm.1 hm.2
    have hw : (domIdx g (wrapR R g x))[j]'(by simpa using h2) = digitize (wrapR R g x j) (g.axis j) - 1 := by
      rw [← List.getD_eq_getElem _ 0]
      exact domIdx_getD g _ hj
    rw [hw]
    have e : wrapR R g x j = fpMod R (x[j]'h1.2) ((g.edges[j]'h1.1).getLastD 0) := by
      unfold wrapR foldBox
      rw [if_neg fun he => hb ⟨j, hj, he⟩, List.getD_eq_getElem _ _ h1.2]
      unfold Grid.box
      rw [g.axis_eq h1.1]
    rw [e] at hs ⊢
    rw [g.axis_eq h1.1] at hs ⊢
    omega

theorem ravelMultiIndex_none : ∀ (shape : List ℕ) (is : List ℤ) (j : ℕ) (h1 : j < shape.length) (h2 : j < is.length),
    (shape[j] : ℤ) ≤ is[j] → ravelMultiIndex false shape is = none
  | [], _, _, h1, _, _ => by simp at h1
  | _ :: _, [], _, _, h2, _ => by simp at h2
  | n :: ns, i :: is, 0, _, _, h => by
    simp only [List.getElem_cons_zero] at h
    simp only [ravelMultiIndex, Bool.false_eq_true, if_false]
    rw [if_neg (by omega)]
  | n :: ns, i :: is, j + 1, h1, h2, h => by
    have ih := ravelMultiIndex_none ns is j (by simpa using h1) (by simpa using h2) (by simpa using h)
    simp only [ravelMultiIndex, Bool.false_eq_true, if_false]
    rw [ih]
    split_ifs <;> rfl

theorem loadDomainR_none {R : Rounding K} {g : Grid K} (hg : GridOK g) (hper : g.periodic = true) (x : List K)
    (hx : g.ndim ≤ x.length) (hb : RoundsToBox R g x) : loadDomainR R g x = none := by
  rw [roundsToBox_iff hg] at hb
  obtain ⟨j, hj, he⟩ := hb
  unfold loadDomainR
  rw [hper]
  simp only [if_true, Bool.not_true]
  have hx' := hx
  unfold Grid.ndim at hx hj
  refine ravelMultiIndex_none _ _ j (by simpa [Grid.shape] using hj) (by simp; omega) ?_
  simp only [Grid.shape, List.getElem_map, List.getElem_zipWith]
  have h2 := (hg.axisOK hj).two
  have hd := digitize_box (hg.axisOK hj)
  unfold Grid.box at he
  rw [g.axis_eq hj] at he h2 hd
  rw [List.getD_eq_getElem _ _ (by omega)] at he
  rw [he, hd]
  omega

end
end Pmesh
