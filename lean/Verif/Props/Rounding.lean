import Verif.Lemmas.RoundGrid
import Verif.Lemmas.FloatRound
import Verif.Lemmas.Exec
import Mathlib.Tactic.NormNum
import Mathlib.Tactic.LinearCombination
import Mathlib.Tactic.IntervalCases
import Mathlib.Algebra.Order.Ring.Rat
import Mathlib.Data.Rat.Floor

/-!
# C56: the domain decomposition in floating point

`decomposeR`, `isPrimaryR` and `loadR` are `GridND.decompose`, `isprimary` and `load` with a rounding after every operation; `binary p` is
IEEE 754 binary arithmetic with `p` digits (53: `float64`, 24: `float32`).
-/

namespace Pmesh

section
variable {K : Type*} [Field K] [LinearOrder K] [IsStrictOrderedRing K] [FloorRing K]

/-- What `decomposeR` returns in terms of the targets of each particle. -/
theorem decomposeR_of_targets (R : Rounding K) (g : Grid K) (s : List K) (pos : List (List K)) (P : List K → List ℕ → Prop)
    (h : ∀ x ∈ pos, ∃ T, particleTargets g ((particleRangeR R g s x).map (·.1)) ((particleRangeR R g s x).map (·.2)) = .ok T ∧
      (T.Pairwise (· < ·) ∧ (∀ r ∈ T, r < g.nrank) ∧ P x T)) :
    ∃ L, decomposeR R g s pos = .ok L ∧ L.sendcounts.length = g.nrank ∧
      (∀ r < g.nrank, ∃ l : List ℕ, L.sentTo r = l.map some ∧ l.Pairwise (· < ·)) ∧
      ∀ (i : ℕ) (x : List K), pos[i]? = some x → ∃ t : List ℕ, P x t ∧ (∀ r ∈ t, r < g.nrank) ∧
        ∀ r < g.nrank, some i ∈ L.sentTo r ↔ r ∈ t := by
  obtain ⟨L, T, h1, -, h3, h4, h5, h6⟩ := decomposeBy_of_targets g (particleRangeR R g s) pos P h
  refine ⟨L, h1, by simp [h4], fun r hr => ⟨sentList T r, sentTo_eq h4 h5 hr, sentList_sorted T r⟩, fun i x hi => ?_⟩
  obtain ⟨t, t1, -, t2, t3⟩ := h6 i x hi
  refine ⟨t, t3, t2, fun r hr => ?_⟩
  rw [sentTo_eq h4 h5 hr]
  simp only [List.mem_map, Option.some.injEq, exists_eq_right]
  rw [mem_sentList, t1]
  simp

/-- **C56** (ghosts, periodic).  With rounding, `decompose` still never fails and sends at most one copy of a particle to a rank, in
order.  If `δ` bounds the rounding errors, each particle reaches every rank it has to reach with a smoothing smaller by `3 δ`, and only
ranks it would reach with a smoothing larger by `3 δ`. -/
theorem C56_decompose (R : Rounding K) (g : Grid K) (hg : GridOK g) (hper : g.periodic = true) (hflag : g.FlagsAgree)
    (hf : GridInFormat R g) (δ : K) (hδ : ErrorBound R g δ) (s : List K) (hs : s.length = g.ndim)
    (hs0 : ∀ j < g.ndim, 0 ≤ s.getD j 0 ∧ s.getD j 0 ≤ g.box j) (hfit : g.SmoothingFits (s.map (· + 2 * δ)))
    (pos : List (List K)) (hpos : ∀ x ∈ pos, PosInFormat R g x) :
    ∃ L, decomposeR R g s pos = .ok L ∧ L.sendcounts.length = g.nrank ∧
      (∀ r < g.nrank, ∃ l : List ℕ, L.sentTo r = l.map some ∧ l.Pairwise (· < ·)) ∧
      ∀ (i : ℕ) (x : List K), pos[i]? = some x → ∀ r < g.nrank,
        (g.Reaches (s.map (· - 3 * δ)) x r → some i ∈ L.sentTo r) ∧ (some i ∈ L.sentTo r → g.Reaches (s.map (· + 3 * δ)) x r) := by
  obtain ⟨L, h1, h2, h3, h4⟩ := decomposeR_of_targets R g s pos
    (fun x T => ∀ r, (g.Reaches (s.map (· - 3 * δ)) x r → r ∈ T) ∧ (r ∈ T → g.Reaches (s.map (· + 3 * δ)) x r))
    (fun x hx => by
      obtain ⟨T, t1, t2, t3, u, v, huv, hT⟩ := targetsR hg hper hflag hf hδ hs (hpos x hx) hs0 (Or.inl hfit)
      refine ⟨T, t1, t2, t3, fun r => ?_⟩
      have hmap : ∀ (f : K → K) (j : ℕ), j < g.ndim → (s.map f).getD j 0 = f (s.getD j 0) := by
        intro f j hj
        have : j < s.length := by omega
        rw [List.getD_eq_getElem _ _ (by simpa using this), List.getD_eq_getElem _ _ this, List.getElem_map]
      rw [hT]
      constructor
      · rintro ⟨D, hD, ho, hm⟩
        refine ⟨D, hD, ho, fun j hj => ?_⟩
        obtain ⟨y, y1, y2, m, z1, z2⟩ := hm j hj
        rw [hmap _ j hj] at y1 y2
        obtain ⟨hu, hv, -, ⟨m', hm'⟩, -⟩ := huv j hj
        rw [abs_le] at hu hv hm'
        refine ⟨y + m * g.box j, z1, z2, -m - m', ?_, ?_⟩ <;> push_cast <;> linarith [hu.1, hu.2, hv.1, hv.2, hm'.1, hm'.2]
      · rintro ⟨D, hD, ho, hm⟩
        refine ⟨D, hD, ho, fun j hj => ?_⟩
        obtain ⟨z, z1, z2, m, y1, y2⟩ := hm j hj
        obtain ⟨hu, hv, -, ⟨m', hm'⟩, -⟩ := huv j hj
        rw [abs_le] at hu hv hm'
        refine ⟨z + (m + m' : ℤ) * g.box j, ?_, ?_, -(m + m'), ?_, ?_⟩
        · rw [hmap _ j hj]; push_cast; linarith [hu.1, hu.2, hm'.1, hm'.2]
        · rw [hmap _ j hj]; push_cast; linarith [hv.1, hv.2, hm'.1, hm'.2]
        · push_cast; linarith
        · push_cast; linarith)
  refine ⟨L, h1, h2, h3, fun i x hi r hr => ?_⟩
  obtain ⟨t, t1, -, t3⟩ := h4 i x hi
  rw [t3 r hr]
  exact t1 r

/-- **C56** (ghosts, not periodic).  The same without a wrapped coordinate: the smoothing is off by at most one rounding. -/
theorem C56_decompose_open (R : Rounding K) (g : Grid K) (hg : GridOK g) (hper : g.periodic = false) (hflag : g.FlagsAgree)
    (s : List K) (hs : s.length = g.ndim) (hs0 : ∀ a ∈ s, 0 ≤ a) (M δ : K) (hδ : ∀ y, |y| ≤ M → |R.rnd y - y| ≤ δ)
    (pos : List (List K)) (hpos : ∀ x ∈ pos, g.ndim ≤ x.length ∧ ∀ j < g.ndim, |x.getD j 0| + s.getD j 0 ≤ M) :
    ∃ L, decomposeR R g s pos = .ok L ∧ L.sendcounts.length = g.nrank ∧
      (∀ r < g.nrank, ∃ l : List ℕ, L.sentTo r = l.map some ∧ l.Pairwise (· < ·)) ∧
      ∀ (i : ℕ) (x : List K), pos[i]? = some x → ∀ r < g.nrank,
        (g.ReachesOpen (s.map (· - δ)) x r → some i ∈ L.sentTo r) ∧ (some i ∈ L.sentTo r → g.ReachesOpen (s.map (· + δ)) x r) := by
  have hs0' : ∀ j, j < g.ndim → 0 ≤ s.getD j 0 := by
    intro j hj
    rw [List.getD_eq_getElem _ _ (by omega)]; exact hs0 _ (List.getElem_mem _)
  obtain ⟨L, h1, h2, h3, h4⟩ := decomposeR_of_targets R g s pos
    (fun x T => ∀ r, (g.ReachesOpen (s.map (· - δ)) x r → r ∈ T) ∧ (r ∈ T → g.ReachesOpen (s.map (· + δ)) x r))
    (fun x hx => by
      obtain ⟨hxl, hxM⟩ := hpos x hx
      -- the rounded ends as an interval around another centre
      set a : ℕ → K := fun j => R.rnd (x.getD j 0 - s.getD j 0) with ha
      set b : ℕ → K := fun j => R.rnd (x.getD j 0 + s.getD j 0) with hb
      have hab : ∀ j < g.ndim, a j ≤ b j := fun j hj => R.mono (by linarith [hs0' j hj])
      have ea : ∀ j < g.ndim, |a j - (x.getD j 0 - s.getD j 0)| ≤ δ := fun j hj =>
        hδ _ ((abs_sub _ _).trans (by rw [abs_of_nonneg (hs0' j hj)]; exact hxM j hj))
      have eb : ∀ j < g.ndim, |b j - (x.getD j 0 + s.getD j 0)| ≤ δ := fun j hj =>
        hδ _ ((abs_add_le _ _).trans (by rw [abs_of_nonneg (hs0' j hj)]; exact hxM j hj))
      set s' : List K := (List.range g.ndim).map fun j => (b j - a j) / 2 with hs'
      set x' : List K := (List.range g.ndim).map fun j => (a j + b j) / 2 with hx'
      have gs : ∀ j < g.ndim, s'.getD j 0 = (b j - a j) / 2 := fun j hj => by
        rw [hs', List.getD_eq_getElem _ _ (by simpa using hj)]; simp
      have gx : ∀ j < g.ndim, x'.getD j 0 = (a j + b j) / 2 := fun j hj => by
        rw [hx', List.getD_eq_getElem _ _ (by simpa using hj)]; simp
      have ls : s'.length = g.edges.length := by simp [hs', Grid.ndim]
      have lx : x'.length = g.edges.length := by simp [hx', Grid.ndim]
      have hrange : particleRangeR R g s x = particleRange g s' x' := by
        have e1 := particleRangeR_length (R := R) (g := g) (s := s) (x := x) hs hxl
        have e2 := particleRange_length (g := g) (s := s') (x := x') ls lx.ge
        apply List.ext_getElem (by omega)
        intro j j1 j2
        have hj : j < g.ndim := by unfold Grid.ndim; omega
        rw [particleRangeR_getElem hs hxl j1, particleRange_getElem ls lx.ge j2, gs j hj, gx j hj, hper]
        simp only [axisRangeR, axisRange, Bool.false_eq_true, if_false]
        rw [show (a j + b j) / 2 - (b j - a j) / 2 = a j by ring, show (a j + b j) / 2 + (b j - a j) / 2 = b j by ring]
      obtain ⟨T, t1, t2, t3, t4⟩ := targets_reaches_open hg hper hflag (FlagsAgree.rank_lt hg hflag) ls lx.ge
        (by
          intro c hc
          rw [hs', List.mem_map] at hc
          obtain ⟨j, hj, rfl⟩ := hc
          have := hab j (List.mem_range.1 hj)
          linarith)
      rw [hrange]
      refine ⟨T, t1, t2, t3, fun r => ?_⟩
      have hmap : ∀ (f : K → K) (j : ℕ), j < g.ndim → (s.map f).getD j 0 = f (s.getD j 0) := by
        intro f j hj
        have : j < s.length := by omega
        rw [List.getD_eq_getElem _ _ (by simpa using this), List.getD_eq_getElem _ _ this, List.getElem_map]
      rw [t4]
      constructor
      · rintro ⟨D, hD, ho, hm⟩
        refine ⟨D, hD, ho, fun j hj => ?_⟩
        obtain ⟨y, y1, y2, y3, y4⟩ := hm j hj
        rw [hmap _ j hj] at y1 y2
        have e1 := abs_le.1 (ea j hj)
        have e2 := abs_le.1 (eb j hj)
        refine ⟨y, ?_, ?_, y3, y4⟩
        · rw [gs j hj, gx j hj]; linarith [e1.2]
        · rw [gs j hj, gx j hj]; linarith [e2.1]
      · rintro ⟨D, hD, ho, hm⟩
        refine ⟨D, hD, ho, fun j hj => ?_⟩
        obtain ⟨y, y1, y2, y3, y4⟩ := hm j hj
        rw [gs j hj, gx j hj] at y1 y2
        have e1 := abs_le.1 (ea j hj)
        have e2 := abs_le.1 (eb j hj)
        refine ⟨y, ?_, ?_, y3, y4⟩
        · rw [hmap _ j hj]; linarith [e1.1]
        · rw [hmap _ j hj]; linarith [e2.2])
  refine ⟨L, h1, h2, h3, fun i x hi r hr => ?_⟩
  obtain ⟨t, t1, -, t3⟩ := h4 i x hi
  rw [t3 r hr]
  exact t1 r

/-- The targets without smoothing: the owner of the domain of the wrapped coordinate. -/
theorem decomposeR_zero (R : Rounding K) (g : Grid K) (hg : GridOK g) (hper : g.periodic = true) (hflag : g.FlagsAgree)
    (hf : GridInFormat R g) (δ : K) (hδ : ErrorBound R g δ) (pos : List (List K)) (hpos : ∀ x ∈ pos, PosInFormat R g x) :
    ∃ L, decomposeR R g (List.replicate g.ndim 0) pos = .ok L ∧ L.sendcounts.length = g.nrank ∧
      (∀ r < g.nrank, ∃ l : List ℕ, L.sentTo r = l.map some ∧ l.Pairwise (· < ·)) ∧
      ∀ (i : ℕ) (x : List K), pos[i]? = some x →
        (∀ j < g.ndim, ∃ m : ℤ, |wrapR R g x j + m * g.box j - x.getD j 0| ≤ δ) ∧
        ∀ r < g.nrank, some i ∈ L.sentTo r ↔ g.Owner (domIdx g (wrapR R g x)) r := by
  have hz : ∀ j, (List.replicate g.ndim (0 : K)).getD j 0 = 0 := by
    intro j
    rw [List.getD_eq_getElem?_getD, List.getElem?_replicate]
    split_ifs <;> rfl
  obtain ⟨L, h1, h2, h3, h4⟩ := decomposeR_of_targets R g (List.replicate g.ndim 0) pos
    (fun x T => (∀ j < g.ndim, ∃ m : ℤ, |wrapR R g x j + m * g.box j - x.getD j 0| ≤ δ) ∧
      ∀ r, r ∈ T ↔ g.Owner (domIdx g (wrapR R g x)) r)
    (fun x hx => by
      obtain ⟨T, t1, t2, t3, u, v, huv, hT⟩ := targetsR hg hper hflag hf hδ (s := List.replicate g.ndim 0) (by simp) (hpos x hx)
        (fun j hj => by rw [hz]; exact ⟨le_rfl, (hg.box_pos hj).le⟩) (Or.inr fun a ha => (List.mem_replicate.1 ha).2)
      refine ⟨T, t1, t2, t3, fun j hj => (huv j hj).2.2.2.1, fun r => ?_⟩
      rw [hT]
      obtain ⟨d1, d2⟩ := domIdx_spec hg (wrapR R g x) fun j hj => wrapR_mem hg hf x hj
      have key : ∀ D, g.IsDomain D → ((∀ j < g.ndim, ∃ z, g.lo D j ≤ z ∧ z < g.hi D j ∧
          ∃ m : ℤ, wrapR R g x j - u j ≤ z + m * g.box j ∧ z + m * g.box j ≤ wrapR R g x j + v j) ↔ D = domIdx g (wrapR R g x)) := by
        intro D hD
        rw [← d2 D hD]
        refine forall_congr' fun j => forall_congr' fun hj => ?_
        obtain ⟨hu, hv⟩ := (huv j hj).2.2.1 (hz j)
        have hm := wrapR_mem hg hf x hj
        have hb1 := ((hg.axisOK hj).getD_mem_box (i := D.getD j 0) (by have := IsDomain.getD_lt hD hj; omega)).1
        have hb2 := ((hg.axisOK hj).getD_mem_box (i := D.getD j 0 + 1) (by have := IsDomain.getD_lt hD hj; omega)).2
        rw [hu, hv]
        constructor
        · rintro ⟨z, z1, z2, m, m1, m2⟩
          have hzw : wrapR R g x j = z + m * g.box j := le_antisymm (by linarith) (by linarith)
          have hbx := hg.box_pos hj
          change 0 ≤ g.lo D j at hb1
          change g.hi D j ≤ g.box j at hb2
          have hm0 : m = 0 := by
            have q1 : (m : K) * g.box j < 1 * g.box j := by linarith
            have q2 : (-1) * g.box j < (m : K) * g.box j := by linarith
            have q3 := lt_of_mul_lt_mul_right q1 hbx.le
            have q4 := lt_of_mul_lt_mul_right q2 hbx.le
            have q5 : m < 1 := by exact_mod_cast q3
            have q6 : -1 < m := by exact_mod_cast q4
            omega
          rw [hm0] at hzw
          have : wrapR R g x j = z := by rw [hzw]; push_cast; ring
          rw [this]
          exact ⟨z1, z2⟩
        · rintro ⟨z1, z2⟩
          exact ⟨_, z1, z2, 0, by push_cast; linarith, by push_cast; linarith⟩
      constructor
      · rintro ⟨D, hD, ho, hm⟩
        rw [(key D hD).1 hm] at ho
        exact ho
      · intro ho
        exact ⟨_, d1, ho, (key _ d1).2 rfl⟩)
  refine ⟨L, h1, h2, h3, fun i x hi => ?_⟩
  obtain ⟨t, t1, t2, t3⟩ := h4 i x hi
  exact ⟨t1.1, fun r hr => by rw [t3 r hr]; exact t1.2 r⟩

/-- **C56** (partition).  Without smoothing every particle goes to exactly one rank, whatever the rounding, and this rank owns the domain of a
point no further than one rounding error from the particle. -/
theorem C56_partition (R : Rounding K) (g : Grid K) (hg : GridOK g) (hper : g.periodic = true) (hflag : g.FlagsAgree)
    (hf : GridInFormat R g) (δ : K) (hδ : ErrorBound R g δ) (pos : List (List K)) (hpos : ∀ x ∈ pos, PosInFormat R g x) :
    ∃ L, decomposeR R g (List.replicate g.ndim 0) pos = .ok L ∧
      (∀ r < g.nrank, ∃ l : List ℕ, L.sentTo r = l.map some ∧ l.Pairwise (· < ·)) ∧
      ∀ (i : ℕ) (x : List K), pos[i]? = some x → ∃ r < g.nrank, (∀ r' < g.nrank, some i ∈ L.sentTo r' ↔ r' = r) ∧
        ∃ D x', g.IsDomain D ∧ g.Owner D r ∧ g.Contains D x' ∧ ∀ j < g.ndim, |x'.getD j 0 - x.getD j 0| ≤ δ := by
  obtain ⟨L, h1, h2, h3, h4⟩ := decomposeR_zero R g hg hper hflag hf δ hδ pos hpos
  refine ⟨L, h1, h3, fun i x hi => ?_⟩
  obtain ⟨hw, ho⟩ := h4 i x hi
  obtain ⟨d1, d2⟩ := domIdx_spec hg (wrapR R g x) fun j hj => wrapR_mem hg hf x hj
  have hlt : cOrder (g.edges.map fun e => e.length - 1) (domIdx g (wrapR R g x)) < g.assign.length := by
    rw [hg.assign_total]
    exact cOrder_lt d1
  have hown : g.Owner (domIdx g (wrapR R g x)) g.assign[cOrder (g.edges.map fun e => e.length - 1) (domIdx g (wrapR R g x))] :=
    List.getElem?_eq_getElem hlt
  choose! m hm using hw
  refine ⟨_, hg.assign_rank _ (List.getElem_mem hlt), fun r' hr' => ?_, _,
    (List.range g.ndim).map fun j => wrapR R g x j + m j * g.box j, d1, hown, fun j hj => ?_, fun j hj => ?_⟩
  · rw [ho r' hr']
    constructor
    · intro h
      exact Option.some_inj.1 (h.symm.trans hown)
    · rintro rfl
      exact hown
  · have := (d2 _ d1).2 rfl j hj
    refine ⟨-m j, ?_⟩
    have e : ((List.range g.ndim).map fun j => wrapR R g x j + m j * g.box j).getD j 0 = wrapR R g x j + m j * g.box j := by
      rw [List.getD_eq_getElem _ _ (by simpa using hj)]; simp
    rw [e]
    push_cast
    have e2 : wrapR R g x j + m j * g.box j + -m j * g.box j = wrapR R g x j := by ring
    rw [e2]
    exact this
  · have e : ((List.range g.ndim).map fun j => wrapR R g x j + m j * g.box j).getD j 0 = wrapR R g x j + m j * g.box j := by
      rw [List.getD_eq_getElem _ _ (by simpa using hj)]; simp
    rw [e]
    exact hm j hj

/-- **C56** (`isprimary`).  A rank is primary for a particle exactly if `decompose` without smoothing sends the particle there, unless a
coordinate of the particle rounds to the box size when it is wrapped: then no rank is.  Partial for this reason, see
`C56_violated_isprimary`. -/
theorem C56_isprimary_partial (R : Rounding K) (g : Grid K) (hg : GridOK g) (hper : g.periodic = true) (hflag : g.FlagsAgree)
    (hf : GridInFormat R g) (δ : K) (hδ : ErrorBound R g δ) (pos : List (List K)) (hpos : ∀ x ∈ pos, PosInFormat R g x) :
    ∃ L, decomposeR R g (List.replicate g.ndim 0) pos = .ok L ∧ ∀ (i : ℕ) (x : List K), pos[i]? = some x → ∀ r < g.nrank,
      isPrimaryR R g r x = true ↔ (¬ RoundsToBox R g x ∧ some i ∈ L.sentTo r) := by
  obtain ⟨L, h1, h2, h3, h4⟩ := decomposeR_zero R g hg hper hflag hf δ hδ pos hpos
  refine ⟨L, h1, fun i x hi r hr => ?_⟩
  have hx := hpos x (List.mem_of_getElem? hi)
  rw [isPrimaryR_iff hg hper r x hx.1, (h4 i x hi).2 r hr]
  constructor
  · rintro ⟨D, hD, ho, hm⟩
    obtain ⟨a, b⟩ := (foldBox_dom hg hf x hD).1 hm
    rw [b] at ho
    exact ⟨a, ho⟩
  · rintro ⟨a, b⟩
    have d1 := (domIdx_spec hg (wrapR R g x) fun j hj => wrapR_mem hg hf x hj).1
    exact ⟨_, d1, b, (foldBox_dom hg hf x d1).2 ⟨a, rfl⟩⟩

theorem mapM_option_none {α β : Type*} {f : α → Option β} (l : List α) (a : α) (ha : a ∈ l) (h : f a = none) : l.mapM f = none := by
  induction l with
  | nil => simp at ha
  | cons b l ih =>
    rw [List.mapM_cons]
    rcases List.mem_cons.1 ha with rfl | ha
    · rw [h]; rfl
    · rw [ih ha]
      cases f b <;> rfl

/-- **C56** (`load`).  `load` raises an exception (`none`) exactly if a coordinate of some particle rounds to the box size when it is
wrapped.  Otherwise the entries add up to the number of particles, and on a grid with one domain per rank the entry of a rank is the
number of particles it is primary for.  Partial because of the exception, see `C56_violated_load`. -/
theorem C56_load_partial (R : Rounding K) (g : Grid K) (hg : GridOK g) (hper : g.periodic = true) (hf : GridInFormat R g) (pos : List (List (List K)))
    (hpos : ∀ P ∈ pos, ∀ x ∈ P, g.ndim ≤ x.length) :
    (loadR R g 1 pos = none ↔ ∃ P ∈ pos, ∃ x ∈ P, RoundsToBox R g x) ∧
    ∀ l, loadR R g 1 pos = some l → l.length = g.assign.length ∧ l.sum = pos.flatten.length ∧
      (g.assign = List.range g.assign.length → ∀ r < g.assign.length,
        l.getD r 0 = pos.flatten.countP fun x => isPrimaryR R g r x) := by
  have hnone : (∃ P ∈ pos, ∃ x ∈ P, RoundsToBox R g x) → loadR R g 1 pos = none := by
    rintro ⟨P, hP, x, hx, hb⟩
    have h1 := loadDomainR_none hg hper x (hpos P hP x hx) hb
    have h2 : loadLocalOf (loadDomainR R g) g.size P = none := by
      unfold loadLocalOf
      have : P.length ≠ 0 := fun h => by rw [List.length_eq_zero_iff.1 h] at hx; simp at hx
      rw [if_pos this, mapM_option_none P x hx h1]
      rfl
    unfold loadR loadOf
    rw [mapM_option_none pos P hP h2]
    rfl
  have hsome : (¬ ∃ P ∈ pos, ∃ x ∈ P, RoundsToBox R g x) → _ := fun hb =>
    loadOf_eq (ld := loadDomainR R g) (shape := g.shape) (fun x => domIdx g (wrapR R g x)) 1 pos
    (fun P _ x _ => (domIdx_spec hg _ fun j hj => wrapR_mem hg hf x hj).1)
    (fun P hP x hx => loadDomainR_eq hg hf hper x (hpos P hP x hx) fun h => hb ⟨P, hP, x, hx, h⟩)
  refine ⟨⟨fun h => ?_, hnone⟩, fun l hl => ?_⟩
  · by_contra hb
    obtain ⟨l, h1, -⟩ := hsome hb
    change loadR R g 1 pos = some l at h1
    rw [h] at h1
    simp at h1
  · have hb : ¬ ∃ P ∈ pos, ∃ x ∈ P, RoundsToBox R g x := fun hb => by
      rw [hnone hb] at hl
      simp at hl
    obtain ⟨l', h1, h2, h3, h4⟩ := hsome hb
    change loadR R g 1 pos = some l' at h1
    rw [hl] at h1
    obtain rfl := Option.some_inj.1 h1
    have htot : g.assign.length = g.shape.prod := hg.assign_total
    refine ⟨by rw [h2, htot], h4 rfl, fun hid r hr => ?_⟩
    rw [htot] at hr
    obtain ⟨D, hD, hDr⟩ := exists_cOrder_eq hr
    rw [← hDr, h3 D hD, pow_one]
    apply List.countP_congr
    intro x hx
    obtain ⟨P, hP, hxP⟩ := List.mem_flatten.1 hx
    rw [decide_eq_true_eq, isPrimaryR_iff hg hper _ x (hpos P hP x hxP)]
    have howner : ∀ D', g.IsDomain D' → (g.Owner D' (cOrder g.shape D) ↔ D' = D) := by
      intro D' hD'
      unfold Grid.Owner
      rw [hid]
      have hl' : cOrder (g.edges.map fun e => e.length - 1) D' < g.assign.length := by
        rw [hg.assign_total]
        exact cOrder_lt hD'
      rw [List.getElem?_eq_getElem (by simpa using hl')]
      simp only [List.getElem_range, Option.some.injEq]
      exact ⟨fun h => cOrder_inj hD' hD h, fun h => by rw [h]; rfl⟩
    constructor
    · intro h
      refine ⟨D, hD, (howner D hD).2 rfl, (foldBox_dom hg hf x hD).2 ⟨fun h => hb ⟨P, hP, x, hxP, h⟩, h.symm⟩⟩
    · rintro ⟨D', hD', ho, hm⟩
      rw [howner D' hD'] at ho
      subst ho
      exact ((foldBox_dom hg hf x hD').1 hm).2.symm

theorem except_mapM_congr {α β ε : Type*} {f g : α → Except ε β} (l : List α) (h : ∀ a ∈ l, f a = g a) : l.mapM f = l.mapM g := by
  induction l with
  | nil => rfl
  | cons a l ih => rw [List.mapM_cons, List.mapM_cons, h a (by simp), ih fun a ha => h a (by simp [ha])]

/-- With exact arithmetic the functions are the ones of the other theorems. -/
theorem C56_exact (g : Grid K) (hg : GridOK g) (hper : g.periodic = true) (s : List K) (pos : List (List K)) (rank : ℕ) (x : List K)
    (hs : s.length = g.ndim) (hpos : ∀ x ∈ pos, g.ndim ≤ x.length) (hx : g.ndim ≤ x.length) :
    decomposeR exactArith g s pos = decompose g s pos ∧ isPrimaryR exactArith g rank x = isPrimary g rank x := by
  have hmod : ∀ (y : K) {b : K}, 0 < b → fpMod exactArith y b = pyMod y b := by
    intro y b hb
    rw [fpMod_eq _ hb]
    split_ifs <;> rfl
  have hr : ∀ x ∈ pos, particleRangeR exactArith g s x = particleRange g s x := by
    intro x hx
    have h1 := particleRangeR_length (R := exactArith) (g := g) hs (hpos x hx)
    have h2 := particleRange_length (g := g) hs (hpos x hx)
    apply List.ext_getElem (by omega)
    intro j j1 j2
    have hj : j < g.ndim := by unfold Grid.ndim; omega
    have hb : 0 < (g.axis j).getLastD 0 := hg.box_pos hj
    rw [particleRangeR_getElem hs (hpos x hx) j1, particleRange_getElem hs (hpos x hx) j2, hper]
    simp only [axisRangeR, axisRange, if_true, hmod _ hb]
    rfl
  constructor
  · unfold decomposeR decompose decomposeBy
    have e1 : (pos.mapM fun x => particleTargets g ((particleRangeR exactArith g s x).map (·.1)) ((particleRangeR exactArith g s x).map (·.2))) =
        pos.mapM fun x => particleTargets g ((particleRange g s x).map (·.1)) ((particleRange g s x).map (·.2)) := by
      apply except_mapM_congr
      intro x hx
      rw [hr x hx]
    simp only [e1]
  · rw [Bool.eq_iff_iff, isPrimaryR_iff hg hper rank x hx, isPrimary_iff hg rank x hx]
    refine exists_congr fun D => and_congr_right fun _ => and_congr_right fun _ => forall_congr' fun j => forall_congr' fun hj => ?_
    rw [hmod _ (hg.box_pos hj), hper, if_pos rfl]

end

/-- **C56** (`load` hangs).  If a particle on rank `a` has a coordinate that rounds to the box size, and no particle on rank `b` has one,
`load` never completes: rank `a` ends with the exception while `b` waits for the reduction. -/
theorem C56_load_hang {K : Type} [Field K] [LinearOrder K] [IsStrictOrderedRing K] [FloorRing K] (R : Rounding K) (g : Grid K) (hg : GridOK g)
    (hper : g.periodic = true) (hf : GridInFormat R g) (n gamma : ℕ) (pos : ℕ → List (List K))
    (hpos : ∀ r < n, ∀ x ∈ pos r, g.ndim ≤ x.length) (a b : ℕ) (ha : a < n) (hb : b < n) (hxa : ∃ x ∈ pos a, RoundsToBox R g x)
    (hxb : ∀ x ∈ pos b, ¬ RoundsToBox R g x) : Deadlocks n (fun r => loadProg R g gamma (pos r)) := by
  have h1 : loadLocalOf (loadDomainR R g) g.size (pos a) = none := by
    obtain ⟨x, hx, hr⟩ := hxa
    unfold loadLocalOf
    have : (pos a).length ≠ 0 := fun h => by rw [List.length_eq_zero_iff.1 h] at hx; simp at hx
    rw [if_pos this, mapM_option_none (pos a) x hx (loadDomainR_none hg hper x (hpos a ha x hx) hr)]
    rfl
  obtain ⟨l, h2, -⟩ := loadLocal_eq (ld := loadDomainR R g) (shape := g.shape) (fun x => domIdx g (wrapR R g x)) (pos b)
    (fun x _ => (domIdx_spec hg _ fun j hj => wrapR_mem hg hf x hj).1)
    (fun x hx => loadDomainR_eq hg hf hper x (hpos b hb x hx) (hxb x hx))
  change loadLocalOf (loadDomainR R g) g.size (pos b) = some l at h2
  exact Deadlocks.of_mixed ha hb (r := .error ()) (by simp only [loadProg, h1]) (by simp only [loadProg, h2]; rfl)

/-! ### Concrete cases -/

/-- A box of size 8 cut in the middle, one half for each of two ranks. -/
def fpGrid : Grid ℚ := { edges := [[0, 4, 8]], periodic := true, assign := [0, 1], nrank := 2 }

theorem fpGrid_ok : GridOK fpGrid := by
  refine ⟨by simp [fpGrid], ?_, by simp [fpGrid], by simp [fpGrid]⟩
  intro e he
  simp only [fpGrid, List.mem_singleton] at he
  subst he
  exact ⟨by norm_num, by norm_num, by norm_num, by norm_num⟩

theorem fpGrid_flags : fpGrid.FlagsAgree := by
  intro D r hD ho
  refine ⟨D, hD, ?_, Iff.rfl⟩
  unfold Grid.Owner at ho
  have h2 : cOrder (fpGrid.edges.map fun e => e.length - 1) D < 2 := cOrder_lt hD
  generalize cOrder (fpGrid.edges.map fun e => e.length - 1) D = k at *
  interval_cases k <;> simp [fpGrid] at ho <;> omega

theorem fpGrid_ndim : fpGrid.ndim = 1 := rfl
theorem fpGrid_axis : fpGrid.axis 0 = [0, 4, 8] := rfl
theorem fpGrid_box : fpGrid.box 0 = 8 := rfl

theorem fpGrid_inFormat (p : ℕ) (hp : 1 ≤ p) : GridInFormat (binary p hp) fpGrid := by
  constructor
  · intro j hj
    obtain rfl : j = 0 := by rw [fpGrid_ndim] at hj; omega
    rw [fpGrid_box]
    have := flRound_zpow (K := ℚ) hp 3
    norm_num at this
    exact this
  · intro j hj
    obtain rfl : j = 0 := by rw [fpGrid_ndim] at hj; omega
    rw [fpGrid_axis]
    norm_num

theorem fpGrid_error (p : ℕ) (hp : 1 ≤ p) : ErrorBound (binary p hp) fpGrid (16 / 2 ^ p) := by
  intro j hj y hy
  obtain rfl : j = 0 := by rw [fpGrid_ndim] at hj; omega
  rw [fpGrid_box] at hy
  refine (flRound_err p y).trans ?_
  exact div_le_div_of_nonneg_right (by linarith) (by positivity)

/-- A number just below 0, in every binary format. -/
theorem tiny_inFormat (p : ℕ) (hp : 1 ≤ p) : PosInFormat (binary p hp) fpGrid [-(2 : ℚ) ^ (-(p : ℤ))] := by
  refine ⟨by simp [fpGrid_ndim], fun j hj => ?_⟩
  obtain rfl : j = 0 := by rw [fpGrid_ndim] at hj; omega
  change flRound p (-(2 : ℚ) ^ (-(p : ℤ))) = -(2 : ℚ) ^ (-(p : ℤ))
  rw [flRound_neg, flRound_zpow hp]

theorem tiny_rounds (p : ℕ) (hp : 1 ≤ p) : RoundsToBox (binary p hp) fpGrid [-(2 : ℚ) ^ (-(p : ℤ))] := by
  refine ⟨0, by rw [fpGrid_ndim]; omega, ?_, ?_⟩
  · change -(2 : ℚ) ^ (-(p : ℤ)) < 0
    have := two_zpow_pos (K := ℚ) (-(p : ℤ))
    linarith
  · rw [fpGrid_box]
    change flRound p (-(2 : ℚ) ^ (-(p : ℤ)) - ⌊-(2 : ℚ) ^ (-(p : ℤ)) / 8⌋ * 8) = 8
    have h0 := two_zpow_pos (K := ℚ) (-(p : ℤ))
    have h1 : (2 : ℚ) ^ (-(p : ℤ)) ≤ 1 := zpow_le_one_of_nonpos₀ (by norm_num) (by omega)
    have hfl : ⌊-(2 : ℚ) ^ (-(p : ℤ)) / 8⌋ = -1 := by
      rw [Int.floor_eq_iff]
      push_cast
      constructor <;> linarith
    rw [hfl]
    push_cast
    set t := (2 : ℚ) ^ (-(p : ℤ)) with ht
    have e : -t - -1 * 8 = 8 - t := by ring
    rw [e]
    have hpos : 0 < 8 - t := by linarith
    have hlog : Int.log 2 |8 - t| = 2 := by
      rw [abs_of_pos hpos]
      have l1 : Int.log 2 (8 - t) < 3 := by
        rw [← Int.lt_zpow_iff_log_lt (by norm_num) hpos]
        norm_num
        exact h0
      have l2 : 2 ≤ Int.log 2 (8 - t) := by
        rw [← Int.zpow_le_iff_le_log (by norm_num) hpos]
        norm_num
        linarith
      omega
    have hulp : ulpExp p (8 - t) = 3 - p := by unfold ulpExp; rw [hlog]; ring
    have e2 : (2 : ℚ) ^ (3 - (p : ℤ)) = 8 * t := by
      rw [zpow_sub₀ (by norm_num), ht, zpow_neg]
      norm_num
      ring
    have e3 : t * 2 ^ p = 1 := by
      rw [ht, zpow_neg, zpow_natCast]
      exact inv_mul_cancel₀ (by positivity)
    unfold flRound
    rw [if_neg hpos.ne', hulp, e2]
    have e4 : (8 - t) / (8 * t) = ((2 ^ p - 1 : ℤ) : ℚ) + 7 / 8 := by
      rw [div_eq_iff (by positivity)]
      push_cast
      linear_combination (-8) * e3
    have e5 : rint ((8 - t) / (8 * t)) = 2 ^ p := by
      rw [e4]
      unfold rint
      have : ⌊((2 ^ p - 1 : ℤ) : ℚ) + 7 / 8⌋ = 2 ^ p - 1 := by
        rw [Int.floor_eq_iff]
        constructor <;> linarith
      rw [this, if_neg (by norm_num), if_pos (by norm_num)]
      ring
    rw [e5]
    push_cast
    linear_combination 8 * e3

/-- **C56 is violated** for `isprimary`.  In every binary format there is a position, just below 0, that `decompose` sends to a rank while
`isprimary` is false for it on every rank. -/
theorem C56_violated_isprimary (p : ℕ) (hp : 1 ≤ p) : ∃ x, PosInFormat (binary p hp) fpGrid x ∧
    (∀ rank < 2, isPrimaryR (binary p hp) fpGrid rank x = false) ∧
    ∃ L, decomposeR (binary p hp) fpGrid [0] [x] = .ok L ∧ ∃ r < 2, some 0 ∈ L.sentTo r := by
  refine ⟨_, tiny_inFormat p hp, fun rank hr => ?_, ?_⟩
  · obtain ⟨L, h1, h2⟩ := C56_isprimary_partial (binary p hp) fpGrid fpGrid_ok rfl fpGrid_flags (fpGrid_inFormat p hp) _
      (fpGrid_error p hp) [[-(2 : ℚ) ^ (-(p : ℤ))]] (by simpa using tiny_inFormat p hp)
    rw [← Bool.not_eq_true]
    intro h
    exact ((h2 0 _ rfl rank hr).1 h).1 (tiny_rounds p hp)
  · obtain ⟨L, h1, -, h2⟩ := C56_partition (binary p hp) fpGrid fpGrid_ok rfl fpGrid_flags (fpGrid_inFormat p hp) _
      (fpGrid_error p hp) [[-(2 : ℚ) ^ (-(p : ℤ))]] (by simpa using tiny_inFormat p hp)
    obtain ⟨r, hr, h3, -⟩ := h2 0 _ rfl
    exact ⟨L, h1, r, hr, (h3 r hr).2 rfl⟩

/-- **C56 is violated** for `load`.  In every binary format there is a position for which `load` raises an exception, and if only one of two ranks
has it, the other waits forever. -/
theorem C56_violated_load (p : ℕ) (hp : 1 ≤ p) : ∃ x, PosInFormat (binary p hp) fpGrid x ∧
    loadR (binary p hp) fpGrid 1 [[x], []] = none ∧
    Deadlocks 2 (fun r => loadProg (binary p hp) fpGrid 1 (if r = 0 then [x] else [])) := by
  refine ⟨_, tiny_inFormat p hp, ?_, ?_⟩
  · refine (C56_load_partial (binary p hp) fpGrid fpGrid_ok rfl (fpGrid_inFormat p hp) _ ?_).1.2
      ⟨_, by simp, _, List.mem_singleton_self _, tiny_rounds p hp⟩
    simp [fpGrid_ndim]
  · refine C56_load_hang (binary p hp) fpGrid fpGrid_ok rfl (fpGrid_inFormat p hp) 2 1 _ ?_ 0 1 (by norm_num) (by norm_num)
      ⟨_, by simp, tiny_rounds p hp⟩ (by simp)
    intro r _ x hx
    split_ifs at hx
    · rw [List.mem_singleton.1 hx]; simp [fpGrid_ndim]
    · simp at hx

/-- Three domains, the first one empty, one for each of three ranks. -/
def fpGridEmpty : Grid ℚ := { edges := [[0, 0, 3, 5]], periodic := true, assign := [0, 1, 2], nrank := 3 }

/-- **C56 is violated** if the first domain is empty: a position that rounds to the box size is sent to two ranks without any smoothing. -/
theorem C56_violated_empty_first :
    (decomposeR (binary 53 (by norm_num)) fpGridEmpty [0] [[-1 / 2 ^ 60]]).toOption.map (fun L => (L.sendcounts, L.indices)) =
      some ([0, 1, 1], [some 0, some 0]) := by
  decide +kernel

/-! ### The hypotheses are met -/

example : ∃ L, decomposeR (binary 53 (by norm_num)) fpGrid [1] [[3], [-1 / 2 ^ 60]] = .ok L := by
  obtain ⟨L, h, -⟩ := C56_decompose (binary 53 (by norm_num)) fpGrid fpGrid_ok rfl fpGrid_flags (fpGrid_inFormat 53 (by norm_num)) _
    (fpGrid_error 53 (by norm_num)) [1] rfl
    (by
      intro j hj
      obtain rfl : j = 0 := by rw [fpGrid_ndim] at hj; omega
      rw [fpGrid_box]
      norm_num)
    (by
      intro j hj d hd
      obtain rfl : j = 0 := by rw [fpGrid_ndim] at hj; omega
      rw [fpGrid_axis] at hd ⊢
      rw [fpGrid_box]
      simp only [List.length_cons, List.length_nil] at hd
      left
      interval_cases d <;> norm_num)
    [[3], [-1 / 2 ^ 60]]
    (by
      intro x hx
      simp only [List.mem_cons, List.not_mem_nil, or_false] at hx
      rcases hx with rfl | rfl
      · refine ⟨by simp [fpGrid_ndim], fun j hj => ?_⟩
        obtain rfl : j = 0 := by rw [fpGrid_ndim] at hj; omega
        decide +kernel
      · refine ⟨by simp [fpGrid_ndim], fun j hj => ?_⟩
        obtain rfl : j = 0 := by rw [fpGrid_ndim] at hj; omega
        decide +kernel)
  exact ⟨L, h⟩

/-- The position 3 is delivered to its own rank and, with smoothing 1, to the other one; the number below 0 to both. -/
example : (decomposeR (binary 53 (by norm_num)) fpGrid [1] [[3], [-1 / 2 ^ 60]]).toOption.map (fun L => (L.sendcounts, L.indices)) =
    some ([2, 2], [some 0, some 1, some 0, some 1]) := by
  decide +kernel

example : ∃ L, decomposeR (binary 24 (by norm_num)) { fpGrid with periodic := false } [1] [[3], [-5 / 2]] = .ok L := by
  obtain ⟨L, h, -⟩ := C56_decompose_open (binary 24 (by norm_num)) { fpGrid with periodic := false }
    ⟨fpGrid_ok.1, fpGrid_ok.2, fpGrid_ok.3, fpGrid_ok.4⟩ rfl fpGrid_flags [1] rfl (by simp) 4 (4 / 2 ^ 24)
    (fun y hy => (flRound_err 24 y).trans (div_le_div_of_nonneg_right hy (by positivity))) [[3], [-5 / 2]]
    (by
      intro x hx
      simp only [List.mem_cons, List.not_mem_nil, or_false] at hx
      rcases hx with rfl | rfl
      · refine ⟨by simp [Grid.ndim, fpGrid], fun j hj => ?_⟩
        obtain rfl : j = 0 := by simp [Grid.ndim, fpGrid] at hj; omega
        norm_num
      · refine ⟨by simp [Grid.ndim, fpGrid], fun j hj => ?_⟩
        obtain rfl : j = 0 := by simp [Grid.ndim, fpGrid] at hj; omega
        norm_num [abs_of_neg])
  exact ⟨L, h⟩

example : decomposeR exactArith fpGrid [1] [[3], [-1 / 2]] = decompose fpGrid [1] [[3], [-1 / 2]] :=
  (C56_exact fpGrid fpGrid_ok rfl [1] [[3], [-1 / 2]] 0 [3] rfl (by simp [fpGrid_ndim]) (by simp [fpGrid_ndim])).1

end Pmesh

#print axioms Pmesh.C56_decompose
#print axioms Pmesh.C56_decompose_open
#print axioms Pmesh.C56_partition
#print axioms Pmesh.C56_isprimary_partial
#print axioms Pmesh.C56_load_partial
#print axioms Pmesh.C56_load_hang
#print axioms Pmesh.C56_exact
#print axioms Pmesh.C56_violated_isprimary
#print axioms Pmesh.C56_violated_load
#print axioms Pmesh.C56_violated_empty_first
