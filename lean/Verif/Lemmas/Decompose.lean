import Verif.Lemmas.Fill

set_option linter.unusedSectionVars false

namespace Pmesh

theorem mapM_ok {α β ε : Type*} {f : α → Except ε β} {P : α → β → Prop} (l : List α)
    (h : ∀ a ∈ l, ∃ b, f a = .ok b ∧ P a b) : ∃ bs, l.mapM f = .ok bs ∧ List.Forall₂ P l bs := by
  induction l with
  | nil => exact ⟨[], rfl, .nil⟩
  | cons a l ih =>
    obtain ⟨b, hb, pb⟩ := h a (by simp)
    obtain ⟨bs, hbs, pbs⟩ := ih (fun a ha => h a (by simp [ha]))
    refine ⟨b :: bs, ?_, .cons pb pbs⟩
    rw [List.mapM_cons, hb, hbs]
    rfl

theorem drop_take_flatten {α : Type*} (B : List (List α)) (r : ℕ) (hr : r < B.length) :
    (B.flatten.drop ((B.take r).map List.length).sum).take (B[r].length) = B[r] := by
  induction B generalizing r with
  | nil => simp at hr
  | cons b B ih =>
    cases r with
    | zero => simp
    | succ r =>
      simp only [List.take_succ_cons, List.map_cons, List.sum_cons, List.flatten_cons,
        List.getElem_cons_succ]
      rw [List.drop_append, List.drop_eq_nil_of_le (by omega), List.nil_append]
      simp only [Nat.add_sub_cancel_left]
      exact ih r (by simpa using hr)

section
variable {K : Type*} [Field K] [LinearOrder K] [IsStrictOrderedRing K] [FloorRing K]

theorem Grid.axis_eq (g : Grid K) {j : ℕ} (hj : j < g.edges.length) : g.axis j = g.edges[j] :=
  List.getD_eq_getElem _ _ hj

theorem GridOK.axisOK {g : Grid K} (hg : GridOK g) {j : ℕ} (hj : j < g.edges.length) :
    EdgesOK (g.axis j) := by
  rw [g.axis_eq hj]; exact hg.edges _ (List.getElem_mem hj)

theorem GridOK.shape_pos {g : Grid K} (hg : GridOK g) : ∀ n ∈ g.shape, 0 < n := by
  intro n hn
  simp only [Grid.shape, List.mem_map] at hn
  obtain ⟨e, he, rfl⟩ := hn
  have := (hg.edges e he).two
  omega

theorem wrapIdx_getElem (shape : List ℕ) (p : List ℤ) {j : ℕ} (h : j < (wrapIdx shape p).length)
    (h1 : j < shape.length) (h2 : j < p.length) :
    (wrapIdx shape p)[j] = (p[j] % (shape[j] : ℤ)).toNat := by
  have h' : j < (List.zipWith (fun (n : ℕ) (t : ℤ) => (t % (n : ℤ)).toNat) shape p).length := h
  change (List.zipWith (fun (n : ℕ) (t : ℤ) => (t % (n : ℤ)).toNat) shape p)[j]'h' = _
  rw [List.getElem_zipWith]

theorem degenerate_getElem? {g : Grid K} (hg : GridOK g) {D : List ℕ} (hD : g.IsDomain D) :
    (g.degenerate[cOrder g.shape D]? = some false ↔ ¬ g.EmptyDomain D) ∧
    (g.degenerate[cOrder g.shape D]? = some true ↔ g.EmptyDomain D) := by
  have h1 : g.degenerate[cOrder g.shape D]? = some ((List.zipWith axisDegenerate g.edges D).any id) := by
    unfold Grid.degenerate
    have hD' : ValidIndex g.shape D := hD
    rw [List.getElem?_map, ndindex_getElem? hD']; rfl
  have hlen : D.length = g.edges.length := by
    have := hD.length_eq
    simpa using this.symm
  have h2 : (List.zipWith axisDegenerate g.edges D).any id = true ↔ g.EmptyDomain D := by
    rw [List.any_eq_true]
    unfold Grid.EmptyDomain
    constructor
    · rintro ⟨b, hb, hb2⟩
      obtain ⟨j, hj, rfl⟩ := List.getElem_of_mem hb
      simp only [List.length_zipWith, lt_inf_iff] at hj
      refine ⟨j, hj.1, ?_⟩
      simp only [List.getElem_zipWith, id] at hb2
      unfold axisDegenerate at hb2
      have hv : D[j] < (g.edges[j]).length - 1 := by
        have := hD.get (i := j) (by simp; omega) (by omega)
        simpa using this
      rw [List.getElem?_eq_getElem (by omega), List.getElem?_eq_getElem (by omega)] at hb2
      simp only [decide_eq_true_eq] at hb2
      unfold Grid.hi Grid.lo
      rw [g.axis_eq hj.1, List.getD_eq_getElem D _ hj.2, List.getD_eq_getElem _ _ (by omega),
        List.getD_eq_getElem _ _ (by omega)]
      exact hb2
    · rintro ⟨j, hj, e⟩
      unfold Grid.ndim at hj
      have hj2 : j < D.length := by omega
      refine ⟨(List.zipWith axisDegenerate g.edges D)[j]'(by simp; omega), List.getElem_mem _, ?_⟩
      have hv : D[j] < (g.edges[j]).length - 1 := by
        have := hD.get (i := j) (by simp; omega) (by omega)
        simpa using this
      unfold Grid.hi Grid.lo at e
      rw [g.axis_eq hj, List.getD_eq_getElem D _ hj2, List.getD_eq_getElem _ _ (by omega),
        List.getD_eq_getElem _ _ (by omega)] at e
      simp only [List.getElem_zipWith, id]
      unfold axisDegenerate
      rw [List.getElem?_eq_getElem (by omega), List.getElem?_eq_getElem (by omega)]
      simpa using e
  rw [h1]
  constructor
  · rw [← h2]; simp
  · rw [← h2]; simp

/-- Everything `decompose` computes, from the target lists of the particles. -/
theorem decomposeBy_of_targets (g : Grid K) (range : List K → List (ℤ × ℤ)) (pos : List (List K))
    (P : List K → List ℕ → Prop)
    (h : ∀ x ∈ pos, ∃ T, particleTargets g ((range x).map (·.1)) ((range x).map (·.2)) = .ok T ∧
        (T.Pairwise (· < ·) ∧ (∀ r ∈ T, r < g.nrank) ∧ P x T)) :
    ∃ (L : Sends) (T : List (List ℕ)), decomposeBy g range pos = .ok L ∧ L.sendlength = pos.length ∧
      T.length = pos.length ∧
      L.sendcounts = (List.range g.nrank).map (fun r => (sentList T r).length) ∧
      L.indices = ((List.range g.nrank).flatMap fun r => sentList T r).map some ∧
      ∀ (i : ℕ) (x : List K), pos[i]? = some x → ∃ t : List ℕ, T[i]? = some t ∧
        (t.Pairwise (· < ·) ∧ (∀ r ∈ t, r < g.nrank) ∧ P x t) := by
  by_cases hp : pos.length ≠ 0
  · obtain ⟨T, hT, hF⟩ := mapM_ok pos h
    have hlen := hF.length_eq
    have hget : ∀ (i : ℕ) (x : List K), pos[i]? = some x → ∃ t : List ℕ, T[i]? = some t ∧
        (t.Pairwise (· < ·) ∧ (∀ r ∈ t, r < g.nrank) ∧ P x t) := by
      intro i x hx
      obtain ⟨hi, rfl⟩ := List.getElem?_eq_some_iff.1 hx
      refine ⟨T[i], List.getElem?_eq_getElem (by omega), ?_⟩
      exact hF.get hi (by omega)
    have hTmem : ∀ t ∈ T, t.Pairwise (· < ·) ∧ (∀ r ∈ t, r < g.nrank) := by
      intro t ht
      obtain ⟨i, hi, rfl⟩ := List.getElem_of_mem ht
      obtain ⟨t', ht', q1, q2, _⟩ := hget i pos[i] (List.getElem?_eq_getElem (by omega))
      rw [List.getElem?_eq_getElem hi] at ht'
      obtain rfl := Option.some_inj.1 ht'
      exact ⟨q1, q2⟩
    have hnd : ∀ t ∈ T, t.Nodup := fun t ht => (hTmem t ht).1.imp (fun h => by omega)
    have hlt : ∀ t ∈ T, ∀ r ∈ t, r < g.nrank := fun t ht => (hTmem t ht).2
    obtain ⟨c, hc1, hc2, hc3⟩ := countTargets_spec g.nrank T hlt
    have hc3' : ∀ r < c.length, c.getD r 0 = (sentList T r).length := by
      intro r hr
      rw [hc3 r (by omega), count_flatten_eq_sentList T hnd]
    have hfi := fillIndices_spec T c hnd (by rw [hc2]; exact hlt) hc3'
    refine ⟨⟨pos.length, c, ((List.range g.nrank).flatMap fun r => sentList T r).map some⟩, T,
      ?_, rfl, by omega, ?_, rfl, hget⟩
    · unfold decomposeBy
      rw [if_pos hp, hT]
      simp only [bind, Except.bind]
      rw [hc1]
      simp only
      rw [hfi, hc2]
      rfl
    · simp only
      apply List.ext_getElem?
      intro r
      rw [List.getElem?_map]
      rcases Nat.lt_or_ge r g.nrank with hr | hr
      · have hr' : r < c.length := by omega
        rw [List.getElem?_range hr, List.getElem?_eq_getElem hr']
        have := hc3' r hr'
        rw [List.getD_eq_getElem _ _ hr'] at this
        simp [this]
      · rw [List.getElem?_eq_none (by omega), List.getElem?_eq_none (by simpa using hr)]; rfl
  · have hp' : pos = [] := by
      rw [not_not] at hp; exact List.length_eq_zero_iff.1 hp
    subst hp'
    refine ⟨⟨0, List.replicate g.nrank 0, []⟩, [], rfl, rfl, rfl, ?_, ?_, by simp⟩
    · apply List.ext_getElem?
      intro r
      rcases Nat.lt_or_ge r g.nrank with hr | hr
      · simp [sentList, hr]
      · simp [hr]
    · simp [sentList]

theorem decompose_of_targets (g : Grid K) (s : List K) (pos : List (List K))
    (P : List K → List ℕ → Prop)
    (h : ∀ x ∈ pos, ∃ T, particleTargets g ((particleRange g s x).map (·.1))
        ((particleRange g s x).map (·.2)) = .ok T ∧
        (T.Pairwise (· < ·) ∧ (∀ r ∈ T, r < g.nrank) ∧ P x T)) :
    ∃ (L : Sends) (T : List (List ℕ)), decompose g s pos = .ok L ∧ L.sendlength = pos.length ∧
      T.length = pos.length ∧
      L.sendcounts = (List.range g.nrank).map (fun r => (sentList T r).length) ∧
      L.indices = ((List.range g.nrank).flatMap fun r => sentList T r).map some ∧
      ∀ (i : ℕ) (x : List K), pos[i]? = some x → ∃ t : List ℕ, T[i]? = some t ∧
        (t.Pairwise (· < ·) ∧ (∀ r ∈ t, r < g.nrank) ∧ P x t) :=
  decomposeBy_of_targets g (particleRange g s) pos P h

theorem sentTo_eq {L : Sends} {T : List (List ℕ)} {nrank : ℕ}
    (hc : L.sendcounts = (List.range nrank).map (fun r => (sentList T r).length))
    (hi : L.indices = ((List.range nrank).flatMap fun r => sentList T r).map some)
    {r : ℕ} (hr : r < nrank) : L.sentTo r = (sentList T r).map some := by
  unfold Sends.sentTo
  rw [hc, hi]
  have e1 : ((List.range nrank).flatMap fun r => sentList T r).map some =
      ((List.range nrank).map fun r => (sentList T r).map some).flatten := by
    rw [List.flatMap, List.map_flatten, List.map_map]; rfl
  rw [e1]
  set B := (List.range nrank).map fun r => (sentList T r).map (some : ℕ → Option ℕ) with hB
  have hlenB : r < B.length := by simp [hB, hr]
  have e2 : (((List.range nrank).map fun r => (sentList T r).length).take r) =
      (B.take r).map List.length := by
    rw [List.map_take, hB, List.map_map]
    congr 1
    apply List.map_congr_left
    intro a _
    simp
  have e3 : (((List.range nrank).map fun r => (sentList T r).length).getD r 0) = B[r].length := by
    rw [List.getD_eq_getElem _ _ (by simpa using hr)]
    simp [hB]
  rw [e2, e3, drop_take_flatten B r hlenB]
  simp [hB]

theorem sentList_sorted (T : List (List ℕ)) (r : ℕ) : (sentList T r).Pairwise (· < ·) :=
  List.Pairwise.filter _ List.pairwise_lt_range

theorem mem_sentList {T : List (List ℕ)} {r i : ℕ} :
    i ∈ sentList T r ↔ ∃ t, T[i]? = some t ∧ r ∈ t := by
  unfold sentList
  rw [List.mem_filter, List.mem_range]
  constructor
  · rintro ⟨h1, h2⟩
    rw [List.getD_eq_getElem _ _ h1] at h2
    exact ⟨T[i], List.getElem?_eq_getElem h1, by simpa using h2⟩
  · rintro ⟨t, h1, h2⟩
    obtain ⟨hi, rfl⟩ := List.getElem?_eq_some_iff.1 h1
    refine ⟨hi, ?_⟩
    rw [List.getD_eq_getElem _ _ hi]
    simpa using h2

theorem particleRange_length {g : Grid K} {s x : List K} (hs : s.length = g.edges.length)
    (hx : g.edges.length ≤ x.length) : (particleRange g s x).length = g.edges.length := by
  unfold particleRange
  simp; omega

theorem particleRange_getElem {g : Grid K} {s x : List K} (hs : s.length = g.edges.length)
    (hx : g.edges.length ≤ x.length) {j : ℕ} (hj : j < (particleRange g s x).length) :
    (particleRange g s x)[j] = axisRange g.periodic (g.axis j) (s.getD j 0) (x.getD j 0) := by
  have hj' : j < g.edges.length := by rwa [particleRange_length hs hx] at hj
  have hj2 : j < (List.zipWith (fun e (sx : K × K) => axisRange g.periodic e sx.1 sx.2) g.edges
      (s.zip x)).length := hj
  change (List.zipWith (fun e (sx : K × K) => axisRange g.periodic e sx.1 sx.2) g.edges
      (s.zip x))[j]'hj2 = _
  rw [List.getElem_zipWith, List.getElem_zip, g.axis_eq hj', List.getD_eq_getElem _ _ (by omega),
    List.getD_eq_getElem _ _ (by omega)]

/-- Which ranks are targeted for given ranges along the axes, in terms of visited domains. -/
theorem targets_by {g : Grid K} (hg : GridOK g) (hr : ∀ r ∈ g.assign, r < g.size) (rng : List (ℤ × ℤ))
    (hlen : rng.length = g.edges.length) (hle : ∀ a ∈ rng, a.1 ≤ a.2)
    (hin : g.periodic = true ∨ List.Forall₂ (fun (n : ℕ) (a : ℤ × ℤ) => 0 ≤ a.1 ∧ a.2 ≤ n) g.shape rng)
    (ax : ℕ → ℤ × ℤ) (hget : ∀ {j} (hj : j < rng.length), rng[j] = ax j) :
    ∃ T, particleTargets g (rng.map (·.1)) (rng.map (·.2)) = .ok T ∧
      T.Pairwise (· < ·) ∧ (∀ r ∈ T, r < g.nrank) ∧
      ∀ r, r ∈ T ↔ (∃ D, g.IsDomain D ∧ g.Owner D r ∧ ∀ j < g.ndim, ∃ t : ℤ,
          (ax j).1 ≤ t ∧ t < (ax j).2 ∧
          t % (((g.axis j).length - 1 : ℕ) : ℤ) = D.getD j 0) ∧ g.degenerate[r]? = some false := by
  obtain ⟨T, hT, hTs, hTm⟩ := particleTargets_spec g hg.axes hg.shape_pos hg.assign_total hr
    rng hlen hle hin
  have hiff : ∀ r, r ∈ T ↔ (∃ D, g.IsDomain D ∧ g.Owner D r ∧ ∀ j < g.ndim, ∃ t : ℤ,
          (ax j).1 ≤ t ∧
          t < (ax j).2 ∧
          t % (((g.axis j).length - 1 : ℕ) : ℤ) = D.getD j 0) ∧ g.degenerate[r]? = some false := by
    intro r
    rw [hTm]
    refine and_congr_left fun _ => ?_
    constructor
    · rintro ⟨p, hp, ha⟩
      have hplen : p.length = g.edges.length := by rw [← hp.length_eq, hlen]
      have hv : ValidIndex g.shape (wrapIdx g.shape p) :=
        wrapIdx_valid hg.shape_pos (by simp [Grid.shape, hplen])
      refine ⟨wrapIdx g.shape p, hv, ha, ?_⟩
      intro j hj
      unfold Grid.ndim at hj
      have hpj := hp.get (i := j) (by omega) (by omega)
      simp only [List.get_eq_getElem] at hpj
      rw [hget] at hpj
      refine ⟨p[j], hpj.1, hpj.2, ?_⟩
      have hwl : j < (wrapIdx g.shape p).length := by simp [wrapIdx, Grid.shape]; omega
      rw [List.getD_eq_getElem _ _ hwl, wrapIdx_getElem _ _ hwl (by simp [Grid.shape]; omega) (by omega)]
      have e1 : g.shape[j]'(by simp [Grid.shape]; omega) = (g.axis j).length - 1 := by
        simp only [Grid.shape, List.getElem_map]
        rw [g.axis_eq (by omega)]
      rw [e1]
      have := (hg.axisOK hj).two
      rw [Int.toNat_of_nonneg (Int.emod_nonneg _ (by omega))]
    · rintro ⟨D, hD, ho, hv⟩
      choose! t ht1 ht2 ht3 using hv
      have hDlen : D.length = g.edges.length := by
        have := hD.length_eq; simpa using this.symm
      refine ⟨(List.range g.edges.length).map t, ?_, ?_⟩
      · rw [List.forall₂_iff_get]
        refine ⟨by simp [hlen], ?_⟩
        intro j hj1 hj2
        simp only [List.get_eq_getElem, List.getElem_map, List.getElem_range]
        rw [hget hj1]
        have hj : j < g.ndim := by unfold Grid.ndim; omega
        exact ⟨ht1 j hj, ht2 j hj⟩
      · have : wrapIdx g.shape ((List.range g.edges.length).map t) = D := by
          apply List.ext_getElem
          · simp [wrapIdx, Grid.shape, hDlen]
          · intro j h1 h2
            rw [wrapIdx_getElem _ _ h1 (by simp [Grid.shape]; omega) (by simp; omega)]
            simp only [List.getElem_map, List.getElem_range]
            have hj : j < g.ndim := by unfold Grid.ndim; omega
            have e1 : g.shape[j]'(by simp [Grid.shape]; omega) = (g.axis j).length - 1 := by
              simp only [Grid.shape, List.getElem_map]
              rw [g.axis_eq (by omega)]
            rw [e1, ht3 j hj, List.getD_eq_getElem _ _ h2]
            simp
        rw [this]
        exact ho
  refine ⟨T, hT, hTs, ?_, hiff⟩
  intro r hr'
  obtain ⟨⟨D, _, ho, _⟩, _⟩ := (hiff r).1 hr'
  exact hg.assign_rank r (List.mem_of_getElem? ho)

/-- Which ranks are targeted by one particle, periodic or not, in terms of visited domains. -/
theorem targets_visited {g : Grid K} (hg : GridOK g) (hr : ∀ r ∈ g.assign, r < g.size)
    {s x : List K} (hs : s.length = g.edges.length) (hx : g.edges.length ≤ x.length)
    (hs0 : g.periodic = true ∨ ∀ a ∈ s, 0 ≤ a) :
    ∃ T, particleTargets g ((particleRange g s x).map (·.1)) ((particleRange g s x).map (·.2)) = .ok T ∧
      T.Pairwise (· < ·) ∧ (∀ r ∈ T, r < g.nrank) ∧
      ∀ r, r ∈ T ↔ (∃ D, g.IsDomain D ∧ g.Owner D r ∧ ∀ j < g.ndim, ∃ t : ℤ,
          (axisRange g.periodic (g.axis j) (s.getD j 0) (x.getD j 0)).1 ≤ t ∧
          t < (axisRange g.periodic (g.axis j) (s.getD j 0) (x.getD j 0)).2 ∧
          t % (((g.axis j).length - 1 : ℕ) : ℤ) = D.getD j 0) ∧ g.degenerate[r]? = some false := by
  have hlen := particleRange_length hs hx (g := g)
  have hget : ∀ {j} (hj : j < (particleRange g s x).length), (particleRange g s x)[j] =
      axisRange g.periodic (g.axis j) (s.getD j 0) (x.getD j 0) :=
    fun hj => particleRange_getElem hs hx hj
  have hle : ∀ a ∈ particleRange g s x, a.1 ≤ a.2 := by
    intro a ha
    obtain ⟨j, hj, rfl⟩ := List.getElem_of_mem ha
    rw [hget hj]
    rcases Bool.eq_false_or_eq_true g.periodic with hp | hp
    · rw [hp]; exact axisRange_periodic_le (hg.axisOK (by omega)) _ _
    · rw [hp]
      have h0 : 0 ≤ s.getD j 0 := by
        rcases hs0 with h | h
        · rw [hp] at h; simp at h
        · rw [List.getD_eq_getElem _ _ (by omega)]; exact h _ (List.getElem_mem _)
      exact (axisRange_open_le _ h0 _).1
  have hin : g.periodic = true ∨
      List.Forall₂ (fun (n : ℕ) (a : ℤ × ℤ) => 0 ≤ a.1 ∧ a.2 ≤ n) g.shape (particleRange g s x) := by
    rcases Bool.eq_false_or_eq_true g.periodic with hp | hp
    · exact Or.inl hp
    · right
      rw [List.forall₂_iff_get]
      refine ⟨by rw [hlen]; simp [Grid.shape], ?_⟩
      intro j hj1 hj2
      simp only [List.get_eq_getElem]
      rw [hget hj2, hp]
      have h0 : 0 ≤ s.getD j 0 := by
        rcases hs0 with h | h
        · rw [hp] at h; simp at h
        · rw [List.getD_eq_getElem _ _ (by omega)]; exact h _ (List.getElem_mem _)
      have := axisRange_open_le (g.axis j) h0 (x.getD j 0)
      have e1 : g.shape[j] = (g.axis j).length - 1 := by
        simp only [Grid.shape, List.getElem_map]
        rw [g.axis_eq (by omega)]
      rw [e1]
      exact ⟨this.2.1, this.2.2⟩
  exact targets_by hg hr (particleRange g s x) hlen hle hin _ hget

theorem IsDomain.getD_lt {g : Grid K} {D : List ℕ} (hD : g.IsDomain D) {j : ℕ} (hj : j < g.ndim) :
    D.getD j 0 < (g.axis j).length - 1 := by
  unfold Grid.ndim at hj
  have hlen : D.length = g.edges.length := by
    have := hD.length_eq; simpa using this.symm
  have := hD.get (i := j) (by simpa using hj) (by omega)
  rw [List.getD_eq_getElem _ _ (by omega), g.axis_eq hj]
  simpa using this

theorem GridOK.lo_le_hi {g : Grid K} (hg : GridOK g) {D : List ℕ} (hD : g.IsDomain D) {j : ℕ}
    (hj : j < g.ndim) : g.lo D j ≤ g.hi D j := by
  have h1 := IsDomain.getD_lt hD hj
  exact getD_le_of_sorted (hg.axisOK hj).sorted (by omega) (by omega)

theorem targets_reaches {g : Grid K} (hg : GridOK g) (hper : g.periodic = true) (hflag : g.FlagsAgree)
    (hr : ∀ r ∈ g.assign, r < g.size)
    {s x : List K} (hs : s.length = g.edges.length) (hx : g.edges.length ≤ x.length)
    (hs0 : ∀ a ∈ s, 0 ≤ a) (hfit : g.SmoothingFits s) :
    ∃ T, particleTargets g ((particleRange g s x).map (·.1)) ((particleRange g s x).map (·.2)) = .ok T ∧
      T.Pairwise (· < ·) ∧ (∀ r ∈ T, r < g.nrank) ∧ ∀ r, r ∈ T ↔ g.Reaches s x r := by
  obtain ⟨T, h1, h2, h3, h4⟩ := targets_visited hg hr hs hx (Or.inl hper)
  refine ⟨T, h1, h2, h3, fun r => ?_⟩
  rw [h4]
  have hs0' : ∀ j < g.ndim, 0 ≤ s.getD j 0 := by
    intro j hj
    unfold Grid.ndim at hj
    rw [List.getD_eq_getElem _ _ (by omega)]; exact hs0 _ (List.getElem_mem _)
  constructor
  · rintro ⟨⟨D, hD, ho, hv⟩, hdg⟩
    refine ⟨D, hD, ho, fun j hj => ?_⟩
    obtain ⟨D', hD', hcr, hemp⟩ := hflag D r hD ho
    have hne : ¬ g.EmptyDomain D := by
      rw [← hemp]
      apply (degenerate_getElem? hg hD').1.1
      rw [show cOrder g.shape D' = r from hcr]; exact hdg
    have hlt : g.lo D j < g.hi D j :=
      lt_of_le_of_ne (hg.lo_le_hi hD hj) (fun h => hne ⟨j, hj, h.symm⟩)
    have := (axis_periodic (hg.axisOK hj) (hs0' j hj) (x.getD j 0) (hfit j hj)
      (IsDomain.getD_lt hD hj)).1 ⟨by have := hv j hj; rwa [hper] at this, hlt⟩
    exact this
  · rintro ⟨D, hD, ho, hm⟩
    have key : ∀ j < g.ndim, _ := fun j hj => (axis_periodic (hg.axisOK hj) (hs0' j hj) (x.getD j 0)
      (hfit j hj) (IsDomain.getD_lt hD hj)).2 (hm j hj)
    refine ⟨⟨D, hD, ho, fun j hj => ?_⟩, ?_⟩
    · rw [hper]; exact (key j hj).1
    · obtain ⟨D', hD', hcr, hemp⟩ := hflag D r hD ho
      rw [← show cOrder g.shape D' = r from hcr]
      apply (degenerate_getElem? hg hD').1.2
      rw [hemp]
      rintro ⟨j, hj, e⟩
      exact absurd e (ne_of_gt (key j hj).2)

theorem targets_reaches_open {g : Grid K} (hg : GridOK g) (hper : g.periodic = false) (hflag : g.FlagsAgree)
    (hr : ∀ r ∈ g.assign, r < g.size)
    {s x : List K} (hs : s.length = g.edges.length) (hx : g.edges.length ≤ x.length)
    (hs0 : ∀ a ∈ s, 0 ≤ a) :
    ∃ T, particleTargets g ((particleRange g s x).map (·.1)) ((particleRange g s x).map (·.2)) = .ok T ∧
      T.Pairwise (· < ·) ∧ (∀ r ∈ T, r < g.nrank) ∧ ∀ r, r ∈ T ↔ g.ReachesOpen s x r := by
  obtain ⟨T, h1, h2, h3, h4⟩ := targets_visited hg hr hs hx (Or.inr hs0)
  refine ⟨T, h1, h2, h3, fun r => ?_⟩
  rw [h4]
  have hs0' : ∀ j < g.ndim, 0 ≤ s.getD j 0 := by
    intro j hj
    unfold Grid.ndim at hj
    rw [List.getD_eq_getElem _ _ (by omega)]; exact hs0 _ (List.getElem_mem _)
  have hmod : ∀ D, g.IsDomain D → ∀ j < g.ndim,
      ((∃ t : ℤ, (axisRange g.periodic (g.axis j) (s.getD j 0) (x.getD j 0)).1 ≤ t ∧
          t < (axisRange g.periodic (g.axis j) (s.getD j 0) (x.getD j 0)).2 ∧
          t % (((g.axis j).length - 1 : ℕ) : ℤ) = D.getD j 0) ↔
        ((axisRange false (g.axis j) (s.getD j 0) (x.getD j 0)).1 ≤ (D.getD j 0 : ℤ) ∧
          (D.getD j 0 : ℤ) < (axisRange false (g.axis j) (s.getD j 0) (x.getD j 0)).2)) := by
    intro D hD j hj
    rw [hper]
    have hb := axisRange_open_le (g.axis j) (hs0' j hj) (x.getD j 0)
    have hl := IsDomain.getD_lt hD hj
    constructor
    · rintro ⟨t, t1, t2, t3⟩
      rw [Int.emod_eq_of_lt (by omega) (by omega)] at t3
      rw [← t3]; exact ⟨t1, t2⟩
    · rintro ⟨t1, t2⟩
      exact ⟨_, t1, t2, Int.emod_eq_of_lt (by omega) (by omega)⟩
  constructor
  · rintro ⟨⟨D, hD, ho, hv⟩, hdg⟩
    refine ⟨D, hD, ho, fun j hj => ?_⟩
    obtain ⟨D', hD', hcr, hemp⟩ := hflag D r hD ho
    have hne : ¬ g.EmptyDomain D := by
      rw [← hemp]
      apply (degenerate_getElem? hg hD').1.1
      rw [show cOrder g.shape D' = r from hcr]; exact hdg
    have hlt : g.lo D j < g.hi D j :=
      lt_of_le_of_ne (hg.lo_le_hi hD hj) (fun h => hne ⟨j, hj, h.symm⟩)
    have hv' := (hmod D hD j hj).1 (hv j hj)
    exact (axis_open (hg.axisOK hj) (hs0' j hj) (x.getD j 0) (IsDomain.getD_lt hD hj)).1
      ⟨hv'.1, hv'.2, hlt⟩
  · rintro ⟨D, hD, ho, hm⟩
    have key : ∀ j < g.ndim, _ := fun j hj => (axis_open (hg.axisOK hj) (hs0' j hj) (x.getD j 0)
      (IsDomain.getD_lt hD hj)).2 (hm j hj)
    refine ⟨⟨D, hD, ho, fun j hj => ?_⟩, ?_⟩
    · exact (hmod D hD j hj).2 ⟨(key j hj).1, (key j hj).2.1⟩
    · obtain ⟨D', hD', hcr, hemp⟩ := hflag D r hD ho
      rw [← show cOrder g.shape D' = r from hcr]
      apply (degenerate_getElem? hg hD').1.2
      rw [hemp]
      rintro ⟨j, hj, e⟩
      exact absurd e (ne_of_gt (key j hj).2.2)

/-- The ranks seen as domain numbers exist, which is what keeps the flag lookup in bounds. -/
theorem FlagsAgree.rank_lt {g : Grid K} (hg : GridOK g) (h : g.FlagsAgree) : ∀ r ∈ g.assign, r < g.size := by
  intro r hr
  obtain ⟨k, hk, rfl⟩ := List.getElem_of_mem hr
  have hk' : k < g.shape.prod := by
    have := hg.assign_total
    change g.assign.length = g.shape.prod at this
    omega
  obtain ⟨D, hD, hDk⟩ := exists_cOrder_eq hk'
  obtain ⟨D', hD', hc, _⟩ := h D g.assign[k] hD (by
    unfold Grid.Owner
    change g.assign[cOrder g.shape D]? = _
    rw [hDk]; exact List.getElem?_eq_getElem hk)
  rw [← hc]
  exact cOrder_lt hD'

end
end Pmesh
