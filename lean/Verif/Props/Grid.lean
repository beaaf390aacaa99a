import Verif.Lemmas.Load
import Verif.Lemmas.Assign
import Verif.Lemmas.Balance
import Verif.Lemmas.Graham
import Verif.Lemmas.Uniform
import Verif.Props.Decompose

/-!
# C03, C08, C09, C10, C11: primary regions, assignment, load
-/

namespace Pmesh

section
variable {K : Type*} [Field K] [LinearOrder K] [IsStrictOrderedRing K] [FloorRing K]

/-- **C03**.  On a periodic grid (whose empty domains, if any, are visible at the right place, see `FlagsAgree`;
always true without empty domains), with zero smoothing every particle is sent to exactly one rank, once; that rank
is the owner of the one domain that contains the particle, and `isprimary` is true on that rank and on no other. -/
theorem C03_partition (g : Grid K) (hg : GridOK g) (hper : g.periodic = true) (hflag : g.FlagsAgree)
    (s : List K) (hs : s.length = g.ndim) (hs0 : ∀ a ∈ s, a = 0)
    (pos : List (List K)) (hpos : ∀ x ∈ pos, g.ndim ≤ x.length) :
    ∃ L, decompose g s pos = .ok L ∧ L.indices.length = pos.length ∧
      ∀ i x, pos[i]? = some x →
        ∃ r < g.nrank, (∃ D, g.IsDomain D ∧ g.Owner D r ∧ g.Contains D x) ∧
          ∀ r' < g.nrank, ((some i ∈ L.sentTo r' ↔ r' = r) ∧ (isPrimary g r' x = true ↔ r' = r)) := by
  have hs0' : ∀ a ∈ s, 0 ≤ a := fun a ha => (hs0 a ha).ge
  obtain ⟨L, h1, h2, h3⟩ := C01_delivery_partial g hg hper hflag s hs hs0' (smoothingFits_zero hg s hs0) pos hpos
  obtain ⟨L', a1, a2, a3, a4, a5, a6⟩ := C02_unique_ordered g hg (FlagsAgree.rank_lt hg hflag) s hs
    (Or.inl hper) pos hpos
  rw [h1] at a1
  obtain rfl := Except.ok.inj a1
  have hs0'' : ∀ j, s.getD j 0 = 0 := by
    intro j
    rcases Nat.lt_or_ge j s.length with h | h
    · rw [List.getD_eq_getElem _ _ h]; exact hs0 _ (List.getElem_mem _)
    · exact List.getD_eq_default _ _ h
  have hreach : ∀ x r, g.Reaches s x r ↔ g.Owner (wrapDom g x) r := by
    intro x r
    unfold Grid.Reaches
    constructor
    · rintro ⟨D, hD, ho, hm⟩
      have : g.Contains D x := fun j hj => by
        have := hm j hj; rw [hs0'', meetsMod_zero] at this; exact this
      rw [contains_iff_eq hg x hD] at this
      rwa [this] at ho
    · intro ho
      refine ⟨wrapDom g x, wrapDom_isDomain hg x, ho, fun j hj => ?_⟩
      rw [hs0'', meetsMod_zero]
      exact (contains_iff_eq hg x (wrapDom_isDomain hg x)).2 rfl j hj
  have hown : ∀ x, ∃ r < g.nrank, g.Owner (wrapDom g x) r := by
    intro x
    have hlt := cOrder_lt (wrapDom_isDomain hg x)
    rw [← hg.assign_total] at hlt
    refine ⟨_, hg.assign_rank _ (List.getElem_mem hlt), ?_⟩
    unfold Grid.Owner
    exact List.getElem?_eq_getElem hlt
  have hmem : ∀ i x, pos[i]? = some x → ∀ r' < g.nrank,
      (some i ∈ L.sentTo r' ↔ g.Owner (wrapDom g x) r') := by
    intro i x hx r' hr'
    rw [h3 r' hr' i]
    constructor
    · rintro ⟨x', hx', hr⟩
      rw [hx] at hx'; obtain rfl := Option.some_inj.1 hx'
      exact (hreach x r').1 hr
    · intro ho; exact ⟨x, hx, (hreach x r').2 ho⟩
  have huniq : ∀ x r r', g.Owner (wrapDom g x) r → g.Owner (wrapDom g x) r' → r' = r := by
    intro x r r' ho ho'
    unfold Grid.Owner at ho ho'
    rw [ho] at ho'; exact (Option.some_inj.1 ho').symm
  refine ⟨L, h1, ?_, ?_⟩
  · -- every particle appears exactly once in the send list
    choose owner hlt howner using hown
    have hcnt : ∀ r < g.nrank, L.sendcounts.getD r 0 =
        ((List.range pos.length).filter fun i => owner (pos.getD i []) = r).length := by
      intro r hr
      obtain ⟨l, l1, l2, l3, l4⟩ := a6 r hr
      rw [← l2]
      congr 1
      apply List.Perm.eq_of_pairwise (le := fun a b => a < b) (l₁ := l)
      · intro a b _ _ h1 h2; omega
      · exact l3
      · exact List.Pairwise.filter _ List.pairwise_lt_range
      · rw [List.perm_ext_iff_of_nodup (l3.imp (fun h => by omega))
          (List.Pairwise.filter _ List.nodup_range)]
        intro i
        rw [List.mem_filter, List.mem_range, decide_eq_true_eq]
        have e : i ∈ l ↔ some i ∈ L.sentTo r := by rw [l1]; simp
        rw [e]
        constructor
        · intro h
          have hi : i < pos.length := l4 i (e.2 h)
          refine ⟨hi, ?_⟩
          have := (hmem i pos[i] (List.getElem?_eq_getElem hi) r hr).1 h
          rw [List.getD_eq_getElem _ _ hi]
          exact huniq _ _ _ this (howner _)
        · rintro ⟨hi, rfl⟩
          rw [List.getD_eq_getElem _ _ hi] at hr ⊢
          exact (hmem i pos[i] (List.getElem?_eq_getElem hi) _ hr).2 (howner _)
    rw [a4]
    have e1 : L.sendcounts = (List.range g.nrank).map fun r =>
        ((List.range pos.length).filter fun i => owner (pos.getD i []) = r).length := by
      apply List.ext_getElem
      · simp [a3]
      · intro r p q
        have hr : r < g.nrank := by omega
        rw [← List.getD_eq_getElem _ 0 p, hcnt r hr]
        simp
    rw [e1]
    have : ∀ (l : List ℕ), ((List.range g.nrank).map fun r =>
        (l.filter fun i => owner (pos.getD i []) = r).length).sum = l.length := by
      intro l
      induction l with
      | nil => simp
      | cons a l ih =>
        have h2 : ((List.range g.nrank).map fun r =>
            ((a :: l).filter fun i => owner (pos.getD i []) = r).length) =
            (List.range g.nrank).map fun r => (if owner (pos.getD a []) = r then 1 else 0) +
              (l.filter fun i => owner (pos.getD i []) = r).length := by
          apply List.map_congr_left
          intro r _
          rw [List.filter_cons]
          by_cases h : owner (pos.getD a []) = r
          · rw [if_pos (by simpa using h), if_pos h, List.length_cons]; omega
          · rw [if_neg (by simpa using h), if_neg h]; omega
        rw [h2, List.sum_map_add, ih]
        have h3 := sum_ite_range g.nrank (owner (pos.getD a [])) (1 : ℕ) (hlt _)
        rw [h3]
        simp; omega
    rw [this]; simp
  · intro i x hx
    obtain ⟨r, hr, ho⟩ := hown x
    refine ⟨r, hr, ⟨wrapDom g x, wrapDom_isDomain hg x, ho,
      (contains_iff_eq hg x (wrapDom_isDomain hg x)).2 rfl⟩, fun r' hr' => ⟨?_, ?_⟩⟩
    · rw [hmem i x hx r' hr']
      exact ⟨fun h => huniq x r r' ho h, fun h => h ▸ ho⟩
    · rw [isPrimary_iff hg r' x (hpos x (List.mem_of_getElem? hx))]
      simp only [hper, if_true]
      constructor
      · rintro ⟨D, hD, hoD, hc⟩
        rw [← contains_iff hg hD, contains_iff_eq hg x hD] at hc
        rw [hc] at hoD
        exact huniq x r r' ho hoD
      · rintro rfl
        exact ⟨wrapDom g x, wrapDom_isDomain hg x, ho, (contains_iff hg (wrapDom_isDomain hg x) x).1
          ((contains_iff_eq hg x (wrapDom_isDomain hg x)).2 rfl)⟩

/-- `isprimary` in general (periodic or not, any assignment): true exactly if a domain owned by the rank contains
the position. -/
theorem C03_isprimary (g : Grid K) (hg : GridOK g) (r : ℕ) (x : List K) (hx : g.ndim ≤ x.length) :
    isPrimary g r x = true ↔ ∃ D, g.IsDomain D ∧ g.Owner D r ∧
      (if g.periodic then g.Contains D x else g.ContainsOpen D x) := by
  rw [isPrimary_iff hg r x hx]
  refine exists_congr fun D => and_congr_right fun hD => and_congr_right fun _ => ?_
  rcases Bool.eq_false_or_eq_true g.periodic with hp | hp
  · simp only [hp, if_true]
    exact (contains_iff hg hD x).symm
  · simp only [hp, Bool.false_eq_true, if_false]
    rfl

open Classical in
/-- **C10**.  `load` on a periodic grid: no exception, one entry per domain, and the entry of each domain is the
`gamma`-th power of the number of particles (over all ranks) whose position, moved by whole boxes, lies in it; with
`gamma = 1` the entries add up to the global number of particles. -/
theorem C10_load (g : Grid K) (hg : GridOK g) (hper : g.periodic = true) (gamma : ℕ)
    (pos : List (List (List K))) (hpos : ∀ P ∈ pos, ∀ x ∈ P, g.ndim ≤ x.length) :
    ∃ l, load g gamma pos = some l ∧ l.length = (g.edges.map fun e => e.length - 1).prod ∧
      (∀ D, g.IsDomain D → l.getD (cOrder (g.edges.map fun e => e.length - 1) D) 0 =
        (pos.flatten.countP fun x => decide (g.Contains D x)) ^ gamma) ∧
      (gamma = 1 → l.sum = pos.flatten.length) := by
  obtain ⟨l, h1, h2, h3, h4⟩ := loadOf_eq (wrapDom g) gamma pos (fun _ _ x _ => wrapDom_isDomain hg x)
    fun P hP x hx => loadDomain_eq hg hper x (hpos P hP x hx)
  refine ⟨l, h1, h2, fun D hD => ?_, h4⟩
  refine (h3 D hD).trans ?_
  congr 1
  apply List.countP_congr
  intro x _
  rw [decide_eq_true_eq, decide_eq_true_eq, contains_iff_eq hg x hD]
  exact eq_comm

open Classical in
/-- **C10** (not periodic).  `load` counts every particle in the domain that contains it; a position beyond the first or last
edge of an axis counts for the first or last domain there. -/
theorem C10_load_open (g : Grid K) (hg : GridOK g) (hper : g.periodic = false) (gamma : ℕ)
    (pos : List (List (List K))) (hpos : ∀ P ∈ pos, ∀ x ∈ P, g.ndim ≤ x.length) :
    ∃ l, load g gamma pos = some l ∧ l.length = (g.edges.map fun e => e.length - 1).prod ∧
      (∀ D, g.IsDomain D → l.getD (cOrder (g.edges.map fun e => e.length - 1) D) 0 =
        (pos.flatten.countP fun x => decide (∀ j < g.ndim, (D.getD j 0 = 0 ∨ g.lo D j ≤ x.getD j 0) ∧
          (D.getD j 0 = (g.axis j).length - 2 ∨ x.getD j 0 < g.hi D j))) ^ gamma) ∧
      (gamma = 1 → l.sum = pos.flatten.length) := by
  obtain ⟨l, h1, h2, h3, h4⟩ := loadOf_eq (clampDom g) gamma pos (fun _ _ x _ => clampDom_isDomain hg x)
    fun P hP x hx => loadDomain_open hg hper x (hpos P hP x hx)
  refine ⟨l, h1, h2, fun D hD => ?_, h4⟩
  refine (h3 D hD).trans ?_
  congr 1
  apply List.countP_congr
  intro x _
  rw [decide_eq_true_eq, decide_eq_true_eq, clampDom_iff hg x hD]

end

/-- **C08**.  The default assignment, for every number of domains and ranks and whatever `numpy.empty` contains:
every domain has an owner that is a rank, owners do not decrease, and if there are at least as many domains as ranks
the numbers of domains of two ranks differ by at most one. -/
theorem C08_default_assign (size nrank : ℕ) (h0 : 0 < nrank) (junk : ℕ → ℕ) :
    (defaultAssign size nrank junk).length = size ∧
    (∀ r ∈ defaultAssign size nrank junk, r < nrank) ∧
    (defaultAssign size nrank junk).Pairwise (· ≤ ·) ∧
    (nrank ≤ size → ∀ r < nrank, ∀ r' < nrank,
      (defaultAssign size nrank junk).count r ≤ (defaultAssign size nrank junk).count r' + 1) := by
  by_cases hc : nrank ≥ size
  · have e : defaultAssign size nrank junk = List.range size := by simp [defaultAssign, hc]
    rw [e]
    refine ⟨by simp, ?_, List.pairwise_le_range, ?_⟩
    · intro r hr; have := List.mem_range.1 hr; omega
    · intro _ r _ r' _
      have : (List.range size).count r ≤ 1 := List.nodup_iff_count_le_one.1 List.nodup_range r
      omega
  · obtain ⟨h1, h2⟩ := defaultAssign_spec size nrank junk (by omega) h0
    refine ⟨h1, ?_, ?_, ?_⟩
    · intro r hr
      obtain ⟨k, hk, rfl⟩ := List.getElem_of_mem hr
      obtain ⟨v, v1, v2, _⟩ := h2 k (by omega)
      rw [List.getElem?_eq_getElem hk] at v2
      rw [Option.some_inj.1 v2]; exact v1
    · rw [List.pairwise_iff_getElem]
      intro i j hi hj hij
      obtain ⟨v, v1, v2, v3, v4⟩ := h2 i (by omega)
      obtain ⟨w, w1, w2, w3, w4⟩ := h2 j (by omega)
      rw [List.getElem?_eq_getElem hi] at v2
      rw [List.getElem?_eq_getElem hj] at w2
      rw [Option.some_inj.1 v2, Option.some_inj.1 w2]
      by_contra h
      have := block_mono (size := size) (nrank := nrank) (show w + 1 ≤ v by omega)
      omega
    · intro _ r hr r' hr'
      rw [defaultAssign_count size nrank junk (by omega) h0 r hr,
        defaultAssign_count size nrank junk (by omega) h0 r' hr']
      have a := block_len size nrank r h0
      have b := block_len size nrank r' h0
      omega

example : defaultAssign 7 3 (fun k => 1000 + k) = [0, 0, 1, 1, 2, 2, 2] := by decide

section
variable {M : Type*} [AddCommGroup M] [LinearOrder M] [IsOrderedAddMonoid M]

/-- **C09**.  `loadbalance` for non-negative loads and more domains than ranks: every domain gets a valid rank; every
rank that got something has a least loaded domain `k` (the last one placed) such that no other rank is
lighter than this rank without `k`; and no rank exceeds the average by more than the largest single load
(`n * load ≤ total + n * w`). -/
theorem C09_loadbalance (assign : List ℕ) (n : ℕ) (loads : List M) (hn : 0 < n)
    (hsize : n < assign.length) (hlen : loads.length = assign.length) (h0 : ∀ l ∈ loads, 0 ≤ l) :
    (loadbalance assign n loads).length = assign.length ∧
    (∀ r ∈ loadbalance assign n loads, r < n) ∧
    (∀ r ∈ loadbalance assign n loads, ∃ k : ℕ, ∃ w,
      (loadbalance assign n loads)[k]? = some r ∧ loads[k]? = some w ∧
      (∀ (k' : ℕ) (w' : M), (loadbalance assign n loads)[k']? = some r → loads[k']? = some w' → w ≤ w') ∧
      ∀ r' < n, rankLoad loads (loadbalance assign n loads) r
        ≤ rankLoad loads (loadbalance assign n loads) r' + w) ∧
    ∀ w, (∀ l ∈ loads, l ≤ w) → ∀ r < n,
      n • rankLoad loads (loadbalance assign n loads) r ≤ loads.sum + n • w := by
  obtain ⟨A, hA, h1, h2, h3⟩ := loadbalance_spec assign n loads hn hsize hlen h0
  rw [hA]
  have hlt : ∀ r ∈ A, r < n := by
    intro r hr
    obtain ⟨k, hk, rfl⟩ := List.getElem_of_mem hr
    obtain ⟨r', hr', e⟩ := h2 k (by omega)
    rw [List.getElem?_eq_getElem hk] at e
    rw [Option.some_inj.1 e]; exact hr'
  have h4 : ∀ r ∈ A, ∃ k : ℕ, ∃ w, A[k]? = some r ∧ loads[k]? = some w ∧
      (∀ (k' : ℕ) (w' : M), A[k']? = some r → loads[k']? = some w' → w ≤ w') ∧
      ∀ r' < n, rankLoad loads A r ≤ rankLoad loads A r' + w := by
    intro r hr
    obtain ⟨k, hk⟩ := List.mem_iff_getElem?.1 hr
    exact h3 r (hlt r hr) ⟨k, hk⟩
  refine ⟨h1, hlt, h4, ?_⟩
  intro w hw r hr
  have hw0 : 0 ≤ w := by
    rcases loads with _ | ⟨l, ls⟩
    · simp at hlen; omega
    · exact le_trans (h0 l (by simp)) (hw l (by simp))
  have hnn : ∀ r', 0 ≤ rankLoad loads A r' := by
    intro r'
    apply List.sum_nonneg
    intro x hx
    obtain ⟨p, hp, rfl⟩ := List.mem_map.1 hx
    exact h0 _ (List.of_mem_zip (List.mem_of_mem_filter hp)).1
  have hle : ∀ r' < n, rankLoad loads A r ≤ rankLoad loads A r' + w := by
    intro r' hr'
    by_cases hm : r ∈ A
    · obtain ⟨k, w', _, b, _, d⟩ := h4 r hm
      exact le_trans (d r' hr') (add_le_add_right (hw _ (List.mem_of_getElem? b)) _)
    · have : rankLoad loads A r = 0 := by
        unfold rankLoad
        have : ((loads.zip A).filter fun p => p.2 = r) = [] := by
          rw [List.filter_eq_nil_iff]
          intro p hp
          have := (List.of_mem_zip hp).2
          simp only [decide_eq_true_eq]
          rintro rfl
          exact hm this
        rw [this]; simp
      rw [this]
      exact add_nonneg (hnn r') hw0
  have hsum : ((List.range n).map fun _ => rankLoad loads A r).sum ≤
      ((List.range n).map fun r' => rankLoad loads A r' + w).sum := by
    apply List.sum_le_sum
    intro r' hr'
    exact hle r' (List.mem_range.1 hr')
  rw [List.sum_map_add, sum_rankLoad n loads A (by omega) hlt] at hsum
  simpa using hsum

/-- **C09**, the other branch: with no more domains than ranks nothing changes. -/
theorem C09_loadbalance_small (assign : List ℕ) (n : ℕ) (loads : List M) (h : assign.length ≤ n) :
    loadbalance assign n loads = assign := by
  simp [loadbalance, h]

end

example : loadbalance [0, 0, 0, 0, 0] 2 ([5, 1, 4, 2, 3] : List ℤ) = [0, 0, 1, 0, 1] := by decide

/-- **C09**, against the best assignment.  Whatever assignment `other` of the domains to the `n` ranks is chosen, if it keeps every
rank at or below `T`, then `loadbalance` keeps every rank at or below `(4/3 - 1/(3n)) T`, whatever the loads. -/
theorem C09_near_optimal {M : Type*} [CommRing M] [LinearOrder M] [IsStrictOrderedRing M] (assign other : List ℕ) (n : ℕ)
    (loads : List M) (hn : 0 < n) (hsize : n < assign.length) (hlen : loads.length = assign.length)
    (h0 : ∀ l ∈ loads, 0 ≤ l) (hother : other.length = loads.length) (hrank : ∀ r ∈ other, r < n) (T : M)
    (hT : ∀ r < n, rankLoad loads other r ≤ T) :
    ∀ r < n, 3 * (n : M) * rankLoad loads (loadbalance assign n loads) r ≤ (4 * (n : M) - 1) * T :=
  fun r hr => loadbalance_graham assign other n loads hn hsize hlen h0 hother hrank T hT r hr

/-- The hypotheses can be met with equality in the conclusion, so the factor cannot be improved: loads 3, 3, 2, 2, 2 on two ranks are
balanced to 7 and 5 by the code although 6 and 6 is possible. -/
example : loadbalance [0, 0, 0, 0, 0] 2 ([3, 3, 2, 2, 2] : List ℤ) = [1, 0, 0, 1, 0] ∧
    rankLoad ([3, 3, 2, 2, 2] : List ℤ) [0, 0, 1, 1, 1] 0 = 6 ∧ rankLoad ([3, 3, 2, 2, 2] : List ℤ) [0, 0, 1, 1, 1] 1 = 6 ∧
    rankLoad ([3, 3, 2, 2, 2] : List ℤ) [1, 0, 0, 1, 0] 0 = 7 ∧ (3 * 2 * 7 : ℤ) = (4 * 2 - 1) * 6 := by decide

section
variable {K : Type*} [Field K] [LinearOrder K] [IsStrictOrderedRing K] [FloorRing K]

/-- **C11**, upper half: never more domains than ranks (so the `assert` of pmesh/domain.py:363 never fails). -/
theorem C11_at_most (r : K) (box : List K) (hbox : box ≠ []) (size : ℕ) :
    (uniformShape r box size).prod ≤ size := by
  unfold uniformShape
  simp only
  set sh := (box.map fun b => r * (b / box.foldr min (box.getD 0 0))) with hsh
  have hne : sh ≠ [] := by simpa [hsh] using hbox
  have hlt := argmax_lt sh hne
  rw [prod_set_mul _ _ (by simpa using hlt), List.set_set]
  exact Nat.div_mul_le_self _ _

/-- **C11**, lower half, partial: at least one domain if the root `r` (which satisfies
`r ^ ndim * prod BoxSize = size * min BoxSize`) is at least 1 and all box sides are at least 1.
Without these it fails, see `C11_violated`. -/
theorem C11_at_least_partial (r m : K) (box : List K) (hbox : box ≠ []) (size : ℕ)
    (hm : ∀ b ∈ box, m ≤ b) (hmem : m ∈ box) (hm1 : 1 ≤ m) (hr1 : 1 ≤ r)
    (hroot : r ^ box.length * box.prod = size * m) :
    1 ≤ (uniformShape r box size).prod := by
  have hmin : box.foldr min (box.getD 0 0) = m := by
    apply le_antisymm (foldr_min_le _ _ _ hmem)
    rcases foldr_min_mem box (box.getD 0 0) with h | h
    · rw [h]
      rcases box with _ | ⟨b, bs⟩
      · simp at hbox
      · simpa using hm b (by simp)
    · exact hm _ h
  unfold uniformShape
  simp only [hmin]
  set sh := (box.map fun b => r * (b / m)) with hsh
  have hne : sh ≠ [] := by simpa [hsh] using hbox
  have hlt := argmax_lt sh hne
  have hm0 : (0 : K) < m := lt_of_lt_of_le one_pos hm1
  have hge : ∀ x ∈ sh, 1 ≤ x := by
    intro x hx
    obtain ⟨b, hb, rfl⟩ := List.mem_map.1 hx
    have : 1 ≤ b / m := by rw [le_div_iff₀ hm0]; simpa using hm b hb
    nlinarith
  obtain ⟨p1, p2⟩ := prod_floor_le sh hge
  set cl := (sh.map fun x => ⌊x⌋.toNat).map fun n => if n < 1 then 1 else n with hcl
  have hcl1 : ∀ a ∈ cl, 1 ≤ a := by
    intro a ha
    obtain ⟨n, _, rfl⟩ := List.mem_map.1 ha
    split <;> omega
  have hprod : sh.prod ≤ (size : K) := by
    rw [hsh, prod_map_mul_div, hroot]
    have hl : 1 ≤ box.length := by
      rcases box with _ | ⟨b, bs⟩
      · simp at hbox
      · simp
    rw [div_le_iff₀ (pow_pos hm0 _)]
    have : m ≤ m ^ box.length := le_self_pow₀ hm1 (by omega)
    exact mul_le_mul_of_nonneg_left this (Nat.cast_nonneg _)
  have hle : (cl.set (argmax sh) 1).prod ≤ size := by
    refine le_trans (prod_set_one_le cl _ hcl1) ?_
    have := le_trans p1 hprod
    exact_mod_cast this
  rw [prod_set_mul _ _ (by simpa [hcl] using hlt), List.set_set]
  have hpos : 0 < (cl.set (argmax sh) 1).prod := by
    rw [Nat.pos_iff_ne_zero, ne_eq, List.prod_eq_zero_iff]
    intro ha
    rcases List.mem_or_eq_of_mem_set ha with h | h
    · have := hcl1 0 h; omega
    · omega
  exact Nat.mul_pos (Nat.div_pos hle hpos) hpos

end

/-- The hypotheses of `C11_at_least_partial` are met by BoxSize (2, 2) on 8 ranks, with root `r = 2`. -/
example : 1 ≤ (uniformShape (2 : ℚ) [2, 2] 8).prod :=
  C11_at_least_partial 2 2 [2, 2] (by simp) 8 (by simp) (by simp) (by norm_num) (by norm_num) (by norm_num)

/-- **C11 violated**: BoxSize (1/4, 1/4) on one rank; the root is `r = 2`, the shape becomes (0, 2): no domain. -/
theorem C11_violated : (2 : ℚ) ^ 2 * ([1/4, 1/4] : List ℚ).prod = (1 : ℕ) * (1/4) ∧
    (uniformShape (2 : ℚ) [1/4, 1/4] 1).prod = 0 := by
  constructor
  · norm_num
  · decide +kernel

/-! Hypotheses of C03 and C10 are met by `exGrid`. -/

example : ∃ L, decompose exGrid [0, 0] [[2, 1], [-17, 9/2], [8, 4]] = .ok L ∧ L.indices.length = 3 := by
  obtain ⟨L, h1, h2, _⟩ := C03_partition exGrid exGrid_ok rfl exGrid_flags [0, 0] rfl (by simp)
    [[2, 1], [-17, 9/2], [8, 4]] (by simp [Grid.ndim, exGrid])
  exact ⟨L, h1, h2⟩

example : ∃ l, load exGrid 1 [[[2, 1], [-17, 9/2]], [], [[8, 4]]] = some l ∧ l.sum = 3 := by
  obtain ⟨l, h1, _, _, h2⟩ := C10_load exGrid exGrid_ok rfl 1 [[[2, 1], [-17, 9/2]], [], [[8, 4]]]
    (by simp [Grid.ndim, exGrid])
  exact ⟨l, h1, h2 rfl⟩

/-- Not periodic: positions outside of the box count for the domains at the ends. -/
example : load { exGrid with periodic := false } 1 [[[2, 1], [-17, 9/2]], [], [[8, 4], [100, 100]]] = some [0, 1, 0, 1, 0, 2] := by
  decide +kernel

example : ∃ l, load { exGrid with periodic := false } 1 [[[2, 1], [-17, 9/2]], [], [[8, 4]]] = some l ∧ l.sum = 3 := by
  obtain ⟨l, h1, _, _, h2⟩ := C10_load_open { exGrid with periodic := false } ⟨exGrid_ok.1, exGrid_ok.2, exGrid_ok.3, exGrid_ok.4⟩ rfl 1
    [[[2, 1], [-17, 9/2]], [], [[8, 4]]] (by simp [Grid.ndim, exGrid])
  exact ⟨l, h1, h2 rfl⟩

end Pmesh

#print axioms Pmesh.C03_partition
#print axioms Pmesh.C03_isprimary
#print axioms Pmesh.C08_default_assign
#print axioms Pmesh.C09_loadbalance
#print axioms Pmesh.C09_loadbalance_small
#print axioms Pmesh.C10_load
#print axioms Pmesh.C10_load_open
#print axioms Pmesh.C11_at_most
#print axioms Pmesh.C11_at_least_partial
#print axioms Pmesh.C11_violated
