import Verif.Lemmas.Cache

/-!
# C48: all ranks agree on reusing a cached plan
-/

namespace Pmesh

/-- **C48**: in every execution, when two ranks have decided about the templates of a construction on communicator `c` with parameters
`p`, both have templates that one and the same construction made, and that construction was on the same communicator with the same
parameters.  Each rank has at most one live object for a communicator. -/
theorem C48_agree_partial {members : ℕ → List ℕ} {s : CacheState} (h : CacheReach members true s) {r r' a a' c p : ℕ} {t t' : Option ℕ}
    (hr : (s.rank r).building = some ⟨a, c, p, t, true⟩) (hr' : (s.rank r').building = some ⟨a', c, p, t', true⟩) :
    ∃ k, t = some k ∧ t' = some k ∧ s.made[k]? = some (c, p) := by
  obtain ⟨last, hi⟩ := cacheInv_reach h
  obtain ⟨h1, h2⟩ := hi.decided r _ hr rfl
  obtain ⟨h3, h4⟩ := hi.decided r' _ hr' rfl
  simp only at h1 h2 h3 h4
  obtain ⟨k, hk⟩ := Option.ne_none_iff_exists'.1 h1
  refine ⟨k, hk, by rw [h4, ← h2, hk], ?_⟩
  rw [hk] at hr
  exact hi.made r ⟨a, c, p, k⟩ (Or.inr ⟨true, hr⟩)

/-- **C48**: when the ranks of a communicator exchange what they found, either all keep what they found, and that is from one earlier
construction, or all get the template of the new construction. -/
theorem C48_all_or_none_partial {members : ℕ → List ℕ} {s s' : CacheState} (h : CacheReach members true s) (hs : CacheStep members true s s') {c p : ℕ}
    (hbefore : ∀ r ∈ members c, ∃ a t, (s.rank r).building = some ⟨a, c, p, t, false⟩)
    (hafter : ∀ r ∈ members c, ∃ a t, (s'.rank r).building = some ⟨a, c, p, t, true⟩) (hne : members c ≠ []) :
    (∃ k < s.made.length, ∀ r ∈ members c, ∃ a, (s.rank r).building = some ⟨a, c, p, some k, false⟩ ∧ (s'.rank r).building = some ⟨a, c, p, some k, true⟩) ∨
    (s'.made = s.made ++ [(c, p)] ∧ ∀ r ∈ members c, ∃ a, (s'.rank r).building = some ⟨a, c, p, some s.made.length, true⟩) := by
  obtain ⟨r₀, hr₀⟩ := List.exists_mem_of_ne_nil _ hne
  obtain ⟨last, hi⟩ := cacheInv_reach h
  have local_step : ∀ (r : ℕ) (R : CacheRank), (∀ b, R.building = some b → b.decided = true → (s.rank r).building = some b) →
      (∀ r' ∈ members c, ∃ a t, ((s.set r R).rank r').building = some ⟨a, c, p, t, true⟩) → False := by
    intro r R hR hall
    obtain ⟨a, t, h1⟩ := hall r₀ hr₀
    obtain ⟨a', t', h2⟩ := hbefore r₀ hr₀
    rw [set_rank] at h1
    split_ifs at h1 with e
    · have := hR _ h1 rfl
      rw [← e, h2] at this
      simp at this
    · rw [h2] at h1
      simp at h1
  cases hs with
  | openComm r a c' hr ha hc => exact (by refine (local_step r _ ?_ hafter).elim; exact fun b e _ => e)
  | closeComm r hd => exact (by refine (local_step r _ ?_ hafter).elim; exact fun b e _ => e)
  | collect r m => exact (by refine (local_step r _ ?_ hafter).elim; exact fun b e _ => e)
  | lookup r a c' p' t hb hl ht =>
    exact (local_step r _ (fun b e hd => by simp only [Option.some.injEq] at e; subst e; simp at hd) hafter).elim
  | finish r a c' p' t hb => exact (local_step r _ (fun b e hd => by simp at e) hafter).elim
  | reuse _ c' p' hall hrest hmade =>
    obtain ⟨ha, ht, hb⟩ := hbefore r₀ hr₀
    obtain ⟨ha', ht', hb'⟩ := hafter r₀ hr₀
    have hm : r₀ ∈ members c' := by
      by_contra hn
      rw [hrest r₀ hn, hb] at hb'
      simp at hb'
    have hcp : c' = c ∧ p' = p := by
      obtain ⟨_, _, e, _⟩ := hall r₀ hm
      rw [hb] at e
      simp only [Option.some.injEq, Building.mk.injEq] at e
      exact ⟨e.2.1.symm, e.2.2.1.symm⟩
    obtain ⟨rfl, rfl⟩ := hcp
    left
    obtain ⟨a₀, k, e₀, -⟩ := hall r₀ hr₀
    have hk := hi.made r₀ ⟨a₀, c', p', k⟩ (Or.inr ⟨false, e₀⟩)
    refine ⟨k, (List.getElem?_eq_some_iff.1 hk).1, fun r hr => ?_⟩
    obtain ⟨a, t, e1, e2⟩ := hall r hr
    have h1 := hi.found r₀ _ k e₀ rfl rfl
    have h2 := hi.found r _ t e1 rfl rfl
    simp only at h1 h2
    rw [h1] at h2
    obtain rfl := Option.some.inj h2
    exact ⟨a, e1, by rw [e2]⟩
  | create _ c' p' hall hsome hrest hmade =>
    obtain ⟨ha, ht, hb⟩ := hbefore r₀ hr₀
    obtain ⟨ha', ht', hb'⟩ := hafter r₀ hr₀
    have hm : r₀ ∈ members c' := by
      by_contra hn
      rw [hrest r₀ hn, hb] at hb'
      simp at hb'
    have hcp : c' = c ∧ p' = p := by
      obtain ⟨_, _, e, _⟩ := hall r₀ hm
      rw [hb] at e
      simp only [Option.some.injEq, Building.mk.injEq] at e
      exact ⟨e.2.1.symm, e.2.2.1.symm⟩
    obtain ⟨rfl, rfl⟩ := hcp
    right
    refine ⟨hmade, fun r hr => ?_⟩
    obtain ⟨a, t, e1, e2⟩ := hall r hr
    exact ⟨a, by rw [e2]⟩

/-- An execution that reuses: two constructions one after the other, both objects alive. -/
example : ∃ s, CacheReach pairMembers true s ∧ ∃ a a', (s.rank 0).building = some ⟨a, 7, 3, some 0, true⟩ ∧ (s.rank 1).building = some ⟨a', 7, 3, some 0, true⟩
    ∧ (s.rank 0).pms ≠ [] := by
  have s1 := (build_create (start_two true) 10 20 7 3 none none rfl rfl (by simp [CacheRank.Live]) (by simp [CacheRank.Live])
    (Or.inr ⟨rfl, by simp⟩) (Or.inr ⟨rfl, by simp⟩) (Or.inl rfl)).2
  have s2 := build_reuse s1 10 20 7 3 0 0 rfl rfl (by simp [CacheRank.Live]) (by simp [CacheRank.Live])
    (Or.inl ⟨⟨10, 7, 3, 0⟩, Or.inl (by simp), by simp, rfl⟩) (Or.inl ⟨⟨20, 7, 3, 0⟩, Or.inl (by simp), by simp, rfl⟩)
  exact ⟨_, s2, 10, 20, rfl, rfl, by simp [twoRanks]⟩

/-- An execution in which the object died on rank 1 only, so that all create again. -/
example : ∃ s, CacheReach pairMembers true s ∧ ∃ a a', (s.rank 0).building = some ⟨a, 7, 3, some 1, true⟩ ∧ (s.rank 1).building = some ⟨a', 7, 3, some 1, true⟩
    ∧ (s.rank 0).cache (10, 3) = some 0 := by
  have s1 := (build_create (start_two true) 10 20 7 3 none none rfl rfl (by simp [CacheRank.Live]) (by simp [CacheRank.Live])
    (Or.inr ⟨rfl, by simp⟩) (Or.inr ⟨rfl, by simp⟩) (Or.inl rfl)).2
  have s2 := s1.step (CacheStep.collect _ 1 ⟨20, 7, 3, 0⟩)
  rw [twoRanks_set1] at s2
  have s3 := (build_create s2 10 20 7 3 (some 0) none rfl rfl (by simp [CacheRank.Live]) (by simp [CacheRank.Live, twoRanks])
    (Or.inl ⟨⟨10, 7, 3, 0⟩, Or.inl (by simp), by simp, rfl⟩) (Or.inr ⟨rfl, by simp [CacheRank.Holds, twoRanks]⟩) (Or.inr rfl)).1
  exact ⟨_, s3, 10, 20, rfl, rfl, by simp [twoRanks]⟩

/-- If a rank has two objects for the same communicator, the ranks can combine plans of different constructions: rank 1 uses its
second object for the second construction and its first object for the third. -/
theorem C48_violated_handles : ∃ s, CacheReach pairMembers false s ∧ ∃ a a', (s.rank 0).building = some ⟨a, 7, 3, some 1, true⟩
    ∧ (s.rank 1).building = some ⟨a', 7, 3, some 0, true⟩ := by
  have s1 := (build_create (start_two false) 10 20 7 3 none none rfl rfl (by simp [CacheRank.Live]) (by simp [CacheRank.Live])
    (Or.inr ⟨rfl, by simp⟩) (Or.inr ⟨rfl, by simp⟩) (Or.inl rfl)).2
  have s2 := s1.step (CacheStep.openComm _ 1 21 7 (by simp [pairMembers]) (by simp [twoRanks, CacheRank.Live]) (by simp))
  rw [twoRanks_set1] at s2
  have s3 := (build_create s2 10 21 7 3 (some 0) none rfl rfl (by simp [CacheRank.Live]) (by simp [CacheRank.Live])
    (Or.inl ⟨⟨10, 7, 3, 0⟩, Or.inl (by simp), by simp, rfl⟩) (Or.inr ⟨rfl, by simp [twoRanks]⟩) (Or.inr rfl)).2
  have s4 := build_reuse s3 10 20 7 3 1 0 rfl rfl (by simp [CacheRank.Live]) (by simp [CacheRank.Live, twoRanks])
    (Or.inl ⟨⟨10, 7, 3, 1⟩, Or.inl (by simp), by simp, rfl⟩) (Or.inl ⟨⟨20, 7, 3, 0⟩, Or.inl (by simp [twoRanks]), by simp [twoRanks], rfl⟩)
  exact ⟨_, s4, 10, 20, rfl, rfl⟩

end Pmesh
