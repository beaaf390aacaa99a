import Verif.Model.Cache
import Mathlib.Data.List.Basic
import Mathlib.Tactic.Common

/-!
The invariant of the cache of plans, and executions of two ranks.
-/

namespace Pmesh

/-- What holds in every execution; `last` is the template that the latest construction with a communicator and parameters used. -/
structure CacheInv (members : ℕ → List ℕ) (s : CacheState) (last : ℕ × ℕ → Option ℕ) : Prop where
  comm_unique : ∀ r a c c', (s.rank r).Live a c → (s.rank r).Live a c' → c = c'
  addr_unique : ∀ r a a' c, (s.rank r).Live a c → (s.rank r).Live a' c → a = a'
  member : ∀ r a c, (s.rank r).Live a c → r ∈ members c
  made : ∀ r m, (s.rank r).Holds m → s.made[m.tmpl]? = some (m.comm, m.params)
  cached_lt : ∀ r key t, (s.rank r).cache key = some t → t < s.made.length
  key : ∀ r a p m, (s.rank r).cache (a, p) = some m.tmpl → (s.rank r).Holds m → m.addr = a ∧ m.params = p
  decided : ∀ r b, (s.rank r).building = some b → b.decided = true → b.tmpl ≠ none ∧ b.tmpl = last (b.comm, b.params)
  found : ∀ r b t, (s.rank r).building = some b → b.decided = false → b.tmpl = some t → last (b.comm, b.params) = some t
  cached : ∀ r m, (s.rank r).Holds m → (s.rank r).cache (m.addr, m.params) = some m.tmpl →
    (¬ ∃ b, (s.rank r).building = some b ∧ b.decided = true ∧ b.comm = m.comm ∧ b.params = m.params) →
    last (m.comm, m.params) = some m.tmpl

theorem CacheRank.Holds.live {R : CacheRank} {m : LivePm} (h : R.Holds m) : R.Live m.addr m.comm := by
  rcases h with h | ⟨d, h⟩
  · exact Or.inr (Or.inl ⟨m, h, rfl, rfl⟩)
  · exact Or.inr (Or.inr ⟨_, h, rfl, rfl⟩)

theorem set_rank (s : CacheState) (r : ℕ) (R : CacheRank) (r' : ℕ) : (s.set r R).rank r' = if r' = r then R else s.rank r' := by
  simp [CacheState.set, Function.update_apply]

/-- A change of one rank: the other ranks need no attention. -/
theorem CacheInv.set {members : ℕ → List ℕ} {s : CacheState} {last : ℕ × ℕ → Option ℕ} (h : CacheInv members s last) (r : ℕ) (R : CacheRank)
    (h1 : ∀ a c c', R.Live a c → R.Live a c' → c = c') (h2 : ∀ a a' c, R.Live a c → R.Live a' c → a = a')
    (h3 : ∀ a c, R.Live a c → r ∈ members c) (h4 : ∀ m, R.Holds m → s.made[m.tmpl]? = some (m.comm, m.params))
    (h5 : ∀ key t, R.cache key = some t → t < s.made.length)
    (h6 : ∀ a p m, R.cache (a, p) = some m.tmpl → R.Holds m → m.addr = a ∧ m.params = p)
    (h7 : ∀ b, R.building = some b → b.decided = true → b.tmpl ≠ none ∧ b.tmpl = last (b.comm, b.params))
    (h8 : ∀ b t, R.building = some b → b.decided = false → b.tmpl = some t → last (b.comm, b.params) = some t)
    (h9 : ∀ m, R.Holds m → R.cache (m.addr, m.params) = some m.tmpl →
      (¬ ∃ b, R.building = some b ∧ b.decided = true ∧ b.comm = m.comm ∧ b.params = m.params) → last (m.comm, m.params) = some m.tmpl) :
    CacheInv members (s.set r R) last := by
  have e : ∀ {P : ℕ → CacheRank → Prop}, P r R → (∀ r', P r' (s.rank r')) → ∀ r', P r' ((s.set r R).rank r') := by
    intro P hR hs r'
    rw [set_rank]
    split_ifs with hr
    · rw [hr]; exact hR
    · exact hs r'
  exact {
    comm_unique := e (P := fun _ R => ∀ a c c', R.Live a c → R.Live a c' → c = c') h1 h.comm_unique
    addr_unique := e (P := fun _ R => ∀ a a' c, R.Live a c → R.Live a' c → a = a') h2 h.addr_unique
    member := e (P := fun r R => ∀ a c, R.Live a c → r ∈ members c) h3 h.member
    made := e (P := fun _ R => ∀ m, R.Holds m → s.made[m.tmpl]? = some (m.comm, m.params)) h4 h.made
    cached_lt := e (P := fun _ R => ∀ key t, R.cache key = some t → t < s.made.length) h5 h.cached_lt
    key := e (P := fun _ R => ∀ a p m, R.cache (a, p) = some m.tmpl → R.Holds m → m.addr = a ∧ m.params = p) h6 h.key
    decided := e (P := fun _ R => ∀ b, R.building = some b → b.decided = true → b.tmpl ≠ none ∧ b.tmpl = last (b.comm, b.params)) h7 h.decided
    found := e (P := fun _ R => ∀ b t, R.building = some b → b.decided = false → b.tmpl = some t → last (b.comm, b.params) = some t) h8 h.found
    cached := e (P := fun _ R => ∀ m, R.Holds m → R.cache (m.addr, m.params) = some m.tmpl →
      (¬ ∃ b, R.building = some b ∧ b.decided = true ∧ b.comm = m.comm ∧ b.params = m.params) → last (m.comm, m.params) = some m.tmpl) h9 h.cached }

theorem cacheInv_step {members : ℕ → List ℕ} {s s' : CacheState} {last : ℕ × ℕ → Option ℕ} (h : CacheInv members s last)
    (hs : CacheStep members true s s') : ∃ last', CacheInv members s' last' := by
  cases hs with
  | openComm r a c hr ha hc =>
    refine ⟨last, ?_⟩
    have live : ∀ {a' c'}, CacheRank.Live { s.rank r with handles := (a, c) :: (s.rank r).handles } a' c' → (a' = a ∧ c' = c) ∨ (s.rank r).Live a' c' := by
      rintro a' c' (h | h | h)
      · rcases List.mem_cons.1 h with h | h
        · exact Or.inl (by simpa using h)
        · exact Or.inr (Or.inl h)
      · exact Or.inr (Or.inr (Or.inl h))
      · exact Or.inr (Or.inr (Or.inr h))
    apply h.set r
    · intro b c1 c2 k1 k2
      rcases live k1 with ⟨e1, e2⟩ | l1 <;> rcases live k2 with ⟨e3, e4⟩ | l2
      · rw [e2, e4]
      · rw [e1] at l2; exact absurd l2 (ha _)
      · rw [e3] at l1; exact absurd l1 (ha _)
      · exact h.comm_unique r _ _ _ l1 l2
    · intro b1 b2 c1 k1 k2
      rcases live k1 with ⟨e1, e2⟩ | l1 <;> rcases live k2 with ⟨e3, e4⟩ | l2
      · rw [e1, e3]
      · rw [e2] at l2; exact absurd l2 (hc rfl _)
      · rw [e4] at l1; exact absurd l1 (hc rfl _)
      · exact h.addr_unique r _ _ _ l1 l2
    · intro b1 c1 k1
      rcases live k1 with ⟨rfl, rfl⟩ | k1
      · exact hr
      · exact h.member r _ _ k1
    · exact h.made r
    · exact h.cached_lt r
    · exact h.key r
    · exact h.decided r
    · exact h.found r
    · exact h.cached r
  | closeComm r hd =>
    refine ⟨last, ?_⟩
    have live : ∀ {a' c'}, CacheRank.Live { s.rank r with handles := (s.rank r).handles.erase hd } a' c' → (s.rank r).Live a' c' := by
      rintro a' c' (h | h | h)
      · exact Or.inl (List.mem_of_mem_erase h)
      · exact Or.inr (Or.inl h)
      · exact Or.inr (Or.inr h)
    apply h.set r
    · exact fun a c c' k k' => h.comm_unique r a c c' (live k) (live k')
    · exact fun a a' c k k' => h.addr_unique r a a' c (live k) (live k')
    · exact fun a c k => h.member r a c (live k)
    · exact h.made r
    · exact h.cached_lt r
    · exact h.key r
    · exact h.decided r
    · exact h.found r
    · exact h.cached r
  | collect r m =>
    refine ⟨last, ?_⟩
    have live : ∀ {a' c'}, CacheRank.Live { s.rank r with pms := (s.rank r).pms.erase m } a' c' → (s.rank r).Live a' c' := by
      rintro a' c' (h | ⟨m, h, h'⟩ | h)
      · exact Or.inl h
      · exact Or.inr (Or.inl ⟨m, List.mem_of_mem_erase h, h'⟩)
      · exact Or.inr (Or.inr h)
    have holds : ∀ {m'}, CacheRank.Holds { s.rank r with pms := (s.rank r).pms.erase m } m' → (s.rank r).Holds m' := by
      rintro m' (h | h)
      · exact Or.inl (List.mem_of_mem_erase h)
      · exact Or.inr h
    apply h.set r
    · exact fun a c c' k k' => h.comm_unique r a c c' (live k) (live k')
    · exact fun a a' c k k' => h.addr_unique r a a' c (live k) (live k')
    · exact fun a c k => h.member r a c (live k)
    · exact fun m' k => h.made r m' (holds k)
    · exact h.cached_lt r
    · exact fun a p m' e k => h.key r a p m' e (holds k)
    · exact h.decided r
    · exact h.found r
    · exact fun m' k e => h.cached r m' (holds k) e
  | lookup r a c p t hb hl ht =>
    refine ⟨last, ?_⟩
    have live : ∀ {a' c'}, CacheRank.Live { s.rank r with building := some ⟨a, c, p, t, false⟩ } a' c' → (s.rank r).Live a' c' := by
      rintro a' c' (h | h | ⟨b, h, h1, h2⟩)
      · exact Or.inl h
      · exact Or.inr (Or.inl h)
      · simp only [Option.some.injEq] at h
        subst h
        simp only at h1 h2
        rw [← h1, ← h2]
        exact hl
    -- the template that was found belongs to this communicator and these parameters
    have hit : ∀ t', t = some t' → ∃ m, (s.rank r).Holds m ∧ (s.rank r).cache (a, p) = some m.tmpl ∧ m.tmpl = t' ∧ m.addr = a ∧ m.params = p ∧ m.comm = c := by
      intro t' e
      rcases ht with ⟨m, h1, h2, h3⟩ | ⟨h3, -⟩
      · obtain ⟨k1, k2⟩ := h.key r a p m h2 h1
        have := h1.live
        rw [k1] at this
        refine ⟨m, h1, h2, ?_, k1, k2, h.comm_unique r a _ _ this hl⟩
        rw [e] at h3
        exact (Option.some.inj h3).symm
      · rw [e] at h3; simp at h3
    have holds : ∀ {m'}, CacheRank.Holds { s.rank r with building := some ⟨a, c, p, t, false⟩ } m' → (s.rank r).Holds m' := by
      rintro m' (h | ⟨d, h⟩)
      · exact Or.inl h
      · simp only [Option.some.injEq, Building.mk.injEq] at h
        obtain ⟨e1, e2, e3, e4, -⟩ := h
        obtain ⟨m, k1, k2, k3, k4, k5, k6⟩ := hit _ e4
        have : m' = m := by cases m'; cases m; simp_all
        rw [this]; exact k1
    apply h.set r
    · exact fun a c c' k k' => h.comm_unique r a c c' (live k) (live k')
    · exact fun a a' c k k' => h.addr_unique r a a' c (live k) (live k')
    · exact fun a c k => h.member r a c (live k)
    · exact fun m' k => h.made r m' (holds k)
    · exact h.cached_lt r
    · exact fun a p m' e k => h.key r a p m' e (holds k)
    · intro b e hd
      simp only [Option.some.injEq] at e
      subst e
      simp at hd
    · intro b t' e hd et
      simp only [Option.some.injEq] at e
      subst e
      obtain ⟨m, k1, k2, k3, k4, k5, k6⟩ := hit _ et
      have := h.cached r m k1 (by rw [k4, k5]; exact k2) (by rw [hb]; simp)
      rw [k6, k5, k3] at this
      exact this
    · intro m' k e _
      exact h.cached r m' (holds k) e (by rw [hb]; simp)
  | reuse _ c p hall hrest hmade =>
    refine ⟨last, ?_⟩
    have live : ∀ r a c, (s'.rank r).Live a c ↔ (s.rank r).Live a c := by
      intro r a' c'
      by_cases hr : r ∈ members c
      · obtain ⟨a, t, h1, h2⟩ := hall r hr
        rw [h2]
        simp only [CacheRank.Live, h1, Option.some.injEq, exists_eq_left']
      · rw [hrest r hr]
    have holds : ∀ r m, (s'.rank r).Holds m ↔ (s.rank r).Holds m := by
      intro r m
      by_cases hr : r ∈ members c
      · obtain ⟨a, t, h1, h2⟩ := hall r hr
        rw [h2]
        simp only [CacheRank.Holds, h1, Option.some.injEq, Building.mk.injEq]
        simp
      · rw [hrest r hr]
    have cache : ∀ r, (s'.rank r).cache = (s.rank r).cache := by
      intro r
      by_cases hr : r ∈ members c
      · obtain ⟨a, t, h1, h2⟩ := hall r hr
        rw [h2]
      · rw [hrest r hr]
    constructor
    · exact fun r a c c' k k' => h.comm_unique r a c c' ((live _ _ _).1 k) ((live _ _ _).1 k')
    · exact fun r a a' c k k' => h.addr_unique r a a' c ((live _ _ _).1 k) ((live _ _ _).1 k')
    · exact fun r a c k => h.member r a c ((live _ _ _).1 k)
    · intro r m k
      rw [hmade]
      exact h.made r m ((holds _ _).1 k)
    · intro r key t e
      rw [cache] at e
      rw [hmade]
      exact h.cached_lt r key t e
    · intro r a p m e k
      rw [cache] at e
      exact h.key r a p m e ((holds _ _).1 k)
    · intro r b e hd
      by_cases hr : r ∈ members c
      · obtain ⟨a, t, h1, h2⟩ := hall r hr
        rw [h2] at e
        simp only [Option.some.injEq] at e
        subst e
        exact ⟨by simp, (h.found r _ t h1 rfl rfl).symm⟩
      · rw [hrest r hr] at e
        exact h.decided r b e hd
    · intro r b t e hd et
      by_cases hr : r ∈ members c
      · obtain ⟨a, t, h1, h2⟩ := hall r hr
        rw [h2] at e
        simp only [Option.some.injEq] at e
        subst e
        simp at hd
      · rw [hrest r hr] at e
        exact h.found r b t e hd et
    · intro r m k e hn
      rw [cache] at e
      apply h.cached r m ((holds _ _).1 k) e
      rintro ⟨b, e1, e2, e3⟩
      by_cases hr : r ∈ members c
      · obtain ⟨a, t, h1, h2⟩ := hall r hr
        rw [h1] at e1
        simp only [Option.some.injEq] at e1
        subst e1
        simp at e2
      · rw [hrest r hr] at hn
        exact hn ⟨b, e1, e2, e3⟩
  | create _ c p hall hsome hrest hmade =>
    refine ⟨Function.update last (c, p) (some s.made.length), ?_⟩
    have live : ∀ r a c, (s'.rank r).Live a c ↔ (s.rank r).Live a c := by
      intro r a' c'
      by_cases hr : r ∈ members c
      · obtain ⟨a, t, h1, h2⟩ := hall r hr
        rw [h2]
        simp only [CacheRank.Live, h1, Option.some.injEq, exists_eq_left']
      · rw [hrest r hr]
    have holds : ∀ r m, (s'.rank r).Holds m → (m.comm = c ∧ m.params = p ∧ m.tmpl = s.made.length ∧ r ∈ members c) ∨ (s.rank r).Holds m := by
      intro r m k
      by_cases hr : r ∈ members c
      · obtain ⟨a, t, h1, h2⟩ := hall r hr
        rw [h2] at k
        rcases k with k | ⟨d, k⟩
        · exact Or.inr (Or.inl k)
        · simp only [Option.some.injEq, Building.mk.injEq] at k
          exact Or.inl ⟨k.2.1.symm, k.2.2.1.symm, k.2.2.2.1.symm, hr⟩
      · rw [hrest r hr] at k
        exact Or.inr k
    have cache : ∀ r, (s'.rank r).cache = (s.rank r).cache := by
      intro r
      by_cases hr : r ∈ members c
      · obtain ⟨a, t, h1, h2⟩ := hall r hr
        rw [h2]
      · rw [hrest r hr]
    have dec : ∀ r ∈ members c, ∃ b, (s'.rank r).building = some b ∧ b.decided = true ∧ b.comm = c ∧ b.params = p := by
      intro r hr
      obtain ⟨a, t, h1, h2⟩ := hall r hr
      rw [h2]
      exact ⟨_, rfl, rfl, rfl, rfl⟩
    constructor
    · exact fun r a c c' k k' => h.comm_unique r a c c' ((live _ _ _).1 k) ((live _ _ _).1 k')
    · exact fun r a a' c k k' => h.addr_unique r a a' c ((live _ _ _).1 k) ((live _ _ _).1 k')
    · exact fun r a c k => h.member r a c ((live _ _ _).1 k)
    · intro r m k
      rw [hmade]
      rcases holds r m k with ⟨e1, e2, e3, -⟩ | k
      · rw [e1, e2, e3]; simp
      · have := h.made r m k
        rw [List.getElem?_append_left (List.getElem?_eq_some_iff.1 this).1]
        exact this
    · intro r key t e
      rw [cache] at e
      rw [hmade]
      have := h.cached_lt r key t e
      simp; omega
    · intro r a p' m e k
      rw [cache] at e
      rcases holds r m k with ⟨e1, e2, e3, -⟩ | k
      · have := h.cached_lt r _ _ e
        omega
      · exact h.key r a p' m e k
    · intro r b e hd
      by_cases hr : r ∈ members c
      · obtain ⟨a, t, h1, h2⟩ := hall r hr
        rw [h2] at e
        simp only [Option.some.injEq] at e
        subst e
        simp
      · rw [hrest r hr] at e
        have hne : (b.comm, b.params) ≠ (c, p) := by
          intro hh
          apply hr
          have : b.comm = c := (Prod.mk.inj hh).1
          rw [← this]
          exact h.member r b.addr b.comm (Or.inr (Or.inr ⟨b, e, rfl, rfl⟩))
        rw [Function.update_of_ne hne]
        exact h.decided r b e hd
    · intro r b t e hd et
      by_cases hr : r ∈ members c
      · obtain ⟨a, t, h1, h2⟩ := hall r hr
        rw [h2] at e
        simp only [Option.some.injEq] at e
        subst e
        simp at hd
      · rw [hrest r hr] at e
        have hne : (b.comm, b.params) ≠ (c, p) := by
          intro hh
          apply hr
          have : b.comm = c := (Prod.mk.inj hh).1
          rw [← this]
          exact h.member r b.addr b.comm (Or.inr (Or.inr ⟨b, e, rfl, rfl⟩))
        rw [Function.update_of_ne hne]
        exact h.found r b t e hd et
    · intro r m k e hn
      rw [cache] at e
      by_cases hcp : (m.comm, m.params) = (c, p)
      · exfalso
        have hm := h.member r _ _ ((live _ _ _).1 k.live)
        have e1 : m.comm = c := (Prod.mk.inj hcp).1
        have e2 : m.params = p := (Prod.mk.inj hcp).2
        apply hn
        rw [e1, e2]
        exact dec r (e1 ▸ hm)
      · rw [Function.update_of_ne hcp]
        rcases holds r m k with ⟨e1, e2, e3, -⟩ | k
        · exact absurd (by rw [e1, e2]) hcp
        · apply h.cached r m k e
          rintro ⟨b, e1, e2, e3⟩
          by_cases hr : r ∈ members c
          · obtain ⟨a, t, h1, h2⟩ := hall r hr
            rw [h1] at e1
            simp only [Option.some.injEq] at e1
            subst e1
            simp at e2
          · rw [hrest r hr] at hn
            exact hn ⟨b, e1, e2, e3⟩
  | finish r a c p t hb =>
    refine ⟨last, ?_⟩
    have hself : (s.rank r).Holds ⟨a, c, p, t⟩ := Or.inr ⟨true, hb⟩
    have live : ∀ {a' c'}, CacheRank.Live { s.rank r with cache := Function.update (s.rank r).cache (a, p) (some t), pms := ⟨a, c, p, t⟩ :: (s.rank r).pms, building := none } a' c' →
        (s.rank r).Live a' c' := by
      rintro a' c' (h | ⟨m, h, h1, h2⟩ | ⟨b, h, -⟩)
      · exact Or.inl h
      · rcases List.mem_cons.1 h with h | h
        · subst h
          rw [← h1, ← h2]
          exact hself.live
        · exact Or.inr (Or.inl ⟨m, h, h1, h2⟩)
      · simp at h
    have holds : ∀ {m'}, CacheRank.Holds { s.rank r with cache := Function.update (s.rank r).cache (a, p) (some t), pms := ⟨a, c, p, t⟩ :: (s.rank r).pms, building := none } m' →
        (s.rank r).Holds m' := by
      rintro m' (h | ⟨d, h⟩)
      · rcases List.mem_cons.1 h with h | h
        · rw [h]; exact hself
        · exact Or.inl h
      · simp at h
    have hmade := h.made r _ hself
    apply h.set r
    · exact fun a c c' k k' => h.comm_unique r a c c' (live k) (live k')
    · exact fun a a' c k k' => h.addr_unique r a a' c (live k) (live k')
    · exact fun a c k => h.member r a c (live k)
    · exact fun m' k => h.made r m' (holds k)
    · intro key t' e
      rcases eq_or_ne key (a, p) with rfl | hne
      · simp only [Function.update_self, Option.some.injEq] at e
        subst e
        exact (List.getElem?_eq_some_iff.1 hmade).1
      · simp only [Function.update_of_ne hne] at e
        exact h.cached_lt r key t' e
    · intro a' p' m' e k
      have k := holds k
      rcases eq_or_ne (a', p') (a, p) with hk | hne
      · simp only [hk, Function.update_self, Option.some.injEq] at e
        have hm := h.made r m' k
        rw [← e] at hm
        simp only at hmade
        rw [hmade] at hm
        have e1 : c = m'.comm := (Prod.mk.inj (Option.some.inj hm)).1
        have e2 : p = m'.params := (Prod.mk.inj (Option.some.inj hm)).2
        have l1 := hself.live
        have l2 := k.live
        simp only [e1] at l1
        have e3 := h.addr_unique r _ _ _ l1 l2
        have hk := Prod.mk.inj hk
        exact ⟨by rw [← e3, hk.1], by rw [← e2, hk.2]⟩
      · simp only [Function.update_of_ne hne] at e
        exact h.key r a' p' m' e k
    · intro b e; simp at e
    · intro b t' e; simp at e
    · intro m' k e _
      have k := holds k
      have hd := (h.decided r _ hb rfl).2
      simp only at hd
      by_cases hcp : m'.comm = c ∧ m'.params = p
      · have l1 := hself.live
        have l2 := k.live
        simp only at l1
        rw [hcp.1] at l2
        have ea := h.addr_unique r _ _ _ l1 l2
        rw [← ea, hcp.2] at e
        simp only [Function.update_self] at e
        rw [hcp.1, hcp.2, ← hd, e]
      · have hne : (m'.addr, m'.params) ≠ (a, p) := by
          intro hh
          have hh := Prod.mk.inj hh
          have l1 := hself.live
          have l2 := k.live
          simp only at l1
          rw [hh.1] at l2
          exact hcp ⟨h.comm_unique r a _ _ l2 l1, hh.2⟩
        simp only [Function.update_of_ne hne] at e
        apply h.cached r m' k e
        rintro ⟨b, e1, e2, e3, e4⟩
        rw [hb] at e1
        simp only [Option.some.injEq] at e1
        subst e1
        exact hcp ⟨e3.symm, e4.symm⟩

theorem cacheInv_reach {members : ℕ → List ℕ} {s : CacheState} (h : CacheReach members true s) : ∃ last, CacheInv members s last := by
  induction h with
  | start =>
    refine ⟨fun _ => none, ?_⟩
    constructor <;> simp [CacheRank.Live, CacheRank.Holds]
  | step h hs ih =>
    obtain ⟨last, hi⟩ := ih
    exact cacheInv_step hi hs

/-! ### Two ranks, one communicator -/

/-- The memory of two ranks. -/
def twoRanks (R₀ R₁ : CacheRank) (made : List (ℕ × ℕ)) : CacheState := ⟨fun r => if r = 0 then R₀ else if r = 1 then R₁ else {}, made⟩

/-- The ranks of the communicators. -/
def pairMembers : ℕ → List ℕ := fun _ => [0, 1]

theorem twoRanks_set0 (R₀ R₁ R : CacheRank) (made : List (ℕ × ℕ)) : (twoRanks R₀ R₁ made).set 0 R = twoRanks R R₁ made := by
  simp only [twoRanks, CacheState.set, CacheState.mk.injEq, and_true]
  funext r
  simp only [Function.update_apply]
  split_ifs <;> rfl

theorem twoRanks_set1 (R₀ R₁ R : CacheRank) (made : List (ℕ × ℕ)) : (twoRanks R₀ R₁ made).set 1 R = twoRanks R₀ R made := by
  simp only [twoRanks, CacheState.set, CacheState.mk.injEq, and_true]
  funext r
  simp only [Function.update_apply]
  split_ifs <;> first | rfl | omega

/-- Both ranks look up, exchange and create; then both finish. -/
theorem build_create {oneHandle : Bool} {R₀ R₁ : CacheRank} {made : List (ℕ × ℕ)} (h : CacheReach pairMembers oneHandle (twoRanks R₀ R₁ made)) (a₀ a₁ c p : ℕ)
    (t₀ t₁ : Option ℕ) (hb₀ : R₀.building = none) (hb₁ : R₁.building = none) (hl₀ : R₀.Live a₀ c) (hl₁ : R₁.Live a₁ c) (ht₀ : R₀.Found (a₀, p) t₀) (ht₁ : R₁.Found (a₁, p) t₁)
    (hnone : t₀ = none ∨ t₁ = none) :
    CacheReach pairMembers oneHandle (twoRanks { R₀ with building := some ⟨a₀, c, p, some made.length, true⟩ } { R₁ with building := some ⟨a₁, c, p, some made.length, true⟩ } (made ++ [(c, p)])) ∧
    CacheReach pairMembers oneHandle (twoRanks
      { R₀ with cache := Function.update R₀.cache (a₀, p) (some made.length), pms := ⟨a₀, c, p, made.length⟩ :: R₀.pms, building := none }
      { R₁ with cache := Function.update R₁.cache (a₁, p) (some made.length), pms := ⟨a₁, c, p, made.length⟩ :: R₁.pms, building := none } (made ++ [(c, p)])) := by
  have s1 := h.step (CacheStep.lookup _ 0 a₀ c p t₀ hb₀ hl₀ ht₀)
  rw [twoRanks_set0] at s1
  have s2 := s1.step (CacheStep.lookup _ 1 a₁ c p t₁ hb₁ hl₁ ht₁)
  rw [twoRanks_set1] at s2
  have s3 := s2.step (s' := twoRanks { R₀ with building := some ⟨a₀, c, p, some made.length, true⟩ } { R₁ with building := some ⟨a₁, c, p, some made.length, true⟩ } (made ++ [(c, p)]))
    (CacheStep.create _ _ c p (by
      intro r hr
      simp only [pairMembers, List.mem_cons, List.not_mem_nil, or_false] at hr
      rcases hr with rfl | rfl
      · exact ⟨a₀, t₀, rfl, rfl⟩
      · exact ⟨a₁, t₁, rfl, rfl⟩) (by
      rcases hnone with e | e
      · exact ⟨0, by simp [pairMembers], _, rfl, e⟩
      · exact ⟨1, by simp [pairMembers], _, rfl, e⟩) (by
      intro r hr
      simp only [pairMembers, List.mem_cons, List.not_mem_nil, or_false, not_or] at hr
      simp [twoRanks, hr]) rfl)
  refine ⟨s3, ?_⟩
  have s4 := s3.step (CacheStep.finish _ 0 a₀ c p made.length rfl)
  rw [twoRanks_set0] at s4
  have s5 := s4.step (CacheStep.finish _ 1 a₁ c p made.length rfl)
  rw [twoRanks_set1] at s5
  exact s5

/-- Both ranks look up and find templates. -/
theorem build_reuse {oneHandle : Bool} {R₀ R₁ : CacheRank} {made : List (ℕ × ℕ)} (h : CacheReach pairMembers oneHandle (twoRanks R₀ R₁ made)) (a₀ a₁ c p : ℕ)
    (t₀ t₁ : ℕ) (hb₀ : R₀.building = none) (hb₁ : R₁.building = none) (hl₀ : R₀.Live a₀ c) (hl₁ : R₁.Live a₁ c) (ht₀ : R₀.Found (a₀, p) (some t₀)) (ht₁ : R₁.Found (a₁, p) (some t₁)) :
    CacheReach pairMembers oneHandle (twoRanks { R₀ with building := some ⟨a₀, c, p, some t₀, true⟩ } { R₁ with building := some ⟨a₁, c, p, some t₁, true⟩ } made) := by
  have s1 := h.step (CacheStep.lookup _ 0 a₀ c p (some t₀) hb₀ hl₀ ht₀)
  rw [twoRanks_set0] at s1
  have s2 := s1.step (CacheStep.lookup _ 1 a₁ c p (some t₁) hb₁ hl₁ ht₁)
  rw [twoRanks_set1] at s2
  exact s2.step (CacheStep.reuse _ _ c p (by
      intro r hr
      simp only [pairMembers, List.mem_cons, List.not_mem_nil, or_false] at hr
      rcases hr with rfl | rfl
      · exact ⟨a₀, t₀, rfl, rfl⟩
      · exact ⟨a₁, t₁, rfl, rfl⟩) (by
      intro r hr
      simp only [pairMembers, List.mem_cons, List.not_mem_nil, or_false, not_or] at hr
      simp [twoRanks, hr]) rfl)

/-- Both ranks open communicator 7, rank 0 at address 10 and rank 1 at address 20. -/
theorem start_two (oneHandle : Bool) : CacheReach pairMembers oneHandle (twoRanks { handles := [(10, 7)] } { handles := [(20, 7)] } []) := by
  have s0 : CacheReach pairMembers oneHandle (twoRanks {} {} []) := by
    have : twoRanks {} {} [] = ⟨fun _ => {}, []⟩ := by simp [twoRanks]
    rw [this]
    exact CacheReach.start
  have s1 := s0.step (CacheStep.openComm _ 0 10 7 (by simp [pairMembers]) (by simp [twoRanks, CacheRank.Live]) (by simp [twoRanks, CacheRank.Live]))
  rw [twoRanks_set0] at s1
  have s2 := s1.step (CacheStep.openComm _ 1 20 7 (by simp [pairMembers]) (by simp [twoRanks, CacheRank.Live]) (by simp [twoRanks, CacheRank.Live]))
  rw [twoRanks_set1] at s2
  exact s2

end Pmesh
