import Verif.Spec.Lanczos
import Verif.Lemmas.OldCicNumpy
import Mathlib.Tactic.FieldSimp

set_option linter.unusedSectionVars false

namespace Pmesh
section
variable {K : Type*} [Field K] [LinearOrder K] [IsStrictOrderedRing K] [FloorRing K]

/-- The stencil of one axis. -/
def lzSt (W : OldWindow K) (per : ℕ) (x : K) : List (ℤ × K) :=
  (List.range (2 * W.support)).map fun k : ℕ =>
    (genWrap per (⌊x⌋ + ((k : ℤ) - ((W.support : ℤ) - 1))), W.f (x - ((⌊x⌋ + ((k : ℤ) - ((W.support : ℤ) - 1)) : ℤ) : K)))

theorem genWrap_eq (per : ℕ) (n : ℤ) : genWrap per n = if per = 0 then n else n % (per : ℤ) := by
  unfold genWrap
  by_cases h : per = 0
  · simp [h]
  · rw [if_pos (by omega), if_neg h, wrapLoop_eq (by omega)]

/-- A sum over the integers near `x`. -/
theorem finsum_near (S : ℕ) (x : K) (F : ℤ → K) (h : ∀ n : ℤ, x - n < -(S : K) ∨ (S : K) ≤ x - n → F n = 0) :
    ∑ᶠ n : ℤ, F n = ((List.range (2 * S)).map fun k : ℕ => F (⌊x⌋ + ((k : ℤ) - ((S : ℤ) - 1)))).sum := by
  have hx0 := Int.floor_le x
  have hx1 := Int.lt_floor_add_one x
  rw [finsum_eq_sum_of_support_subset F (s := (Finset.range (2 * S)).image fun k : ℕ => ⌊x⌋ + ((k : ℤ) - ((S : ℤ) - 1)))]
  · rw [Finset.sum_image (by
      intro a _ b _ hab
      simp only at hab
      omega)]
    rw [Finset.sum_eq_multiset_sum]
    rfl
  · intro n hn
    rw [Function.mem_support] at hn
    obtain ⟨h1, h2⟩ : -(S : K) ≤ x - n ∧ x - n < S := by
      constructor <;> by_contra hh <;> exact hn (h n (by first | exact Or.inl (not_le.1 hh) | exact Or.inr (not_lt.1 hh)))
    have a1 : n < ⌊x⌋ + S + 1 := by
      have : (n : K) < ((⌊x⌋ + S + 1 : ℤ) : K) := by push_cast; linarith
      exact_mod_cast this
    have a2 : ⌊x⌋ - S < n := by
      have : ((⌊x⌋ - S : ℤ) : K) < n := by push_cast; linarith
      exact_mod_cast this
    simp only [Finset.coe_image, Finset.coe_range, Set.mem_image, Set.mem_Iio]
    exact ⟨(n - ⌊x⌋ + S - 1).toNat, by omega, by omega⟩

theorem cut_eq_zero (W : OldWindow K) (d : K) (h : d < -(W.support : K) ∨ (W.support : K) ≤ d) : W.cut d = 0 := by
  unfold OldWindow.cut
  rw [if_neg]
  rintro ⟨h1, h2⟩
  rcases h with h | h
  · exact absurd h1 (not_le.2 h)
  · exact absurd h2 (not_lt.2 h)

theorem cut_near (W : OldWindow K) (x : K) (k : ℕ) (hk : k < 2 * W.support) :
    W.cut (x - ((⌊x⌋ + ((k : ℤ) - ((W.support : ℤ) - 1)) : ℤ) : K)) = W.f (x - ((⌊x⌋ + ((k : ℤ) - ((W.support : ℤ) - 1)) : ℤ) : K)) := by
  have hx0 := Int.floor_le x
  have hx1 := Int.lt_floor_add_one x
  have hk' : (k : K) + 1 ≤ 2 * W.support := by exact_mod_cast hk
  have hk0 : (0 : K) ≤ k := Nat.cast_nonneg k
  unfold OldWindow.cut
  rw [if_pos]
  push_cast
  constructor <;> linarith

theorem cw_lzSt (W : OldWindow K) (per : ℕ) (x : K) (g : ℤ) : cw (lzSt W per x) g = windowSum W per x g := by
  unfold windowSum
  rw [finsum_near W.support x _ (by
    intro n hn
    split_ifs <;> first | exact cut_eq_zero W _ hn | rfl)]
  unfold cw lzSt
  rw [List.map_map]
  congr 1
  apply List.map_congr_left
  intro k hk
  simp only [Function.comp, genWrap_eq]
  rw [cut_near W x k (List.mem_range.1 hk)]

theorem cwProd_lzSt (W : OldWindow K) : ∀ (period : List ℕ) (pos : List K) (c : List ℕ),
    cwProd (List.zipWith (lzSt W) period pos) c = (List.zipWith (fun a (g : ℕ) => a g) (List.zipWith (windowSum W) period pos) c).prod := by
  intro period
  induction period with
  | nil => intro pos c; simp [cwProd]
  | cons per period ih =>
    intro pos c
    match pos, c with
    | [], c => simp [cwProd]
    | x :: pos, [] => simp [cwProd]
    | x :: pos, g :: c =>
      have := ih pos c
      simp only [cwProd, List.zipWith_cons_cons, List.prod_cons] at this ⊢
      rw [this, cw_lzSt]

theorem sum_comm_lists {α β : Type*} (l : List α) (l' : List β) (f : α → β → K) :
    (l.map fun a => (l'.map fun b => f a b).sum).sum = (l'.map fun b => (l.map fun a => f a b).sum).sum := by
  induction l with
  | nil => simp
  | cons a l ih =>
    simp only [List.map_cons, List.sum_cons, ih]
    rw [← sum_map_add]

/-- All cells of a periodic axis together. -/
theorem sum_windowSum (W : OldWindow K) (s : K) (hs : W.SumsTo s) (n : ℕ) (hn : 0 < n) (x : K) :
    ((List.range n).map fun g : ℕ => windowSum W n x g).sum = s := by
  have h1 : ∀ g : ℕ, windowSum W n x g = cw (lzSt W n x) g := fun g => (cw_lzSt W n x g).symm
  simp only [h1]
  unfold cw
  rw [sum_comm_lists (List.range n) (lzSt W n x) (fun (g : ℕ) (p : ℤ × K) => if p.1 = (g : ℤ) then p.2 else 0), ← hs x, finsum_near W.support x _ (fun k hk => cut_eq_zero W _ hk)]
  unfold lzSt
  rw [List.map_map]
  congr 1
  apply List.map_congr_left
  intro k hk
  simp only [Function.comp, genWrap_eq]
  rw [cut_near W x k (List.mem_range.1 hk), if_neg (by omega)]
  generalize ⌊x⌋ + ((k : ℤ) - ((W.support : ℤ) - 1)) = z
  have hz0 := Int.emod_nonneg z (b := (n : ℤ)) (by omega)
  have hz1 := Int.emod_lt_of_pos z (b := (n : ℤ)) (by omega)
  obtain ⟨r, hr⟩ := Int.eq_ofNat_of_zero_le hz0
  rw [hr]
  have : ∀ (n : ℕ) (v : K), r < n → ((List.range n).map fun g : ℕ => if ((r : ℕ) : ℤ) = ((g : ℕ) : ℤ) then v else 0).sum = v := by
    intro n v
    induction n with
    | zero => intro h; omega
    | succ n ih =>
      intro h
      rw [List.range_succ, List.map_append, List.sum_append]
      by_cases hrn : r = n
      · subst hrn
        have z : ((List.range r).map fun g : ℕ => if ((r : ℕ) : ℤ) = ((g : ℕ) : ℤ) then v else 0).sum = 0 := by
          apply List.sum_eq_zero
          intro y hy
          obtain ⟨g, hg, rfl⟩ := List.mem_map.1 hy
          have := List.mem_range.1 hg
          rw [if_neg (by omega)]
        rw [z]
        simp
      · rw [ih (by omega)]
        simp
        intro h'
        exact absurd (by exact_mod_cast h') hrn
  exact this n _ (by omega)

theorem lzNeighbour_length (S N i : ℕ) : (lzNeighbour S N i).length = N := by simp [lzNeighbour]

theorem lzNeighbour_eq (S N i : ℕ) : lzNeighbour S N i = (digAt (2 * S) i 0 N).map fun k : ℕ => (k : ℤ) - ((S : ℤ) - 1) := by
  simp [lzNeighbour, digAt, List.range_eq_range']

theorem lzPoint_eq (W : OldWindow K) : ∀ (shape period : List ℕ) (pos : List K) (nb : List ℕ), period.length = shape.length →
    pos.length = shape.length → ValidIndex (List.replicate shape.length (2 * W.support)) nb →
    ((pyRavel shape (List.zipWith (fun (p : ℕ) t => genWrap p t) period (lzTarget pos (nb.map fun k : ℕ => (k : ℤ) - ((W.support : ℤ) - 1))))).map
      fun ind => (ind, lzKernel W pos (lzTarget pos (nb.map fun k : ℕ => (k : ℤ) - ((W.support : ℤ) - 1))))) =
      stencilPt (flatAxes shape period) (List.zipWith (lzSt W) period pos) nb := by
  intro shape
  induction shape with
  | nil =>
    intro period pos nb h1 h2 hv
    have e1 : period = [] := List.length_eq_zero_iff.1 (by simpa using h1)
    have e2 : pos = [] := List.length_eq_zero_iff.1 (by simpa using h2)
    subst e1 e2
    cases hv
    simp [lzTarget, lzKernel, pyRavel, pyInside, stencilPt]
  | cons n shape ih =>
    intro period pos nb h1 h2 hv
    match period, pos, h1, h2 with
    | per :: period, x :: pos, h1, h2 =>
      rw [List.length_cons, List.replicate_succ] at hv
      cases hv with
      | cons hr hrs =>
        rename_i r rs
        have h1' : period.length = shape.length := by simpa using h1
        have h2' : pos.length = shape.length := by simpa using h2
        have hrl : rs.length = shape.length := by
          have := hrs.length_eq
          simpa using this.symm
        have hih := ih period pos rs h1' h2' hrs
        have htl : (List.zipWith (fun (p : ℕ) t => genWrap p t) period (lzTarget pos (rs.map fun k : ℕ => (k : ℤ) - ((W.support : ℤ) - 1)))).length =
            shape.length := by
          simp [lzTarget, h1', h2', hrl]
        simp only [lzTarget, lzKernel, List.map_cons, List.zipWith_cons_cons, List.prod_cons, flatAxes, stencilPt] at hih htl ⊢
        rw [pyRavel_cons _ _ _ _ htl, ← hih]
        have hst : (lzSt W per x).getD r (0, 0) = (genWrap per (⌊x⌋ + ((r : ℤ) - ((W.support : ℤ) - 1))),
            W.f (x - ((⌊x⌋ + ((r : ℤ) - ((W.support : ℤ) - 1)) : ℤ) : K))) := by
          rw [lzSt, List.getD_eq_getElem _ _ (by simpa using hr)]
          simp
        rw [hst]
        simp only
        split
        · rw [Option.map_map, Option.map_map]
          rfl
        · rfl

/-- What neighbour `i` of a particle of unit weight adds to element `a`. -/
def lzContrib (W : OldWindow K) (shape period : List ℕ) (pos : List K) (i : ℕ) (a : ℤ) : K :=
  (stencilPt (flatAxes shape period) (List.zipWith (lzSt W) period pos) (digAt (2 * W.support) i 0 shape.length)).elim 0
    fun q => if q.1 = a then q.2 else 0

theorem sum_lzContrib (W : OldWindow K) (hS : 0 < W.support) (shape period : List ℕ) (h1 : period.length = shape.length) (pos : List K)
    (h2 : pos.length = shape.length) (a : ℤ) :
    ((List.range ((2 * W.support) ^ shape.length)).map fun i => lzContrib W shape period pos i a).sum =
      stDeposit shape (List.zipWith (lzSt W) period pos) a := by
  have hfl := flatAxes_length (K := K) shape period h1
  have hp := (digits_perm (2 * W.support) (by omega) shape.length).filterMap
    (stencilPt (flatAxes shape period : List (PAxis K)) (List.zipWith (lzSt W) period pos))
  have hops := filterMap_stencilPt (2 * W.support) (flatAxes shape period : List (PAxis K)) (List.zipWith (lzSt W) period pos)
    (by simp [h1, h2, hfl]) (by
    intro st hst
    obtain ⟨i, hi, rfl⟩ := List.getElem_of_mem hst
    simp [lzSt])
  rw [hfl] at hops
  rw [hops] at hp
  have := sum_points shape period h1 (List.zipWith (lzSt W) period pos) (by simp [h1, h2]) _ hp (fun b => if b = a then 1 else 0)
  rw [stDeposit, ← this, List.filterMap_map]
  generalize List.range ((2 * W.support) ^ shape.length) = l
  induction l with
  | nil => rfl
  | cons n l ih =>
    rw [List.map_cons, List.sum_cons, ih, List.filterMap_cons]
    unfold lzContrib
    simp only [Function.comp]
    cases hs : stencilPt (flatAxes shape period : List (PAxis K)) (List.zipWith (lzSt W) period pos) (digAt (2 * W.support) n 0 shape.length) with
    | none => simp
    | some q => simp

theorem lzPoint_elim (W : OldWindow K) (hS : 0 < W.support) (shape : List ℕ) (period : Option (List ℕ))
    (hper : ∀ p, period = some p → (∀ n ∈ p, 0 < n) ∧ p.length = shape.length)
    (pos : List K) (h2 : pos.length = shape.length) (i : ℕ) (w : K) (a : ℤ) :
    (((pyRavel shape (pyWrap period (lzTarget pos (lzNeighbour W.support shape.length i)))).map fun ind =>
      (ind, w * (lzKernel W pos (lzTarget pos (lzNeighbour W.support shape.length i)) / W.integral))).elim 0
        fun q => if q.1 = a then q.2 else 0) =
      w / W.integral * lzContrib W shape (cicPeriod shape.length period) pos i a := by
  have hpl : (cicPeriod shape.length period).length = shape.length := by
    cases period with
    | none => simp [cicPeriod]
    | some p => exact (hper p rfl).2
  rw [pyWrap_eq shape period hper _ (by simp [lzTarget, h2, lzNeighbour_length])]
  have := lzPoint_eq W shape (cicPeriod shape.length period) pos (digAt (2 * W.support) i 0 shape.length) hpl h2 (digAt_valid _ (by omega) _ _ _)
  unfold lzContrib
  rw [← this, lzNeighbour_eq]
  cases pyRavel shape (List.zipWith (fun (p : ℕ) t => genWrap p t) (cicPeriod shape.length period)
    (lzTarget pos ((digAt (2 * W.support) i 0 shape.length).map fun k : ℕ => (k : ℤ) - ((W.support : ℤ) - 1)))) with
  | none => simp
  | some ind =>
    simp only [Option.map_some, Option.elim_some]
    split_ifs
    · ring
    · simp

/-- One neighbour for all particles of a chunk. -/
theorem lzStep_eq (W : OldWindow K) (hS : 0 < W.support) (raise : Bool) (shape : List ℕ) (period : Option (List ℕ))
    (hper : ∀ p, period = some p → (∀ n ∈ p, 0 < n) ∧ p.length = shape.length) (ps : List (OldPart K))
    (h2 : ∀ p ∈ ps, p.pos.length = shape.length) (i : ℕ) (l : List (ℤ × K))
    (hm : (((if raise then ps.map fun p => (pyWrap period (lzTarget p.pos (lzNeighbour W.support shape.length i)),
        p.w * (lzKernel W p.pos (lzTarget p.pos (lzNeighbour W.support shape.length i)) / W.integral))
      else (ps.map fun p => (pyWrap period (lzTarget p.pos (lzNeighbour W.support shape.length i)),
        p.w * (lzKernel W p.pos (lzTarget p.pos (lzNeighbour W.support shape.length i)) / W.integral))).filter fun q => pyInside shape q.1) :
        List (List ℤ × K)).mapM fun q => (pyRavel shape q.1).map fun ind => (ind, q.2)) = some l) (a : ℤ) :
    (l.map fun p => if p.1 = a then p.2 else 0).sum =
      (ps.map fun p => p.w / W.integral * lzContrib W shape (cicPeriod shape.length period) p.pos i a).sum := by
  rw [mapM_sum _ (fun p : ℤ × K => if p.1 = a then p.2 else 0) _ _ hm]
  have fin : ((ps.map fun p => (pyWrap period (lzTarget p.pos (lzNeighbour W.support shape.length i)),
        p.w * (lzKernel W p.pos (lzTarget p.pos (lzNeighbour W.support shape.length i)) / W.integral))).map fun q =>
      ((pyRavel shape q.1).map fun ind => (ind, q.2)).elim 0 fun p : ℤ × K => if p.1 = a then p.2 else 0).sum =
      (ps.map fun p => p.w / W.integral * lzContrib W shape (cicPeriod shape.length period) p.pos i a).sum := by
    rw [List.map_map]
    congr 1
    apply List.map_congr_left
    intro p hp
    exact lzPoint_elim W hS shape period hper p.pos (h2 p hp) i p.w a
  by_cases hr : raise = true
  · rw [if_pos hr]
    exact fin
  · rw [if_neg hr, sum_filter_zero]
    · exact fin
    · intro q _ hq
      have : pyRavel shape q.1 = none := by
        have := pyRavel_isSome shape q.1
        rw [hq] at this
        simpa using this
      rw [this]
      rfl

theorem lzPaintChunk_eq (W : OldWindow K) (hS : 0 < W.support) (raise : Bool) (shape : List ℕ) (period : Option (List ℕ))
    (hper : ∀ p, period = some p → (∀ n ∈ p, 0 < n) ∧ p.length = shape.length) (ps : List (OldPart K))
    (h2 : ∀ p ∈ ps, p.pos.length = shape.length) (flat m : ℤ → K) (hm : lzPaintChunk W raise shape period flat ps = some m) (a : ℤ) :
    m a = flat a + (ps.map fun p => p.w / W.integral *
      stDeposit shape (List.zipWith (lzSt W) (cicPeriod shape.length period) p.pos) a).sum := by
  have hpl : (cicPeriod shape.length period).length = shape.length := by
    cases period with
    | none => simp [cicPeriod]
    | some p => exact (hper p rfl).2
  have key : ∀ (is : List ℕ) (flat : ℤ → K), (is.foldlM (fun flat i =>
      let pts := ps.map fun p =>
        let t := lzTarget p.pos (lzNeighbour W.support shape.length i)
        (pyWrap period t, p.w * (lzKernel W p.pos t / W.integral))
      let pts := if raise then pts else pts.filter fun q => pyInside shape q.1
      (pts.mapM fun q => (pyRavel shape q.1).map fun ind => (ind, q.2)).map (uniqueAdd flat)) flat) = some m →
      m a = flat a + (is.map fun i => (ps.map fun p => p.w / W.integral * lzContrib W shape (cicPeriod shape.length period) p.pos i a).sum).sum := by
    intro is
    induction is with
    | nil =>
      intro flat h
      have : flat = m := by simpa using h
      simp [this]
    | cons i is ih =>
      intro flat h
      rw [List.foldlM_cons, Option.bind_eq_bind, Option.bind_eq_some_iff] at h
      obtain ⟨m1, h1, h3⟩ := h
      rw [Option.map_eq_some_iff] at h1
      obtain ⟨l, hl, rfl⟩ := h1
      rw [ih _ h3, uniqueAdd_eq, lzStep_eq W hS raise shape period hper ps h2 i l hl, List.map_cons, List.sum_cons]
      ring
  rw [key _ _ hm]
  congr 1
  have sw : ∀ (is : List ℕ) (ps : List (OldPart K)), (is.map fun i => (ps.map fun p => p.w / W.integral *
        lzContrib W shape (cicPeriod shape.length period) p.pos i a).sum).sum =
      (ps.map fun p => p.w / W.integral * (is.map fun i => lzContrib W shape (cicPeriod shape.length period) p.pos i a).sum).sum := by
    intro is ps
    induction ps with
    | nil => simp
    | cons p ps ih =>
      simp only [List.map_cons, List.sum_cons]
      rw [sum_map_add, ih, sum_mul_left']
  rw [sw]
  congr 1
  apply List.map_congr_left
  intro p hp
  rw [sum_lzContrib W hS shape _ hpl p.pos (h2 p hp)]

theorem lzPaint_eq (W : OldWindow K) (hS : 0 < W.support) (chunksize : ℕ) (hc : 0 < chunksize) (raise : Bool) (mesh : FlatMesh K)
    (period : Option (List ℕ)) (hper : ∀ p, period = some p → (∀ n ∈ p, 0 < n) ∧ p.length = mesh.shape.length) (ps : List (OldPart K))
    (h2 : ∀ p ∈ ps, p.pos.length = mesh.shape.length) (m : ℤ → K) (hm : lzPaint W chunksize raise mesh period ps = some m) (a : ℤ) :
    m a = mesh.flat a + (ps.map fun p => p.w / W.integral *
      stDeposit mesh.shape (List.zipWith (lzSt W) (cicPeriod mesh.shape.length period) p.pos) a).sum := by
  have key : ∀ (fuel : ℕ) (ps : List (OldPart K)) (flat : ℤ → K), ps.length ≤ fuel → (∀ p ∈ ps, p.pos.length = mesh.shape.length) →
      (chunkLoop chunksize (fun (flat : Option (ℤ → K)) chunk =>
        let r := flat.bind fun flat => lzPaintChunk W raise mesh.shape period flat chunk
        (r, r.isNone)) fuel (some flat) ps).1 = some m →
      m a = flat a + (ps.map fun p => p.w / W.integral *
        stDeposit mesh.shape (List.zipWith (lzSt W) (cicPeriod mesh.shape.length period) p.pos) a).sum := by
    intro fuel
    induction fuel with
    | zero =>
      intro ps flat h _ h3
      have : ps = [] := List.length_eq_zero_iff.1 (by omega)
      subst this
      have : flat = m := by simpa [chunkLoop] using h3
      simp [this]
    | succ fuel ih =>
      intro ps flat h h2 h3
      rw [chunkLoop] at h3
      by_cases he : ps = []
      · rw [if_pos he] at h3
        have : flat = m := by simpa using h3
        simp [this, he]
      · rw [if_neg he] at h3
        simp only [Option.bind_some] at h3
        cases hr : lzPaintChunk W raise mesh.shape period flat (ps.take chunksize) with
        | none => rw [hr] at h3; simp at h3
        | some m1 =>
          rw [hr] at h3
          simp only [Option.isNone_some, Bool.false_eq_true, if_false] at h3
          have := List.length_pos_of_ne_nil he
          rw [ih _ m1 (by rw [List.length_drop]; omega) (fun p hp => h2 p (List.mem_of_mem_drop hp)) h3,
            lzPaintChunk_eq W hS raise mesh.shape period hper _ (fun p hp => h2 p (List.mem_of_mem_take hp)) flat m1 hr]
          conv_rhs => rw [← List.take_append_drop chunksize ps]
          rw [List.map_append, List.sum_append]
          ring
  exact key ps.length ps mesh.flat le_rfl h2 hm

/-- Every target is inside. -/
def LzAllIn (W : OldWindow K) (shape : List ℕ) (period : Option (List ℕ)) (pos : List K) : Prop :=
  ∀ i, pyInside shape (pyWrap period (lzTarget pos (lzNeighbour W.support shape.length i))) = true

theorem lzPaintChunk_isSome (W : OldWindow K) (raise : Bool) (shape : List ℕ) (period : Option (List ℕ)) (ps : List (OldPart K))
    (hin : raise = true → ∀ p ∈ ps, LzAllIn W shape period p.pos) (flat : ℤ → K) :
    (lzPaintChunk W raise shape period flat ps).isSome := by
  unfold lzPaintChunk
  generalize List.range ((2 * W.support) ^ shape.length) = is
  induction is generalizing flat with
  | nil => rfl
  | cons i is ih =>
    rw [List.foldlM_cons, Option.bind_eq_bind]
    simp only
    have : (((if raise then ps.map fun p => (pyWrap period (lzTarget p.pos (lzNeighbour W.support shape.length i)),
        p.w * (lzKernel W p.pos (lzTarget p.pos (lzNeighbour W.support shape.length i)) / W.integral))
      else (ps.map fun p => (pyWrap period (lzTarget p.pos (lzNeighbour W.support shape.length i)),
        p.w * (lzKernel W p.pos (lzTarget p.pos (lzNeighbour W.support shape.length i)) / W.integral))).filter fun q => pyInside shape q.1) :
        List (List ℤ × K)).mapM fun q => (pyRavel shape q.1).map fun ind => (ind, q.2)).isSome := by
      apply mapM_isSome
      intro q hq
      rw [Option.isSome_map, pyRavel_isSome]
      by_cases hr : raise = true
      · rw [if_pos hr] at hq
        obtain ⟨p, hp, rfl⟩ := List.mem_map.1 hq
        exact hin hr p hp i
      · rw [if_neg hr] at hq
        exact (List.mem_filter.1 hq).2
    obtain ⟨l, hl⟩ := Option.isSome_iff_exists.1 this
    rw [hl, Option.map_some, Option.bind_some]
    exact ih _

theorem lzPaint_isSome (W : OldWindow K) (chunksize : ℕ) (raise : Bool) (mesh : FlatMesh K) (period : Option (List ℕ)) (ps : List (OldPart K))
    (hin : raise = true → ∀ p ∈ ps, LzAllIn W mesh.shape period p.pos) : (lzPaint W chunksize raise mesh period ps).isSome := by
  have key : ∀ (fuel : ℕ) (ps : List (OldPart K)) (flat : ℤ → K),
      (raise = true → ∀ p ∈ ps, LzAllIn W mesh.shape period p.pos) →
      (chunkLoop chunksize (fun (flat : Option (ℤ → K)) chunk =>
        let r := flat.bind fun flat => lzPaintChunk W raise mesh.shape period flat chunk
        (r, r.isNone)) fuel (some flat) ps).1.isSome := by
    intro fuel
    induction fuel with
    | zero => intro ps flat _; rfl
    | succ fuel ih =>
      intro ps flat hin
      rw [chunkLoop]
      by_cases he : ps = []
      · rw [if_pos he]; rfl
      · rw [if_neg he]
        simp only [Option.bind_some]
        obtain ⟨m1, hm1⟩ := Option.isSome_iff_exists.1 (lzPaintChunk_isSome W raise mesh.shape period (ps.take chunksize)
          (fun hr p hp => hin hr p (List.mem_of_mem_take hp)) flat)
        rw [hm1]
        simp only [Option.isNone_some, Bool.false_eq_true, if_false]
        exact ih _ m1 (fun hr p hp => hin hr p (List.mem_of_mem_drop hp))
  exact key ps.length ps mesh.flat hin

/-- A periodic mesh takes every particle. -/
theorem lzAllIn_of_full (W : OldWindow K) (shape : List ℕ) (hpos : ∀ n ∈ shape, 0 < n) (pos : List K) (h : pos.length = shape.length) :
    LzAllIn W shape (some shape) pos := by
  intro i
  have hl := lzNeighbour_length W.support shape.length i
  generalize lzNeighbour W.support shape.length i = nb at hl
  clear i
  have key : ∀ (shape : List ℕ) (t : List ℤ), (∀ n ∈ shape, 0 < n) → t.length = shape.length →
      pyInside shape (List.zipWith npRemainder t shape) = true := by
    intro shape
    induction shape with
    | nil => intro t _ h; simp [pyInside]
    | cons n shape ih =>
      intro t hpos h
      match t, h with
      | a :: t, h =>
        have := ih t (fun k hk => hpos k (by simp [hk])) (by simpa using h)
        have hn := hpos n (by simp)
        have e : npRemainder a n = a % n := by rw [npRemainder, if_neg (by omega)]
        simp only [pyInside, List.zipWith_cons_cons, List.all_cons, Bool.and_eq_true, id, decide_eq_true_eq] at this ⊢
        refine ⟨⟨?_, this.1⟩, ?_, this.2⟩
        · rw [e]; exact Int.emod_nonneg _ (by omega)
        · rw [e]; exact Int.emod_lt_of_pos _ (by omega)
  exact key shape _ hpos (by simp [lzTarget, h, hl])

/-- The loop over neighbours of `linear` is the one of cic.py. -/
theorem lzPaintChunk_linear (raise : Bool) (shape : List ℕ) (period : Option (List ℕ)) (flat : ℤ → K) (ps : List (OldPart K)) :
    lzPaintChunk oldLinear raise shape period flat ps = pyPaintChunk raise shape period flat ps := by
  have hn : ∀ i, lzNeighbour 1 shape.length i = (cicNeighbour shape.length i).map fun k : ℕ => (k : ℤ) := by
    intro i
    rw [cicNeighbour_eq, lzNeighbour_eq]
    simp
  have hd : ∀ i, ∀ k ∈ cicNeighbour shape.length i, k ≤ 1 := by
    intro i k hk
    rw [cicNeighbour_eq] at hk
    obtain ⟨e, _, rfl⟩ := List.mem_map.1 hk
    omega
  have ht : ∀ (pos : List K) i, lzTarget pos (lzNeighbour 1 shape.length i) = pyTarget pos (cicNeighbour shape.length i) := by
    intro pos i
    rw [hn, lzTarget, pyTarget, List.zipWith_map_right]
  have hk : ∀ (nb : List ℕ), (∀ k ∈ nb, k ≤ 1) → ∀ pos : List K, lzKernel oldLinear pos (pyTarget pos nb) = pyKernel pos (pyTarget pos nb) := by
    intro nb
    induction nb with
    | nil => intro _ pos; simp [lzKernel, pyKernel, pyTarget]
    | cons k nb ih =>
      intro h pos
      match pos with
      | [] => simp [lzKernel, pyKernel, pyTarget]
      | x :: pos =>
        have hih := ih (fun k hk => h k (by simp [hk])) pos
        have hk1 := h k (by simp)
        have hk' : (k : K) ≤ 1 := by exact_mod_cast hk1
        have hk0 : (0 : K) ≤ k := Nat.cast_nonneg k
        have hx0 := Int.floor_le x
        have hx1 := Int.lt_floor_add_one x
        simp only [lzKernel, pyKernel, pyTarget, List.zipWith_cons_cons, List.prod_cons] at hih ⊢
        rw [hih]
        congr 1
        simp only [oldLinear]
        rw [if_neg]
        rw [not_lt, abs_le]
        push_cast
        constructor <;> linarith
  unfold lzPaintChunk pyPaintChunk
  simp only [oldLinear, mul_one, div_one]
  congr 1
  funext flat i
  congr 2
  have : (fun p : OldPart K => (pyWrap period (lzTarget p.pos (lzNeighbour 1 shape.length i)),
      p.w * lzKernel oldLinear p.pos (lzTarget p.pos (lzNeighbour 1 shape.length i)))) =
      fun p => (pyWrap period (pyTarget p.pos (cicNeighbour shape.length i)), p.w * pyKernel p.pos (pyTarget p.pos (cicNeighbour shape.length i))) := by
    funext p
    rw [ht, hk _ (hd i)]
  simp only [oldLinear] at this
  rw [this]

end
end Pmesh
