import Verif.Lemmas.OldCic

set_option linter.unusedSectionVars false

namespace Pmesh
section
variable {K : Type*} [Field K] [LinearOrder K] [IsStrictOrderedRing K] [FloorRing K]

theorem mapM_sum {α β : Type*} (f : α → Option β) (h : β → K) (l : List α) (l' : List β) (hm : l.mapM f = some l') :
    (l'.map h).sum = (l.map fun x => (f x).elim 0 h).sum := by
  induction l generalizing l' with
  | nil =>
    have : l' = [] := by simpa using hm.symm
    subst this
    rfl
  | cons x l ih =>
    rw [List.mapM_cons] at hm
    cases hx : f x with
    | none => rw [hx] at hm; simp at hm
    | some y =>
      rw [hx] at hm
      simp only [Option.bind_eq_bind, Option.bind_some] at hm
      cases hl : l.mapM f with
      | none => rw [hl] at hm; simp at hm
      | some k =>
        rw [hl] at hm
        have : l' = y :: k := by simpa using hm.symm
        subst this
        simp [ih k hl, hx]

theorem mapM_isSome {α β : Type*} (f : α → Option β) (l : List α) (h : ∀ x ∈ l, (f x).isSome) : (l.mapM f).isSome := by
  induction l with
  | nil => rfl
  | cons x l ih =>
    rw [List.mapM_cons]
    obtain ⟨y, hy⟩ := Option.isSome_iff_exists.1 (h x (by simp))
    obtain ⟨k, hk⟩ := Option.isSome_iff_exists.1 (ih fun z hz => h z (by simp [hz]))
    rw [hy, hk]
    rfl

theorem pyRavel_isSome (shape : List ℕ) (t : List ℤ) : (pyRavel shape t).isSome = pyInside shape t := by
  unfold pyRavel
  split <;> simp_all

theorem sum_filter_zero {α : Type*} (l : List α) (p : α → Bool) (f : α → K) (h : ∀ x ∈ l, p x = false → f x = 0) :
    ((l.filter p).map f).sum = (l.map f).sum := by
  induction l with
  | nil => rfl
  | cons a l ih =>
    have := ih fun x hx => h x (by simp [hx])
    simp only [List.filter_cons, List.map_cons, List.sum_cons]
    split
    · simp [this]
    · next hp =>
      rw [this, h a (by simp) (by simpa using hp), zero_add]

/-- What neighbour `i` of a particle of unit weight adds to element `a`. -/
def pyContrib (shape period : List ℕ) (pos : List K) (i : ℕ) (a : ℤ) : K :=
  (stencilPt (flatAxes shape period) (List.zipWith oldCicSt period pos) (digAt 2 i 0 shape.length)).elim 0 fun q => if q.1 = a then q.2 else 0

theorem sum_pyContrib (shape period : List ℕ) (h1 : period.length = shape.length) (pos : List K) (h2 : pos.length = shape.length) (a : ℤ) :
    ((List.range (2 ^ shape.length)).map fun i => pyContrib shape period pos i a).sum = stDeposit shape (List.zipWith oldCicSt period pos) a := by
  have hp := cicPoints_perm shape period pos h1 h2
  have := sum_points shape period h1 (List.zipWith oldCicSt period pos) (by simp [h1, h2]) _ hp (fun b => if b = a then 1 else 0)
  rw [stDeposit, ← this, h2]
  generalize List.range (2 ^ shape.length) = l
  induction l with
  | nil => rfl
  | cons n l ih =>
    rw [List.map_cons, List.sum_cons, ih, List.filterMap_cons]
    have e := cicPoint_eq n shape period pos 0 0 1 h1 h2
    unfold pyContrib
    cases hs : stencilPt (flatAxes shape period : List (PAxis K)) (List.zipWith oldCicSt period pos) (digAt 2 n 0 shape.length) with
    | none =>
      rw [hs] at e
      simp only [Option.map_none] at e
      simp [e]
    | some q =>
      rw [hs] at e
      simp only [Option.map_some, zero_mul, zero_add, one_mul] at e
      simp [e]

theorem pyPoint_elim (shape : List ℕ) (period : Option (List ℕ)) (hper : ∀ p, period = some p → (∀ n ∈ p, 0 < n) ∧ p.length = shape.length)
    (pos : List K) (h2 : pos.length = shape.length) (i : ℕ) (w : K) (a : ℤ) :
    (((pyRavel shape (pyWrap period (pyTarget pos (cicNeighbour shape.length i)))).map fun ind =>
      (ind, w * pyKernel pos (pyTarget pos (cicNeighbour shape.length i)))).elim 0 fun q => if q.1 = a then q.2 else 0) =
      w * pyContrib shape (cicPeriod shape.length period) pos i a := by
  have hpl : (cicPeriod shape.length period).length = shape.length := by
    cases period with
    | none => simp [cicPeriod]
    | some p => exact (hper p rfl).2
  have hn : (cicNeighbour shape.length i).length = shape.length := by simp [cicNeighbour]
  rw [pyWrap_eq shape period hper _ (by simp [pyTarget, h2, hn])]
  have := pyPoint_eq shape (cicPeriod shape.length period) pos (cicNeighbour shape.length i) hpl h2 (by
    rw [cicNeighbour_eq]; exact digAt_valid 2 (by omega) _ _ _)
  unfold pyContrib
  rw [← cicNeighbour_eq, ← this]
  cases pyRavel shape (List.zipWith (fun p t => genWrap p t) (cicPeriod shape.length period) (pyTarget pos (cicNeighbour shape.length i))) with
  | none => simp
  | some ind => simp

theorem pyRavel_cicPoint (shape : List ℕ) (period : Option (List ℕ)) (hper : ∀ p, period = some p → (∀ n ∈ p, 0 < n) ∧ p.length = shape.length)
    (pos : List K) (h2 : pos.length = shape.length) (i : ℕ) :
    (pyRavel shape (pyWrap period (pyTarget pos (cicNeighbour shape.length i)))).isSome =
      (cicPoint i 0 shape (cicPeriod shape.length period) pos 0 1).isSome := by
  have hpl : (cicPeriod shape.length period).length = shape.length := by
    cases period with
    | none => simp [cicPeriod]
    | some p => exact (hper p rfl).2
  have hn : (cicNeighbour shape.length i).length = shape.length := by simp [cicNeighbour]
  rw [pyWrap_eq shape period hper _ (by simp [pyTarget, h2, hn]), cicPoint_eq i shape _ pos 0 0 1 hpl h2]
  have := pyPoint_eq shape (cicPeriod shape.length period) pos (cicNeighbour shape.length i) hpl h2 (by
    rw [cicNeighbour_eq]; exact digAt_valid 2 (by omega) _ _ _)
  rw [← cicNeighbour_eq, ← this, Option.isSome_map, Option.isSome_map]

/-- One neighbour for all particles of a chunk. -/
theorem pyStep_eq (raise : Bool) (shape : List ℕ) (period : Option (List ℕ))
    (hper : ∀ p, period = some p → (∀ n ∈ p, 0 < n) ∧ p.length = shape.length) (ps : List (OldPart K))
    (h2 : ∀ p ∈ ps, p.pos.length = shape.length) (i : ℕ) (l : List (ℤ × K))
    (hm : (((if raise then ps.map fun p => (pyWrap period (pyTarget p.pos (cicNeighbour shape.length i)),
        p.w * pyKernel p.pos (pyTarget p.pos (cicNeighbour shape.length i)))
      else (ps.map fun p => (pyWrap period (pyTarget p.pos (cicNeighbour shape.length i)),
        p.w * pyKernel p.pos (pyTarget p.pos (cicNeighbour shape.length i)))).filter fun q => pyInside shape q.1) :
        List (List ℤ × K)).mapM fun q => (pyRavel shape q.1).map fun ind => (ind, q.2)) = some l) (a : ℤ) :
    (l.map fun p => if p.1 = a then p.2 else 0).sum =
      (ps.map fun p => p.w * pyContrib shape (cicPeriod shape.length period) p.pos i a).sum := by
  rw [mapM_sum _ (fun p : ℤ × K => if p.1 = a then p.2 else 0) _ _ hm]
  have fin : ((ps.map fun p => (pyWrap period (pyTarget p.pos (cicNeighbour shape.length i)),
        p.w * pyKernel p.pos (pyTarget p.pos (cicNeighbour shape.length i)))).map fun q =>
      ((pyRavel shape q.1).map fun ind => (ind, q.2)).elim 0 fun p : ℤ × K => if p.1 = a then p.2 else 0).sum =
      (ps.map fun p => p.w * pyContrib shape (cicPeriod shape.length period) p.pos i a).sum := by
    rw [List.map_map]
    congr 1
    apply List.map_congr_left
    intro p hp
    exact pyPoint_elim shape period hper p.pos (h2 p hp) i p.w a
  by_cases hr : raise = true
  · rw [if_pos hr]
    exact fin
  · rw [if_neg hr, sum_filter_zero]
    · exact fin
    · intro q _ hq
      have : pyRavel shape q.1 = none := by
        have := pyRavel_isSome shape q.1
        rw [hq] at this
        simpa using this
      rw [this]
      rfl

theorem pyPaintChunk_eq (raise : Bool) (shape : List ℕ) (period : Option (List ℕ))
    (hper : ∀ p, period = some p → (∀ n ∈ p, 0 < n) ∧ p.length = shape.length) (ps : List (OldPart K))
    (h2 : ∀ p ∈ ps, p.pos.length = shape.length) (flat m : ℤ → K) (hm : pyPaintChunk raise shape period flat ps = some m) (a : ℤ) :
    m a = flat a + (ps.map fun p => p.w * stDeposit shape (List.zipWith oldCicSt (cicPeriod shape.length period) p.pos) a).sum := by
  have hpl : (cicPeriod shape.length period).length = shape.length := by
    cases period with
    | none => simp [cicPeriod]
    | some p => exact (hper p rfl).2
  have key : ∀ (is : List ℕ) (flat : ℤ → K), (is.foldlM (fun flat i =>
      let pts := ps.map fun p =>
        let t := pyTarget p.pos (cicNeighbour shape.length i)
        (pyWrap period t, p.w * pyKernel p.pos t)
      let pts := if raise then pts else pts.filter fun q => pyInside shape q.1
      (pts.mapM fun q => (pyRavel shape q.1).map fun ind => (ind, q.2)).map (uniqueAdd flat)) flat) = some m →
      m a = flat a + (is.map fun i => (ps.map fun p => p.w * pyContrib shape (cicPeriod shape.length period) p.pos i a).sum).sum := by
    intro is
    induction is with
    | nil =>
      intro flat h
      have : flat = m := by simpa using h
      simp [this]
    | cons i is ih =>
      intro flat h
      rw [List.foldlM_cons, Option.bind_eq_bind, Option.bind_eq_some_iff] at h
      obtain ⟨m1, h1, h3⟩ := h
      rw [Option.map_eq_some_iff] at h1
      obtain ⟨l, hl, rfl⟩ := h1
      rw [ih _ h3, uniqueAdd_eq, pyStep_eq raise shape period hper ps h2 i l hl, List.map_cons, List.sum_cons]
      ring
  rw [key _ _ hm]
  congr 1
  have sw : ∀ (is : List ℕ) (ps : List (OldPart K)), (is.map fun i => (ps.map fun p => p.w * pyContrib shape (cicPeriod shape.length period) p.pos i a).sum).sum =
      (ps.map fun p => p.w * (is.map fun i => pyContrib shape (cicPeriod shape.length period) p.pos i a).sum).sum := by
    intro is ps
    induction ps with
    | nil => simp
    | cons p ps ih =>
      simp only [List.map_cons, List.sum_cons]
      rw [sum_map_add, ih, sum_mul_left']
  rw [sw]
  congr 1
  apply List.map_congr_left
  intro p hp
  rw [sum_pyContrib shape _ hpl p.pos (h2 p hp)]

theorem pyPaintChunk_isSome (raise : Bool) (shape : List ℕ) (period : Option (List ℕ))
    (hper : ∀ p, period = some p → (∀ n ∈ p, 0 < n) ∧ p.length = shape.length) (ps : List (OldPart K))
    (h2 : ∀ p ∈ ps, p.pos.length = shape.length) (hin : raise = true → ∀ p ∈ ps, AllIn shape (cicPeriod shape.length period) p.pos) (flat : ℤ → K) :
    (pyPaintChunk raise shape period flat ps).isSome := by
  unfold pyPaintChunk
  generalize List.range (2 ^ shape.length) = is
  induction is generalizing flat with
  | nil => rfl
  | cons i is ih =>
    rw [List.foldlM_cons, Option.bind_eq_bind]
    simp only
    have : (((if raise then ps.map fun p => (pyWrap period (pyTarget p.pos (cicNeighbour shape.length i)),
        p.w * pyKernel p.pos (pyTarget p.pos (cicNeighbour shape.length i)))
      else (ps.map fun p => (pyWrap period (pyTarget p.pos (cicNeighbour shape.length i)),
        p.w * pyKernel p.pos (pyTarget p.pos (cicNeighbour shape.length i)))).filter fun q => pyInside shape q.1) :
        List (List ℤ × K)).mapM fun q => (pyRavel shape q.1).map fun ind => (ind, q.2)).isSome := by
      apply mapM_isSome
      intro q hq
      rw [Option.isSome_map]
      by_cases hr : raise = true
      · rw [if_pos hr] at hq
        obtain ⟨p, hp, rfl⟩ := List.mem_map.1 hq
        simp only
        rw [pyRavel_cicPoint shape period hper p.pos (h2 p hp)]
        exact hin hr p hp i
      · rw [if_neg hr] at hq
        rw [pyRavel_isSome]
        exact (List.mem_filter.1 hq).2
    obtain ⟨l, hl⟩ := Option.isSome_iff_exists.1 this
    rw [hl, Option.map_some, Option.bind_some]
    exact ih _

theorem pyPaint_eq (chunksize : ℕ) (hc : 0 < chunksize) (raise : Bool) (mesh : FlatMesh K) (period : Option (List ℕ))
    (hper : ∀ p, period = some p → (∀ n ∈ p, 0 < n) ∧ p.length = mesh.shape.length) (ps : List (OldPart K))
    (h2 : ∀ p ∈ ps, p.pos.length = mesh.shape.length) (m : ℤ → K) (hm : pyPaint chunksize raise mesh period ps = some m) (a : ℤ) :
    m a = mesh.flat a + (ps.map fun p => p.w * stDeposit mesh.shape (List.zipWith oldCicSt (cicPeriod mesh.shape.length period) p.pos) a).sum := by
  have key : ∀ (fuel : ℕ) (ps : List (OldPart K)) (flat : ℤ → K), ps.length ≤ fuel → (∀ p ∈ ps, p.pos.length = mesh.shape.length) →
      (chunkLoop chunksize (fun (flat : Option (ℤ → K)) chunk =>
        let r := flat.bind fun flat => pyPaintChunk raise mesh.shape period flat chunk
        (r, r.isNone)) fuel (some flat) ps).1 = some m →
      m a = flat a + (ps.map fun p => p.w * stDeposit mesh.shape (List.zipWith oldCicSt (cicPeriod mesh.shape.length period) p.pos) a).sum := by
    intro fuel
    induction fuel with
    | zero =>
      intro ps flat h _ h3
      have : ps = [] := List.length_eq_zero_iff.1 (by omega)
      subst this
      have : flat = m := by simpa [chunkLoop] using h3
      simp [this]
    | succ fuel ih =>
      intro ps flat h h2 h3
      rw [chunkLoop] at h3
      by_cases he : ps = []
      · rw [if_pos he] at h3
        have : flat = m := by simpa using h3
        simp [this, he]
      · rw [if_neg he] at h3
        simp only [Option.bind_some] at h3
        cases hr : pyPaintChunk raise mesh.shape period flat (ps.take chunksize) with
        | none => rw [hr] at h3; simp at h3
        | some m1 =>
          rw [hr] at h3
          simp only [Option.isNone_some, Bool.false_eq_true, if_false] at h3
          have := List.length_pos_of_ne_nil he
          rw [ih _ m1 (by rw [List.length_drop]; omega) (fun p hp => h2 p (List.mem_of_mem_drop hp)) h3,
            pyPaintChunk_eq raise mesh.shape period hper _ (fun p hp => h2 p (List.mem_of_mem_take hp)) flat m1 hr]
          conv_rhs => rw [← List.take_append_drop chunksize ps]
          rw [List.map_append, List.sum_append]
          ring
  exact key ps.length ps mesh.flat le_rfl h2 hm

theorem pyPaint_isSome (chunksize : ℕ) (raise : Bool) (mesh : FlatMesh K) (period : Option (List ℕ))
    (hper : ∀ p, period = some p → (∀ n ∈ p, 0 < n) ∧ p.length = mesh.shape.length) (ps : List (OldPart K))
    (h2 : ∀ p ∈ ps, p.pos.length = mesh.shape.length)
    (hin : raise = true → ∀ p ∈ ps, AllIn mesh.shape (cicPeriod mesh.shape.length period) p.pos) :
    (pyPaint chunksize raise mesh period ps).isSome := by
  have key : ∀ (fuel : ℕ) (ps : List (OldPart K)) (flat : ℤ → K), (∀ p ∈ ps, p.pos.length = mesh.shape.length) →
      (raise = true → ∀ p ∈ ps, AllIn mesh.shape (cicPeriod mesh.shape.length period) p.pos) →
      (chunkLoop chunksize (fun (flat : Option (ℤ → K)) chunk =>
        let r := flat.bind fun flat => pyPaintChunk raise mesh.shape period flat chunk
        (r, r.isNone)) fuel (some flat) ps).1.isSome := by
    intro fuel
    induction fuel with
    | zero => intro ps flat _ _; rfl
    | succ fuel ih =>
      intro ps flat h2 hin
      rw [chunkLoop]
      by_cases he : ps = []
      · rw [if_pos he]; rfl
      · rw [if_neg he]
        simp only [Option.bind_some]
        obtain ⟨m1, hm1⟩ := Option.isSome_iff_exists.1 (pyPaintChunk_isSome raise mesh.shape period hper (ps.take chunksize)
          (fun p hp => h2 p (List.mem_of_mem_take hp)) (fun hr p hp => hin hr p (List.mem_of_mem_take hp)) flat)
        rw [hm1]
        simp only [Option.isNone_some, Bool.false_eq_true, if_false]
        exact ih _ m1 (fun p hp => h2 p (List.mem_of_mem_drop hp)) (fun hr p hp => hin hr p (List.mem_of_mem_drop hp))
  exact key ps.length ps mesh.flat h2 hin

/-! ### readout -/

theorem sum_pyRead (shape period : List ℕ) (h1 : period.length = shape.length) (pos : List K) (h2 : pos.length = shape.length) (flat : ℤ → K) :
    ((List.range (2 ^ shape.length)).map fun i =>
      (stencilPt (flatAxes shape period) (List.zipWith oldCicSt period pos) (digAt 2 i 0 shape.length)).elim 0 fun q => q.2 * flat q.1).sum =
      stRead shape (List.zipWith oldCicSt period pos) flat := by
  have hp := cicPoints_perm shape period pos h1 h2
  have := sum_points shape period h1 (List.zipWith oldCicSt period pos) (by simp [h1, h2]) _ hp flat
  rw [stRead, ← this, h2]
  generalize List.range (2 ^ shape.length) = l
  induction l with
  | nil => rfl
  | cons n l ih =>
    rw [List.map_cons, List.sum_cons, ih, List.filterMap_cons]
    have e := cicPoint_eq n shape period pos 0 0 1 h1 h2
    cases hs : stencilPt (flatAxes shape period : List (PAxis K)) (List.zipWith oldCicSt period pos) (digAt 2 n 0 shape.length) with
    | none =>
      rw [hs] at e
      simp only [Option.map_none] at e
      simp [e]
    | some q =>
      rw [hs] at e
      simp only [Option.map_some, zero_mul, zero_add, one_mul] at e
      simp [e]

theorem pyReadPoint_eq (raise : Bool) (mesh : FlatMesh K) (period : Option (List ℕ))
    (hper : ∀ p, period = some p → (∀ n ∈ p, 0 < n) ∧ p.length = mesh.shape.length) (pos : List K) (h2 : pos.length = mesh.shape.length) (i : ℕ) (v : K)
    (hv : pyReadPoint raise mesh period pos i = some v) :
    v = (stencilPt (flatAxes mesh.shape (cicPeriod mesh.shape.length period)) (List.zipWith oldCicSt (cicPeriod mesh.shape.length period) pos)
      (digAt 2 i 0 mesh.shape.length)).elim 0 fun q => q.2 * mesh.flat q.1 := by
  have hpl : (cicPeriod mesh.shape.length period).length = mesh.shape.length := by
    cases period with
    | none => simp [cicPeriod]
    | some p => exact (hper p rfl).2
  have hn : (cicNeighbour mesh.shape.length i).length = mesh.shape.length := by simp [cicNeighbour]
  have := pyPoint_eq mesh.shape (cicPeriod mesh.shape.length period) pos (cicNeighbour mesh.shape.length i) hpl h2 (by
    rw [cicNeighbour_eq]; exact digAt_valid 2 (by omega) _ _ _)
  rw [← pyWrap_eq mesh.shape period hper _ (by simp [pyTarget, h2, hn])] at this
  rw [← cicNeighbour_eq, ← this]
  unfold pyReadPoint at hv
  simp only at hv
  cases hr : pyRavel mesh.shape (pyWrap period (pyTarget pos (cicNeighbour mesh.shape.length i))) with
  | none =>
    rw [hr] at hv
    simp only [Option.map_none] at hv
    split at hv
    · simpa using hv.symm
    · simp at hv
  | some ind =>
    have hin := pyRavel_isSome mesh.shape (pyWrap period (pyTarget pos (cicNeighbour mesh.shape.length i)))
    rw [hr] at hin hv
    rw [← hin] at hv
    simpa using hv.symm

theorem pyReadPart_eq (raise : Bool) (mesh : FlatMesh K) (period : Option (List ℕ))
    (hper : ∀ p, period = some p → (∀ n ∈ p, 0 < n) ∧ p.length = mesh.shape.length) (pos : List K) (h2 : pos.length = mesh.shape.length) (v : K)
    (hv : ((List.range (2 ^ mesh.shape.length)).foldlM (fun out i => (pyReadPoint raise mesh period pos i).map fun v => out + v) 0) = some v) :
    v = stRead mesh.shape (List.zipWith oldCicSt (cicPeriod mesh.shape.length period) pos) mesh.flat := by
  have hpl : (cicPeriod mesh.shape.length period).length = mesh.shape.length := by
    cases period with
    | none => simp [cicPeriod]
    | some p => exact (hper p rfl).2
  rw [← sum_pyRead mesh.shape _ hpl pos h2]
  have key : ∀ (is : List ℕ) (out : K), (is.foldlM (fun out i => (pyReadPoint raise mesh period pos i).map fun v => out + v) out) = some v →
      v = out + (is.map fun i =>
      (stencilPt (flatAxes mesh.shape (cicPeriod mesh.shape.length period)) (List.zipWith oldCicSt (cicPeriod mesh.shape.length period) pos)
        (digAt 2 i 0 mesh.shape.length)).elim 0 fun q => q.2 * mesh.flat q.1).sum := by
    intro is
    induction is with
    | nil => intro out h; simpa using h.symm
    | cons i is ih =>
      intro out h
      rw [List.foldlM_cons, Option.bind_eq_bind, Option.bind_eq_some_iff] at h
      obtain ⟨o, h1, h3⟩ := h
      rw [Option.map_eq_some_iff] at h1
      obtain ⟨u, hu, rfl⟩ := h1
      rw [ih _ h3, List.map_cons, List.sum_cons, ← pyReadPoint_eq raise mesh period hper pos h2 i u hu]
      ring
  rw [key _ _ hv, zero_add]

theorem mapM_eq_map {α β : Type*} (f : α → Option β) (g : α → β) (l : List α) (l' : List β) (h : ∀ x ∈ l, ∀ y, f x = some y → y = g x)
    (hm : l.mapM f = some l') : l' = l.map g := by
  induction l generalizing l' with
  | nil => simpa using hm.symm
  | cons x l ih =>
    rw [List.mapM_cons] at hm
    cases hx : f x with
    | none => rw [hx] at hm; simp at hm
    | some y =>
      rw [hx] at hm
      simp only [Option.bind_eq_bind, Option.bind_some] at hm
      cases hl : l.mapM f with
      | none => rw [hl] at hm; simp at hm
      | some k =>
        rw [hl] at hm
        have : l' = y :: k := by simpa using hm.symm
        rw [this, h x (by simp) y hx, ih k (fun z hz => h z (by simp [hz])) hl]
        rfl

theorem pyReadout_isSome (raise : Bool) (mesh : FlatMesh K) (period : Option (List ℕ))
    (hper : ∀ p, period = some p → (∀ n ∈ p, 0 < n) ∧ p.length = mesh.shape.length) (ps : List (List K))
    (h2 : ∀ p ∈ ps, p.length = mesh.shape.length) (hin : raise = true → ∀ p ∈ ps, AllIn mesh.shape (cicPeriod mesh.shape.length period) p) :
    (pyReadout raise mesh period ps).isSome := by
  apply mapM_isSome
  intro pos hpos
  generalize (0 : K) = out
  generalize List.range (2 ^ mesh.shape.length) = is
  induction is generalizing out with
  | nil => rfl
  | cons i is ih =>
    rw [List.foldlM_cons, Option.bind_eq_bind]
    have : (pyReadPoint raise mesh period pos i).isSome := by
      unfold pyReadPoint
      simp only
      split
      · rfl
      · next hc =>
        rw [Option.isSome_map]
        by_cases hr : raise = true
        · rw [pyRavel_cicPoint mesh.shape period hper pos (h2 pos hpos)]
          exact hin hr pos hpos i
        · rw [pyRavel_isSome]
          simpa [hr] using hc
    obtain ⟨v, hv⟩ := Option.isSome_iff_exists.1 this
    rw [hv, Option.map_some, Option.bind_some]
    exact ih _

/-! ### the compiled painter -/

theorem axisStencil_native {P : Painter K} (hP : P.Valid) (t : Tuned) (hk : P.kern = Tuned.kern t) (h : K) (hw : windowSize P h = P.kern.native)
    (ax : PAxis K) (ho : ax.order = 0) (x : K) : axisStencil P h ax x = tunedStencil t ax x := by
  have hex : TunedExact t ax x := Or.inl ho
  have hgen : tunedStencil t ax x = genStencil P.kern (partWin P h) ax x := by
    unfold partWin
    rw [hk]
    apply tunedStencil_eq _ _ _ _ _ hex
    rw [← hk]
    exact hw
  unfold axisStencil
  cases hf : fastMethod P (partWin P h) with
  | none => exact hgen.symm
  | some t' =>
    have hk' := hP.tuned_kern t' (fastMethod_dim hf).1
    have : t' = t := by
      have hn : (Tuned.kern t' : Kern K).native = (Tuned.kern t : Kern K).native := by rw [← hk', hk]
      cases t' <;> cases t <;> first | rfl | (simp [Tuned.kern, nearestK, linearK, quadraticK, cubicK] at hn)
    rw [this]

theorem tunedStencil_cic_old (ax : PAxis K) (ho : ax.order = 0) (x : K) : tunedStencil .cic ax x = oldCicSt ax.period (ax.grid x) := by
  simp only [tunedStencil, tunedSetup, ho, if_true, List.map_cons, List.map_nil, tunedWrap_eq]
  rfl

theorem zipWith_cic {P : Painter K} (hP : P.Valid) (hk : P.kern = Tuned.kern .cic) (h : K) (hw : windowSize P h = P.kern.native) :
    ∀ (axes : List (PAxis K)), (∀ ax ∈ axes, ax.order = 0) → ∀ (pos : List K), pos.length = axes.length →
    List.zipWith (axisStencil P h) axes pos = List.zipWith oldCicSt (axes.map (·.period)) (List.zipWith PAxis.grid axes pos) := by
  intro axes
  induction axes with
  | nil => intro _ pos _; rfl
  | cons ax axes ih =>
    intro ho pos hl
    match pos, hl with
    | x :: pos, hl =>
      simp only [List.zipWith_cons_cons, List.map_cons]
      rw [ih (fun a ha => ho a (by simp [ha])) pos (by simpa using hl), axisStencil_native hP .cic hk h hw ax (ho ax (by simp)),
        tunedStencil_cic_old ax (ho ax (by simp))]

theorem stDeposit_elem (shape : List ℕ) (sts : List (List (ℤ × K))) (c : List ℕ) (hc : ValidIndex shape c) :
    stDeposit shape sts (cOrder shape c : ℕ) = cwProd sts c := by
  unfold stDeposit
  rw [sum_ite_eq_of_nodup _ (ndindex_nodup _) _ _ c (mem_ndindex.mpr hc)]
  intro x hx
  constructor
  · intro h
    exact cOrder_inj (mem_ndindex.1 hx) hc (by exact_mod_cast h)
  · rintro rfl; rfl

end
end Pmesh
