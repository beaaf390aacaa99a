import Verif.Model.OldCic
import Verif.Lemmas.Paint
import Mathlib.Data.List.Perm.Lattice
import Mathlib.Data.List.Nodup

set_option linter.unusedSectionVars false

namespace Pmesh

/-! ### the neighbours in the order of their number -/

/-- Digits of `n` in base `S`, positions `d, ..., d + N - 1`. -/
def digAt (S n d N : ℕ) : List ℕ := (List.range' d N).map fun e => n / S ^ e % S

theorem digAt_succ (S n d N : ℕ) : digAt S n d (N + 1) = (n / S ^ d % S) :: digAt S n (d + 1) N := by
  simp [digAt, List.range'_succ]

theorem digAt_shift (S n d N : ℕ) : digAt S n (d + 1) N = digAt S (n / S) d N := by
  induction N generalizing d with
  | zero => rfl
  | succ N ih =>
    rw [digAt_succ, digAt_succ, ih]
    congr 2
    rw [pow_succ', Nat.div_div_eq_div_mul]

theorem digAt_valid (S : ℕ) (hS : 0 < S) (n d N : ℕ) : ValidIndex (List.replicate N S) (digAt S n d N) := by
  induction N generalizing d with
  | zero => exact List.Forall₂.nil
  | succ N ih =>
    rw [digAt_succ, List.replicate_succ]
    exact List.Forall₂.cons (Nat.mod_lt _ hS) (ih _)

theorem valRev_digAt (S n N : ℕ) (hn : n < S ^ N) : valRev S (digAt S n 0 N) = n := by
  induction N generalizing n with
  | zero => simp at hn; simp [digAt, valRev, hn]
  | succ N ih =>
    rw [digAt_succ, digAt_shift, valRev, ih]
    · simp only [pow_zero, Nat.div_one]
      exact Nat.mod_add_div n S
    · rw [pow_succ] at hn
      exact Nat.div_lt_of_lt_mul (by rwa [Nat.mul_comm])

theorem digAt_valRev (S : ℕ) (N : ℕ) (rel : List ℕ) (h : ValidIndex (List.replicate N S) rel) :
    valRev S rel < S ^ N ∧ digAt S (valRev S rel) 0 N = rel := by
  induction N generalizing rel with
  | zero =>
    cases h
    simp [valRev, digAt]
  | succ N ih =>
    rw [List.replicate_succ] at h
    cases h with
    | cons hd ht =>
      obtain ⟨h1, h2⟩ := ih _ ht
      rename_i a as
      have hS : 0 < S := by omega
      refine ⟨?_, ?_⟩
      · rw [valRev, pow_succ]
        calc a + S * valRev S as < S + S * valRev S as := by omega
          _ = (valRev S as + 1) * S := by ring
          _ ≤ S ^ N * S := Nat.mul_le_mul_right _ h1
      · rw [digAt_succ, digAt_shift, valRev]
        simp only [pow_zero, Nat.div_one]
        rw [Nat.add_mul_mod_self_left, Nat.mod_eq_of_lt hd, Nat.add_mul_div_left _ _ hS, Nat.div_eq_of_lt hd, Nat.zero_add, h2]

theorem digits_perm (S : ℕ) (hS : 0 < S) (N : ℕ) :
    ((List.range (S ^ N)).map fun n => digAt S n 0 N).Perm (ndindex (List.replicate N S)) := by
  refine (List.perm_ext_iff_of_nodup ?_ (ndindex_nodup _)).2 ?_
  · refine List.Nodup.map_on ?_ List.nodup_range
    intro a ha b hb h
    rw [← valRev_digAt S a N (List.mem_range.1 ha), h, valRev_digAt S b N (List.mem_range.1 hb)]
  · intro rel
    rw [mem_ndindex, List.mem_map]
    constructor
    · rintro ⟨n, -, rfl⟩
      exact digAt_valid S hS n 0 N
    · intro h
      obtain ⟨h1, h2⟩ := digAt_valRev S N rel h
      exact ⟨_, List.mem_range.2 h1, h2⟩

/-! ### chunks -/

theorem chunkLoop_eq {σ α : Type*} (chunksize : ℕ) (hc : 0 < chunksize) (body : σ → List α → σ × Bool) (f : σ → List α → σ)
    (hnil : ∀ s, f s [] = s) (happ : ∀ s a b, f s (a ++ b) = f (f s a) b) :
    ∀ (fuel : ℕ) (ps : List α) (s : σ), ps.length ≤ fuel → (∀ s c, (∀ p ∈ c, p ∈ ps) → body s c = (f s c, false)) →
      chunkLoop chunksize body fuel s ps = (f s ps, false) := by
  intro fuel
  induction fuel with
  | zero =>
    intro ps s h _
    have : ps = [] := List.length_eq_zero_iff.1 (by omega)
    subst this
    simp [chunkLoop, hnil]
  | succ fuel ih =>
    intro ps s h hb
    rw [chunkLoop]
    by_cases he : ps = []
    · simp [he, hnil]
    · rw [if_neg he]
      have hbody := hb s (ps.take chunksize) (fun p hp => List.mem_of_mem_take hp)
      simp only [hbody, Bool.false_eq_true, if_false]
      rw [ih]
      · rw [← happ, List.take_append_drop]
      · have := List.length_pos_of_ne_nil he
        rw [List.length_drop]
        omega
      · intro s c hc'
        exact hb s c fun p hp => List.mem_of_mem_drop (hc' p hp)

section
variable {K : Type*} [Field K] [LinearOrder K] [IsStrictOrderedRing K] [FloorRing K]

/-! ### scattering to the neighbours -/

theorem scatter_eq (point : ℕ → Option (ℤ × K)) (nmax : ℕ) (w : K) (s : (ℤ → K) × ℕ) :
    (∀ a, (scatter point nmax w s).1 a = s.1 a + (((List.range nmax).filterMap point).map fun q => if q.1 = a then w * q.2 else 0).sum) ∧
    (scatter point nmax w s).2 = s.2 + (List.range nmax).countP fun n => (point n).isNone := by
  unfold scatter
  generalize List.range nmax = l
  induction l generalizing s with
  | nil => simp
  | cons n l ih =>
    simp only [List.foldl_cons]
    cases hp : point n with
    | none =>
      obtain ⟨h1, h2⟩ := ih (s.1, s.2 + 1)
      constructor
      · intro a
        rw [h1 a, List.filterMap_cons_none hp]
      · rw [h2, List.countP_cons]
        simp [hp]; ring
    | some q =>
      obtain ⟨ind, kernel⟩ := q
      obtain ⟨h1, h2⟩ := ih (flatAdd s.1 ind (w * kernel), s.2)
      constructor
      · intro a
        rw [h1 a, List.filterMap_cons_some hp]
        simp only [List.map_cons, List.sum_cons, flatAdd]
        by_cases h : ind = a
        · subst h; simp; ring
        · rw [Function.update_of_ne (Ne.symm h), if_neg h]; ring
      · rw [h2, List.countP_cons]
        simp [hp]

/-- The axes of a C-contiguous array, with no transform. -/
def flatAxes : List ℕ → List ℕ → List (PAxis K)
  | n :: shape, p :: period => ⟨0, 1, 0, p, n, (shape.prod : ℕ)⟩ :: flatAxes shape period
  | _, _ => []

theorem flatAxes_length (shape period : List ℕ) (h : period.length = shape.length) : (flatAxes shape period : List (PAxis K)).length = shape.length := by
  induction shape generalizing period with
  | nil => rfl
  | cons n shape ih =>
    cases period with
    | nil => simp at h
    | cons p period => simp [flatAxes, ih period (by simpa using h)]

theorem flatAxes_shape (shape period : List ℕ) (h : period.length = shape.length) : shapeOf (flatAxes shape period : List (PAxis K)) = shape := by
  induction shape generalizing period with
  | nil => rfl
  | cons n shape ih =>
    cases period with
    | nil => simp at h
    | cons p period =>
      have := ih period (by simpa using h)
      simp only [shapeOf] at this
      simp [flatAxes, shapeOf, this]

theorem flatAxes_addr (shape period : List ℕ) (h : period.length = shape.length) (c : List ℕ) :
    elemAddr (flatAxes shape period : List (PAxis K)) c = (cOrder shape c : ℕ) := by
  induction shape generalizing period c with
  | nil => simp [flatAxes, elemAddr, cOrder]
  | cons n shape ih =>
    cases period with
    | nil => simp at h
    | cons p period =>
      cases c with
      | nil => simp [flatAxes, elemAddr, cOrder]
      | cons i c =>
        rw [flatAxes, elemAddr, ih period (by simpa using h), cOrder]
        push_cast
        ring

/-- The stencil of one axis of the old cic. -/
def oldCicSt (per : ℕ) (x : K) : List (ℤ × K) :=
  [(genWrap per ⌊x⌋, 1 - (x - ⌊x⌋)), (genWrap per (⌊x⌋ + 1), x - ⌊x⌋)]

theorem shift_and_one (n d : ℕ) : (n >>> d) &&& 1 = n / 2 ^ d % 2 := by
  rw [Nat.and_one_is_mod, Nat.shiftRight_eq_div_pow]

theorem cicPoint_eq (n : ℕ) : ∀ (shape period : List ℕ) (pos : List K) (d : ℕ) (ind : ℤ) (kernel : K),
    period.length = shape.length → pos.length = shape.length →
    cicPoint n d shape period pos ind kernel =
      (stencilPt (flatAxes shape period) (List.zipWith oldCicSt period pos) (digAt 2 n d shape.length)).map fun q =>
        (ind * (shape.prod : ℕ) + q.1, kernel * q.2) := by
  intro shape
  induction shape with
  | nil =>
    intro period pos d ind kernel h1 h2
    simp [cicPoint, flatAxes, stencilPt, digAt]
  | cons size shape ih =>
    intro period pos d ind kernel h1 h2
    match period, pos, h1, h2 with
    | per :: period, x :: pos, h1, h2 =>
      have h1' : period.length = shape.length := by simpa using h1
      have h2' : pos.length = shape.length := by simpa using h2
      rw [List.length_cons, digAt_succ, flatAxes, List.zipWith_cons_cons]
      simp only [cicPoint, stencilPt, shift_and_one]
      have hr : n / 2 ^ d % 2 = 0 ∨ n / 2 ^ d % 2 = 1 := by omega
      have hw : ∀ t : ℤ, (if per > 0 then wrapLoop t per else t) = genWrap per t := fun t => rfl
      simp only [hw]
      have fin : ∀ (t : ℤ) (v : K), (if t < 0 ∨ t ≥ size then none else cicPoint n (d + 1) shape period pos (ind * size + t) (kernel * v)) =
          Option.map (fun q => (ind * ((size :: shape).prod : ℕ) + q.1, kernel * q.2))
            (if 0 ≤ t ∧ t < (size : ℤ) then (stencilPt (flatAxes shape period) (List.zipWith oldCicSt period pos) (digAt 2 n (d + 1) shape.length)).map
              fun q => (t * (shape.prod : ℕ) + q.1, v * q.2) else none) := by
        intro t v
        by_cases hb : 0 ≤ t ∧ t < (size : ℤ)
        · rw [if_pos hb, if_neg (by omega), ih period pos (d + 1) _ _ h1' h2', Option.map_map]
          congr 1
          funext q
          simp only [Function.comp, Prod.mk.injEq, List.prod_cons]
          push_cast
          constructor <;> ring
        · rw [if_neg hb, if_pos (by omega)]
          rfl
      rcases hr with hr | hr
      · simp only [hr, oldCicSt, List.getD_cons_zero, gt_iff_lt, lt_irrefl, if_false, Nat.cast_zero, add_zero]
        exact fin _ _
      · simp only [hr, oldCicSt, List.getD_cons_succ, List.getD_cons_zero, gt_iff_lt, zero_lt_one, if_true, Nat.cast_one]
        exact fin _ _

theorem cicPoints_perm (shape period : List ℕ) (pos : List K) (h1 : period.length = shape.length) (h2 : pos.length = shape.length) :
    ((List.range (2 ^ pos.length)).filterMap fun n => cicPoint n 0 shape period pos 0 1).Perm
      (stencilOps (flatAxes shape period) (List.zipWith oldCicSt period pos)) := by
  have hfl := flatAxes_length (K := K) shape period h1
  rw [← filterMap_stencilPt 2 _ _ (by simp [h1, h2, hfl]) (by
    intro st hst
    obtain ⟨i, hi, rfl⟩ := List.getElem_of_mem hst
    simp [oldCicSt]), hfl, h2]
  have := (digits_perm 2 (by omega) shape.length).filterMap (stencilPt (flatAxes shape period : List (PAxis K)) (List.zipWith oldCicSt period pos))
  rw [List.filterMap_map] at this
  refine List.Perm.trans (List.Perm.of_eq ?_) this
  apply List.filterMap_congr
  intro n _
  rw [cicPoint_eq n shape period pos 0 0 1 h1 h2]
  simp only [Function.comp]
  cases stencilPt (flatAxes shape period : List (PAxis K)) (List.zipWith oldCicSt period pos) (digAt 2 n 0 shape.length) <;> simp

/-- What a particle of unit weight adds to the elements of the array. -/
def stDeposit (shape : List ℕ) (sts : List (List (ℤ × K))) (a : ℤ) : K :=
  ((ndindex shape).map fun c => cwProd sts c * (if ((cOrder shape c : ℕ) : ℤ) = a then 1 else 0)).sum

theorem sum_points (shape period : List ℕ) (h1 : period.length = shape.length) (sts : List (List (ℤ × K))) (hs : sts.length = shape.length)
    (l : List (ℤ × K)) (hl : l.Perm (stencilOps (flatAxes shape period) sts)) (f : ℤ → K) :
    (l.map fun p => p.2 * f p.1).sum = ((ndindex shape).map fun c => cwProd sts c * f (cOrder shape c : ℕ)).sum := by
  rw [(hl.map _).sum_eq, sum_stencilOps _ _ (by rw [hs, flatAxes_length shape period h1]), flatAxes_shape shape period h1]
  congr 1
  apply List.map_congr_left
  intro c _
  rw [flatAxes_addr shape period h1]

theorem scatter_deposit (shape period : List ℕ) (h1 : period.length = shape.length) (sts : List (List (ℤ × K))) (hs : sts.length = shape.length)
    (point : ℕ → Option (ℤ × K)) (nmax : ℕ) (hl : ((List.range nmax).filterMap point).Perm (stencilOps (flatAxes shape period) sts)) (w : K)
    (s : (ℤ → K) × ℕ) (a : ℤ) : (scatter point nmax w s).1 a = s.1 a + w * stDeposit shape sts a := by
  rw [(scatter_eq point nmax w s).1 a, stDeposit,
    ← sum_points shape period h1 sts hs _ hl (fun b => if b = a then 1 else 0), ← sum_mul_left']
  congr 2
  apply List.map_congr_left
  intro q _
  split <;> simp

theorem cicPaintSome_append (shape period : List ℕ) (flat : ℤ → K) (a b : List (OldPart K)) :
    (cicPaintSome shape period flat (a ++ b)).1 = (cicPaintSome shape period (cicPaintSome shape period flat a).1 b).1 := by
  unfold cicPaintSome
  rw [List.foldl_append]
  -- the counter does not matter
  generalize List.foldl _ (flat, 0) a = s
  have : ∀ (l : List (OldPart K)) (s s' : (ℤ → K) × ℕ), s.1 = s'.1 →
      (l.foldl (fun s p => scatter (fun n => cicPoint n 0 shape period p.pos 0 1) (2 ^ p.pos.length) p.w s) s).1 =
      (l.foldl (fun s p => scatter (fun n => cicPoint n 0 shape period p.pos 0 1) (2 ^ p.pos.length) p.w s) s').1 := by
    intro l
    induction l with
    | nil => intro s s' h; exact h
    | cons p l ih =>
      intro s s' h
      simp only [List.foldl_cons]
      apply ih
      funext x
      rw [(scatter_eq _ _ _ s).1 x, (scatter_eq _ _ _ s').1 x, h]
  exact this b _ _ rfl

theorem cicPaintSome_flat (shape period : List ℕ) (h1 : period.length = shape.length) (ps : List (OldPart K))
    (h2 : ∀ p ∈ ps, p.pos.length = shape.length) (flat : ℤ → K) (a : ℤ) :
    (cicPaintSome shape period flat ps).1 a = flat a + (ps.map fun p => p.w * stDeposit shape (List.zipWith oldCicSt period p.pos) a).sum := by
  have key : ∀ (ps : List (OldPart K)), (∀ p ∈ ps, p.pos.length = shape.length) → ∀ s : (ℤ → K) × ℕ,
      (ps.foldl (fun s p => scatter (fun n => cicPoint n 0 shape period p.pos 0 1) (2 ^ p.pos.length) p.w s) s).1 a =
        s.1 a + (ps.map fun p => p.w * stDeposit shape (List.zipWith oldCicSt period p.pos) a).sum := by
    intro ps
    induction ps with
    | nil => intro _ s; simp
    | cons p ps ih =>
      intro h2 s
      have h2' := h2 p (by simp)
      simp only [List.foldl_cons, List.map_cons, List.sum_cons]
      rw [ih (fun q hq => h2 q (by simp [hq])), scatter_deposit shape period h1 _ (by simp [h1, h2']) _ _ (cicPoints_perm shape period p.pos h1 h2')]
      ring
  exact key ps h2 (flat, 0)

/-! ### loops that did not raise -/

theorem chunkLoop_ok {σ α : Type*} (chunksize : ℕ) (hc : 0 < chunksize) (body : σ → List α → σ × Bool) (f : σ → List α → σ)
    (hnil : ∀ s, f s [] = s) (happ : ∀ s a b, f s (a ++ b) = f (f s a) b) (hb : ∀ s c, (body s c).1 = f s c) :
    ∀ (fuel : ℕ) (ps : List α) (s : σ), ps.length ≤ fuel → (chunkLoop chunksize body fuel s ps).2 = false →
      (chunkLoop chunksize body fuel s ps).1 = f s ps := by
  intro fuel
  induction fuel with
  | zero =>
    intro ps s h _
    have : ps = [] := List.length_eq_zero_iff.1 (by omega)
    subst this
    simp [chunkLoop, hnil]
  | succ fuel ih =>
    intro ps s h h2
    rw [chunkLoop] at h2 ⊢
    by_cases he : ps = []
    · simp [he, hnil]
    · rw [if_neg he] at h2 ⊢
      simp only at h2 ⊢
      by_cases hr : (body s (ps.take chunksize)).2 = true
      · rw [if_pos hr] at h2
        rw [hr] at h2
        exact absurd h2 (by simp)
      · rw [if_neg hr] at h2 ⊢
        have := List.length_pos_of_ne_nil he
        rw [ih _ _ (by rw [List.length_drop]; omega) h2, hb, ← happ, List.take_append_drop]

theorem chunkLoop_total {σ α : Type*} (chunksize : ℕ) (body : σ → List α → σ × Bool) :
    ∀ (fuel : ℕ) (ps : List α) (s : σ), (∀ s c, (∀ p ∈ c, p ∈ ps) → (body s c).2 = false) → (chunkLoop chunksize body fuel s ps).2 = false := by
  intro fuel
  induction fuel with
  | zero => intro ps s _; rfl
  | succ fuel ih =>
    intro ps s hb
    rw [chunkLoop]
    by_cases he : ps = []
    · simp [he]
    · rw [if_neg he]
      simp only
      rw [if_neg (by rw [hb _ _ (fun p hp => List.mem_of_mem_take hp)]; simp)]
      exact ih _ _ fun s c hc => hb s c fun p hp => List.mem_of_mem_drop (hc p hp)

/-- No neighbour of the particle is outside. -/
def AllIn (shape period : List ℕ) (pos : List K) : Prop := ∀ n, (cicPoint n 0 shape period pos 0 1).isSome

theorem cicPaintSome_count (shape period : List ℕ) (ps : List (OldPart K)) (h : ∀ p ∈ ps, AllIn shape period p.pos) (flat : ℤ → K) :
    (cicPaintSome shape period flat ps).2 = 0 := by
  have key : ∀ (ps : List (OldPart K)), (∀ p ∈ ps, AllIn shape period p.pos) → ∀ s : (ℤ → K) × ℕ,
      (ps.foldl (fun s p => scatter (fun n => cicPoint n 0 shape period p.pos 0 1) (2 ^ p.pos.length) p.w s) s).2 = s.2 := by
    intro ps
    induction ps with
    | nil => intro _ s; rfl
    | cons p ps ih =>
      intro h s
      simp only [List.foldl_cons]
      rw [ih (fun q hq => h q (by simp [hq])), (scatter_eq _ _ _ s).2]
      rw [List.countP_eq_zero.2]
      · rfl
      · intro n _
        have := h p (by simp) n
        cases hc : cicPoint n 0 shape period p.pos 0 1 <;> simp_all
  exact key ps h (flat, 0)

/-! ### readout -/

/-- The value that a stencil reads. -/
def stRead (shape : List ℕ) (sts : List (List (ℤ × K))) (flat : ℤ → K) : K :=
  ((ndindex shape).map fun c => cwProd sts c * flat (cOrder shape c : ℕ)).sum

theorem cicReadPart_eq (shape period : List ℕ) (h1 : period.length = shape.length) (flat : ℤ → K) (pos : List K) (h2 : pos.length = shape.length) :
    (cicReadPart shape period flat pos).1 = stRead shape (List.zipWith oldCicSt period pos) flat := by
  have key : ∀ (l : List ℕ) (s : K × ℕ), (l.foldl (fun s n =>
      match cicPoint n 0 shape period pos 0 1 with
      | none => (s.1, s.2 + 1)
      | some (ind, kernel) => (s.1 + flat ind * kernel, s.2)) s).1 =
      s.1 + ((l.filterMap fun n => cicPoint n 0 shape period pos 0 1).map fun q => q.2 * flat q.1).sum := by
    intro l
    induction l with
    | nil => intro s; simp
    | cons n l ih =>
      intro s
      simp only [List.foldl_cons]
      rw [ih]
      cases hp : cicPoint n 0 shape period pos 0 1 with
      | none => simp only [List.filterMap_cons, hp]
      | some q =>
        simp only [List.filterMap_cons, hp, List.map_cons, List.sum_cons]
        ring
  unfold cicReadPart
  refine (key _ _).trans ?_
  rw [sum_points shape period h1 _ (by simp [h1, h2]) _ (cicPoints_perm shape period pos h1 h2)]
  simp [stRead]

theorem cicReadPart_count (shape period : List ℕ) (flat : ℤ → K) (pos : List K) (h : AllIn shape period pos) :
    (cicReadPart shape period flat pos).2 = 0 := by
  have key : ∀ (l : List ℕ) (s : K × ℕ), (l.foldl (fun s n =>
      match cicPoint n 0 shape period pos 0 1 with
      | none => (s.1, s.2 + 1)
      | some (ind, kernel) => (s.1 + flat ind * kernel, s.2)) s).2 = s.2 := by
    intro l
    induction l with
    | nil => intro s; rfl
    | cons n l ih =>
      intro s
      simp only [List.foldl_cons]
      rw [ih]
      have := h n
      cases hp : cicPoint n 0 shape period pos 0 1 with
      | none => rw [hp] at this; simp at this
      | some q => rfl
  exact key _ _

theorem allIn_of_full (shape : List ℕ) (hpos : ∀ n ∈ shape, 0 < n) (pos : List K) (h : pos.length = shape.length) : AllIn shape shape pos := by
  intro n
  have key : ∀ (shape : List ℕ), (∀ n ∈ shape, 0 < n) → ∀ (pos : List K) (d : ℕ) (ind : ℤ) (kernel : K), pos.length = shape.length →
      (cicPoint n d shape shape pos ind kernel).isSome := by
    intro shape
    induction shape with
    | nil => intro _ pos d ind kernel _; simp [cicPoint]
    | cons m shape ih =>
      intro hpos pos d ind kernel h
      match pos, h with
      | x :: pos, h =>
        have hm := hpos m (by simp)
        simp only [cicPoint]
        have := genWrap_range m hm (⌊x⌋ + ((n >>> d &&& 1 : ℕ) : ℤ))
        have hw : (if m > 0 then wrapLoop (⌊x⌋ + ((n >>> d &&& 1 : ℕ) : ℤ)) m else ⌊x⌋ + ((n >>> d &&& 1 : ℕ) : ℤ)) =
          genWrap m (⌊x⌋ + ((n >>> d &&& 1 : ℕ) : ℤ)) := rfl
        rw [hw, if_neg (by omega)]
        exact ih (fun k hk => hpos k (by simp [hk])) pos _ _ _ (by simpa using h)
  exact key shape hpos pos 0 0 1 h

/-! ### the numpy version -/

theorem cicNeighbour_eq (N i : ℕ) : cicNeighbour N i = digAt 2 i 0 N := by
  simp only [cicNeighbour, digAt, List.range_eq_range', shift_and_one]

theorem horner_acc (l : List (ℤ × ℕ)) (acc : ℤ) :
    l.foldl (fun (ind : ℤ) p => ind * p.2 + p.1) acc = acc * ((l.map (·.2)).prod : ℕ) + l.foldl (fun (ind : ℤ) p => ind * p.2 + p.1) 0 := by
  induction l generalizing acc with
  | nil => simp
  | cons p l ih =>
    simp only [List.foldl_cons, List.map_cons, List.prod_cons]
    rw [ih (acc * p.2 + p.1), ih (0 * p.2 + p.1)]
    push_cast
    ring

theorem pyRavel_cons (n : ℕ) (shape : List ℕ) (t : ℤ) (ts : List ℤ) (h : ts.length = shape.length) :
    pyRavel (n :: shape) (t :: ts) = if 0 ≤ t ∧ t < (n : ℤ) then (pyRavel shape ts).map fun q => t * (shape.prod : ℕ) + q else none := by
  have hin : pyInside (n :: shape) (t :: ts) = (decide (0 ≤ t ∧ t < (n : ℤ)) && pyInside shape ts) := by
    simp only [pyInside, List.all_cons, List.zipWith_cons_cons, id]
    rw [Bool.eq_iff_iff]
    simp only [Bool.and_eq_true, decide_eq_true_eq]
    tauto
  simp only [pyRavel, hin]
  by_cases hb : 0 ≤ t ∧ t < (n : ℤ)
  · rw [if_pos hb]
    simp only [hb, and_self, decide_true, Bool.true_and]
    split
    · simp only [Option.map_some, List.zipWith_cons_cons, List.foldl_cons]
      rw [horner_acc]
      congr 2
      simp only [zero_mul, zero_add]
      congr 2
      rw [List.map_zipWith]
      have : ∀ (shape : List ℕ) (ts : List ℤ), ts.length = shape.length → (List.zipWith (fun (_ : ℤ) (n : ℕ) => n) ts shape) = shape := by
        intro shape
        induction shape with
        | nil => intro ts _; simp
        | cons a s ih =>
          intro ts h
          cases ts with
          | nil => simp at h
          | cons b ts => simp [ih ts (by simpa using h)]
      rw [this shape ts h]
    · rfl
  · rw [if_neg hb]
    simp only [hb, decide_false, Bool.false_and, Bool.false_eq_true, if_false]

theorem pyWrap_eq (shape : List ℕ) (period : Option (List ℕ)) (hper : ∀ p, period = some p → (∀ n ∈ p, 0 < n) ∧ p.length = shape.length)
    (t : List ℤ) (ht : t.length = shape.length) :
    pyWrap period t = List.zipWith (fun (p : ℕ) t => genWrap p t) (cicPeriod shape.length period) t := by
  cases period with
  | none =>
    simp only [pyWrap, cicPeriod]
    rw [← ht]
    clear ht
    induction t with
    | nil => rfl
    | cons a t ih =>
      simp only [List.length_cons, List.replicate_succ, List.zipWith_cons_cons]
      rw [← ih]
      rfl
  | some p =>
    obtain ⟨h1, h2⟩ := hper p rfl
    simp only [pyWrap, cicPeriod]
    rw [← ht] at h2
    clear ht hper
    induction p generalizing t with
    | nil => cases t with
      | nil => rfl
      | cons a t => simp at h2
    | cons n p ih =>
      cases t with
      | nil => simp at h2
      | cons a t =>
        simp only [List.zipWith_cons_cons]
        rw [ih t (fun k hk => h1 k (by simp [hk])) (by simpa using h2)]
        have hn := h1 n (by simp)
        congr 1
        rw [npRemainder, if_neg (by omega), genWrap, if_pos hn, wrapLoop_eq (by omega)]

theorem pyPoint_eq : ∀ (shape period : List ℕ) (pos : List K) (nb : List ℕ), period.length = shape.length → pos.length = shape.length →
    ValidIndex (List.replicate shape.length 2) nb →
    ((pyRavel shape (List.zipWith (fun (p : ℕ) t => genWrap p t) period (pyTarget pos nb))).map fun ind => (ind, pyKernel pos (pyTarget pos nb))) =
      stencilPt (flatAxes shape period) (List.zipWith oldCicSt period pos) nb := by
  intro shape
  induction shape with
  | nil =>
    intro period pos nb h1 h2 hv
    have e1 : period = [] := List.length_eq_zero_iff.1 (by simpa using h1)
    have e2 : pos = [] := List.length_eq_zero_iff.1 (by simpa using h2)
    subst e1 e2
    cases hv
    simp [pyTarget, pyKernel, pyRavel, pyInside, stencilPt]
  | cons n shape ih =>
    intro period pos nb h1 h2 hv
    match period, pos, h1, h2 with
    | per :: period, x :: pos, h1, h2 =>
      rw [List.length_cons, List.replicate_succ] at hv
      cases hv with
      | cons hr hrs =>
        rename_i r rs
        have h1' : period.length = shape.length := by simpa using h1
        have h2' : pos.length = shape.length := by simpa using h2
        have hrl : rs.length = shape.length := by
          have := hrs.length_eq
          simpa using this.symm
        have hih := ih period pos rs h1' h2' hrs
        have htl : (List.zipWith (fun (p : ℕ) t => genWrap p t) period (pyTarget pos rs)).length = shape.length := by
          simp [pyTarget, h1', h2', hrl]
        simp only [pyTarget, pyKernel, List.zipWith_cons_cons, List.prod_cons, flatAxes, stencilPt] at hih htl ⊢
        rw [pyRavel_cons _ _ _ _ htl, ← hih]
        have hx0 := Int.floor_le x
        have hx1 := Int.lt_floor_add_one x
        have hst : (oldCicSt per x).getD r (0, 0) = (genWrap per (⌊x⌋ + (r : ℤ)), 1 - |x - ((⌊x⌋ + (r : ℤ) : ℤ) : K)|) := by
          have : r = 0 ∨ r = 1 := by omega
          rcases this with rfl | rfl
          · simp only [oldCicSt, List.getD_cons_zero, Nat.cast_zero, add_zero]
            rw [abs_of_nonneg (by linarith)]
          · simp only [oldCicSt, List.getD_cons_succ, List.getD_cons_zero, Nat.cast_one, Prod.mk.injEq, true_and]
            push_cast
            rw [abs_of_nonpos (by linarith)]
            ring
        rw [hst]
        simp only
        split
        · rw [Option.map_map, Option.map_map]
          rfl
        · rfl

theorem uniqueAdd_eq (flat : ℤ → K) (ia : List (ℤ × K)) (a : ℤ) :
    uniqueAdd flat ia a = flat a + (ia.map fun p => if p.1 = a then p.2 else 0).sum := by
  have key : ∀ (l : List ℤ), l.Nodup → ∀ m : ℤ → K, (l.foldl (fun m u => Function.update m u (flat u + ((ia.filter fun p => p.1 = u).map (·.2)).sum)) m) a =
      if a ∈ l then flat a + ((ia.filter fun p => p.1 = a).map (·.2)).sum else m a := by
    intro l
    induction l with
    | nil => intro _ m; simp
    | cons u l ih =>
      intro hnd m
      rw [List.nodup_cons] at hnd
      simp only [List.foldl_cons]
      rw [ih hnd.2]
      by_cases h : a ∈ l
      · simp [h]
      · by_cases e : a = u
        · subst e; simp [h]
        · simp [h, e]
  unfold uniqueAdd
  rw [key _ (List.nodup_dedup _)]
  have hsum : ((ia.filter fun p => p.1 = a).map (·.2)).sum = (ia.map fun p => if p.1 = a then p.2 else 0).sum := by
    clear key
    induction ia with
    | nil => rfl
    | cons p ia ih =>
      simp only [List.filter_cons, List.map_cons, List.sum_cons]
      split <;> simp_all
  rw [hsum]
  split
  · rfl
  · next h =>
    have : (ia.map fun p => if p.1 = a then p.2 else 0).sum = 0 := by
      apply List.sum_eq_zero
      intro y hy
      obtain ⟨p, hp, rfl⟩ := List.mem_map.1 hy
      rw [if_neg]
      rintro rfl
      exact h (List.mem_dedup.2 (List.mem_map.2 ⟨p, hp, rfl⟩))
    rw [this, add_zero]

end
end Pmesh
