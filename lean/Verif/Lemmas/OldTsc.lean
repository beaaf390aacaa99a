import Verif.Lemmas.OldCicNumpy

set_option linter.unusedSectionVars false

namespace Pmesh
section
variable {K : Type*} [Field K] [LinearOrder K] [IsStrictOrderedRing K] [FloorRing K]

/-- The stencil of one axis of the old tsc. -/
def oldTscSt (per : ℕ) (x : K) : List (ℤ × K) :=
  [(genWrap per (rint x - 2), 1 / 2 * (1 / 2 + ((rint x : K) - x)) * (1 / 2 + ((rint x : K) - x))),
   (genWrap per (rint x - 1), 3 / 4 - ((rint x : K) - x) * ((rint x : K) - x)),
   (genWrap per (rint x), 1 / 2 * (1 / 2 - ((rint x : K) - x)) * (1 / 2 - ((rint x : K) - x)))]

theorem tscPoint_eq (n period : ℕ) : ∀ (shape : List ℕ) (pos : List K) (d : ℕ) (ind : ℤ) (kernel : K), pos.length = shape.length →
    tscPoint n period d shape (tscStrides shape) pos ind kernel =
      (stencilPt (flatAxes shape (List.replicate shape.length period)) (pos.map (oldTscSt period)) (digAt 3 n d shape.length)).map fun q =>
        (ind + q.1, kernel * q.2) := by
  intro shape
  induction shape with
  | nil =>
    intro pos d ind kernel h
    simp [tscPoint, flatAxes, stencilPt, digAt]
  | cons size shape ih =>
    intro pos d ind kernel h
    match pos, h with
    | x :: pos, h =>
      have h' : pos.length = shape.length := by simpa using h
      rw [List.length_cons, digAt_succ, List.replicate_succ, flatAxes, List.map_cons]
      simp only [tscPoint, stencilPt, tscStrides]
      have hw : ∀ t : ℤ, (if period > 0 then wrapLoop t period else t) = genWrap period t := fun t => rfl
      simp only [hw]
      have fin : ∀ (t : ℤ) (v : K), (if t < 0 ∨ t ≥ size then none
          else tscPoint n period (d + 1) shape (tscStrides shape) pos (ind + (shape.prod : ℕ) * t) (kernel * v)) =
          Option.map (fun q => (ind + q.1, kernel * q.2))
            (if 0 ≤ t ∧ t < (size : ℤ) then (stencilPt (flatAxes shape (List.replicate shape.length period)) (pos.map (oldTscSt period))
              (digAt 3 n (d + 1) shape.length)).map fun q => (t * (shape.prod : ℕ) + q.1, v * q.2) else none) := by
        intro t v
        by_cases hb : 0 ≤ t ∧ t < (size : ℤ)
        · rw [if_pos hb, if_neg (by omega), ih pos (d + 1) _ _ h', Option.map_map]
          congr 1
          funext q
          simp only [Function.comp, Prod.mk.injEq]
          constructor <;> ring
        · rw [if_neg hb, if_pos (by omega)]
          rfl
      have hr : n / 3 ^ d % 3 = 0 ∨ n / 3 ^ d % 3 = 1 ∨ n / 3 ^ d % 3 = 2 := by omega
      rcases hr with hr | hr | hr
      · simp only [hr, oldTscSt, List.getD_cons_zero]
        have e : rint x + (((0 : ℕ) : ℤ) - 1) - 1 = rint x - 2 := by push_cast; ring
        rw [e, if_pos (show (((0 : ℕ) : ℤ) - 1 = -1) by norm_num)]
        exact fin _ _
      · simp only [hr, oldTscSt, List.getD_cons_succ, List.getD_cons_zero]
        have e : rint x + (((1 : ℕ) : ℤ) - 1) - 1 = rint x - 1 := by push_cast; ring
        rw [e, if_neg (show ¬ (((1 : ℕ) : ℤ) - 1 = -1) by norm_num), if_pos (show (((1 : ℕ) : ℤ) - 1 = 0) by norm_num)]
        exact fin _ _
      · simp only [hr, oldTscSt, List.getD_cons_succ, List.getD_cons_zero]
        have e : rint x + (((2 : ℕ) : ℤ) - 1) - 1 = rint x := by push_cast; ring
        rw [e, if_neg (show ¬ (((2 : ℕ) : ℤ) - 1 = -1) by norm_num), if_neg (show ¬ (((2 : ℕ) : ℤ) - 1 = 0) by norm_num)]
        exact fin _ _

theorem tscPoints_perm (shape : List ℕ) (period : ℕ) (pos : List K) (h2 : pos.length = shape.length) :
    ((List.range (3 ^ pos.length)).filterMap fun n => tscPoint n period 0 shape (tscStrides shape) pos 0 1).Perm
      (stencilOps (flatAxes shape (List.replicate shape.length period)) (pos.map (oldTscSt period))) := by
  have hfl := flatAxes_length (K := K) shape (List.replicate shape.length period) (by simp)
  rw [← filterMap_stencilPt 3 _ _ (by simp [h2, hfl]) (by
    intro st hst
    obtain ⟨x, -, rfl⟩ := List.mem_map.1 hst
    simp [oldTscSt]), hfl, h2]
  have := (digits_perm 3 (by omega) shape.length).filterMap
    (stencilPt (flatAxes shape (List.replicate shape.length period) : List (PAxis K)) (pos.map (oldTscSt period)))
  rw [List.filterMap_map] at this
  refine List.Perm.trans (List.Perm.of_eq ?_) this
  apply List.filterMap_congr
  intro n _
  rw [tscPoint_eq n period shape pos 0 0 1 h2]
  simp only [Function.comp]
  cases stencilPt (flatAxes shape (List.replicate shape.length period) : List (PAxis K)) (pos.map (oldTscSt period)) (digAt 3 n 0 shape.length) <;> simp

theorem tscPaintSome_append (shape : List ℕ) (period : ℕ) (flat : ℤ → K) (a b : List (OldPart K)) :
    (tscPaintSome shape period flat (a ++ b)).1 = (tscPaintSome shape period (tscPaintSome shape period flat a).1 b).1 := by
  unfold tscPaintSome
  rw [List.foldl_append]
  generalize List.foldl _ (flat, 0) a = s
  have : ∀ (l : List (OldPart K)) (s s' : (ℤ → K) × ℕ), s.1 = s'.1 →
      (l.foldl (fun s p => scatter (fun n => tscPoint n period 0 shape (tscStrides shape) p.pos 0 1) (3 ^ p.pos.length) p.w s) s).1 =
      (l.foldl (fun s p => scatter (fun n => tscPoint n period 0 shape (tscStrides shape) p.pos 0 1) (3 ^ p.pos.length) p.w s) s').1 := by
    intro l
    induction l with
    | nil => intro s s' h; exact h
    | cons p l ih =>
      intro s s' h
      simp only [List.foldl_cons]
      apply ih
      funext x
      rw [(scatter_eq _ _ _ s).1 x, (scatter_eq _ _ _ s').1 x, h]
  exact this b _ _ rfl

theorem tscPaintSome_flat (shape : List ℕ) (period : ℕ) (ps : List (OldPart K))
    (h2 : ∀ p ∈ ps, p.pos.length = shape.length) (flat : ℤ → K) (a : ℤ) :
    (tscPaintSome shape period flat ps).1 a = flat a + (ps.map fun p => p.w * stDeposit shape (p.pos.map (oldTscSt period)) a).sum := by
  have key : ∀ (ps : List (OldPart K)), (∀ p ∈ ps, p.pos.length = shape.length) → ∀ s : (ℤ → K) × ℕ,
      (ps.foldl (fun s p => scatter (fun n => tscPoint n period 0 shape (tscStrides shape) p.pos 0 1) (3 ^ p.pos.length) p.w s) s).1 a =
        s.1 a + (ps.map fun p => p.w * stDeposit shape (p.pos.map (oldTscSt period)) a).sum := by
    intro ps
    induction ps with
    | nil => intro _ s; simp
    | cons p ps ih =>
      intro h2 s
      have h2' := h2 p (by simp)
      simp only [List.foldl_cons, List.map_cons, List.sum_cons]
      rw [ih (fun q hq => h2 q (by simp [hq])), scatter_deposit shape (List.replicate shape.length period) (by simp) _ (by simp [h2']) _ _
        (tscPoints_perm shape period p.pos h2')]
      ring
  exact key ps h2 (flat, 0)

theorem rint_cases (y : K) : rint y = ⌊y + 1 / 2⌋ ∨ (y = ⌊y⌋ + 1 / 2 ∧ rint y = ⌊y⌋ ∧ ⌊y + 1 / 2⌋ = ⌊y⌋ + 1) := by
  have h0 := Int.floor_le y
  have h1 := Int.lt_floor_add_one y
  unfold rint
  by_cases c1 : y - ⌊y⌋ < 1 / 2
  · rw [if_pos c1]
    left
    symm
    rw [Int.floor_eq_iff]
    constructor <;> linarith
  · rw [if_neg c1]
    have e : ⌊y + 1 / 2⌋ = ⌊y⌋ + 1 := by
      rw [Int.floor_eq_iff]
      push_cast
      constructor <;> linarith
    by_cases c2 : 1 / 2 < y - ⌊y⌋
    · rw [if_pos c2, e]; left; rfl
    · rw [if_neg c2]
      split
      · right
        exact ⟨by linarith, rfl, e⟩
      · left; rw [e]

theorem cw_tsc (ax : PAxis K) (ho : ax.order = 0) (x : K) (c : ℤ) :
    cw (oldTscSt ax.period (ax.grid x + 1)) c = cw (tunedStencil .tsc ax x) c := by
  generalize hX : ax.grid x = X
  simp only [tunedStencil, tunedSetup, ho, if_true, List.map_cons, List.map_nil, tunedWrap_eq, hX, cw, oldTscSt, List.zip_cons_cons, List.zip_nil_right,
    List.sum_cons, List.sum_nil]
  have e1 : ⌊X + 1 + 1 / 2⌋ = ⌊X + 1 / 2⌋ + 1 := by
    rw [show X + 1 + 1 / 2 = (X + 1 / 2) + 1 by ring, Int.floor_add_one]
  rcases rint_cases (X + 1) with h | ⟨h1, h2, h3⟩
  · rw [e1] at h
    rw [h, show ⌊X + 1 / 2⌋ + 1 - 2 = ⌊X + 1 / 2⌋ - 1 by ring, show ⌊X + 1 / 2⌋ + 1 - 1 = ⌊X + 1 / 2⌋ by ring]
    push_cast
    congr 1
    · congr 1; ring
    · congr 1
      · congr 1; ring
      · congr 2; ring
  · -- a half-integer: the nearest grid point is rounded the other way, the far neighbour has weight 0
    have hf : ⌊X + 1⌋ = ⌊X⌋ + 1 := Int.floor_add_one X
    have hi : ⌊X + 1 / 2⌋ = ⌊X⌋ + 1 := by
      have := h3
      rw [e1, hf] at this
      omega
    rw [h2, hf, hi]
    have hx : X = (⌊X⌋ : K) + 1 / 2 := by
      rw [hf] at h1
      push_cast at h1
      linarith
    generalize ⌊X⌋ = f at hx
    subst hx
    rw [show f + 1 - 2 = f - 1 by ring, show f + 1 - 1 = f by ring]
    push_cast
    have z1 : 1 / 2 * (1 / 2 + ((f : K) + 1 - (f + 1 / 2 + 1))) * (1 / 2 + ((f : K) + 1 - (f + 1 / 2 + 1))) = 0 := by ring
    have z2 : (3 / 2 + ((f : K) + 1 / 2 - (f + 1 + 1))) * (3 / 2 + ((f : K) + 1 / 2 - (f + 1 + 1))) * (1 / 2) = 0 := by ring
    rw [z1, z2]
    simp only [ite_self, zero_add, add_zero]
    congr 1
    · congr 1; ring
    · congr 1; ring

theorem cwProd_tsc (period : ℕ) : ∀ (axes : List (PAxis K)), (∀ ax ∈ axes, ax.order = 0 ∧ ax.period = period) → ∀ (pos : List K) (c : List ℕ),
    pos.length = axes.length →
    cwProd ((List.zipWith (fun (ax : PAxis K) x => ax.grid x + 1) axes pos).map (oldTscSt period)) c =
      cwProd (List.zipWith (tunedStencil .tsc) axes pos) c := by
  intro axes
  induction axes with
  | nil => intro _ pos c _; rfl
  | cons ax axes ih =>
    intro ho pos c hl
    match pos, hl with
    | x :: pos, hl =>
      cases c with
      | nil => rfl
      | cons i c =>
        simp only [List.zipWith_cons_cons, List.map_cons, cwProd]
        rw [ih (fun a ha => ho a (by simp [ha])) pos c (by simpa using hl)]
        obtain ⟨h1, h2⟩ := ho ax (by simp)
        rw [← cw_tsc ax h1 x i, h2]

end
end Pmesh
