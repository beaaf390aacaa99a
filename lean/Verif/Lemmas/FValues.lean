import Verif.Lemmas.FPieces

/-!
# Rounding errors of the values of the windows
-/

set_option linter.unusedSectionVars false

namespace Pmesh

section
variable {K : Type*} [Field K] [LinearOrder K] [IsStrictOrderedRing K] [FloorRing K]

/-- `a` is `a'` up to `k` units of rounding, and `a'` is not larger than `M`. -/
structure Near (ε k M a a' : K) : Prop where
  err : |a - a'| ≤ k * ε
  size : |a'| ≤ M
  nonneg : 0 ≤ k

theorem Near.pos {ε k M a a' : K} (h : Near ε k M a a') : 0 ≤ M := (abs_nonneg _).trans h.size

theorem Near.const {ε a M : K} (h : |a| ≤ M) : Near ε 0 M a a := ⟨by simp, h, le_refl _⟩

theorem Near.mono {ε k k' M a a' : K} (hε : 0 ≤ ε) (h : Near ε k M a a') (hk : k ≤ k') : Near ε k' M a a' :=
  ⟨h.err.trans (mul_le_mul_of_nonneg_right hk hε), h.size, h.nonneg.trans hk⟩

theorem Near.bound {ε k M M' a a' : K} (h : Near ε k M a a') (hM : |a'| ≤ M') : Near ε k M' a a' := ⟨h.err, hM, h.nonneg⟩

theorem Near.rnd {R : Rounding K} {ε : K} (hR : RelativeError R ε) (hε : 0 ≤ ε) (hε1 : ε ≤ 1 / 64) {k M a a' : K} (h : Near ε k M a a') :
    Near ε (k + M + k / 64) M (R.rnd a) a' := by
  have hM := h.pos
  have hk := h.nonneg
  refine ⟨?_, h.size, by positivity⟩
  have h1 := hR a
  have h2 : |a| ≤ M + k / 64 := by
    have h3 := abs_sub_abs_le_abs_sub a a'
    have h4 : k * ε ≤ k * (1 / 64) := mul_le_mul_of_nonneg_left hε1 hk
    have := h.err
    have := h.size
    linarith
  have h3 : |a| * ε ≤ (M + k / 64) * ε := mul_le_mul_of_nonneg_right h2 hε
  have := abs_sub_le (R.rnd a) a a'
  have := h.err
  calc |R.rnd a - a'| ≤ (M + k / 64) * ε + k * ε := by linarith
    _ = _ := by ring

theorem Near.mul {ε : K} (hε : 0 ≤ ε) (hε1 : ε ≤ 1 / 64) {k M a a' l L b b' : K} (h : Near ε k M a a') (g : Near ε l L b b') :
    Near ε (k * L + l * M + k * l / 64) (M * L) (a * b) (a' * b') := by
  have hM := h.pos
  have hL := g.pos
  have hk := h.nonneg
  have hl := g.nonneg
  refine ⟨?_, ?_, by positivity⟩
  · have e : a * b - a' * b' = (a - a') * b' + (b - b') * a' + (a - a') * (b - b') := by ring
    rw [e]
    have t1 : |(a - a') * b'| ≤ k * ε * L := by rw [abs_mul]; exact mul_le_mul h.err g.size (abs_nonneg _) (by positivity)
    have t2 : |(b - b') * a'| ≤ l * ε * M := by rw [abs_mul]; exact mul_le_mul g.err h.size (abs_nonneg _) (by positivity)
    have t3 : |(a - a') * (b - b')| ≤ k * ε * (l * (1 / 64)) := by
      rw [abs_mul]
      exact mul_le_mul h.err (g.err.trans (mul_le_mul_of_nonneg_left hε1 hl)) (abs_nonneg _) (by positivity)
    have := abs_add_le ((a - a') * b' + (b - b') * a') ((a - a') * (b - b'))
    have := abs_add_le ((a - a') * b') ((b - b') * a')
    calc _ ≤ k * ε * L + l * ε * M + k * ε * (l * (1 / 64)) := by linarith
      _ = _ := by ring
  · rw [abs_mul]
    exact mul_le_mul h.size g.size (abs_nonneg _) hM

theorem Near.add {ε : K} {k M a a' l L b b' : K} (h : Near ε k M a a') (g : Near ε l L b b') : Near ε (k + l) (M + L) (a + b) (a' + b') := by
  refine ⟨?_, (abs_add_le _ _).trans (add_le_add h.size g.size), add_nonneg h.nonneg g.nonneg⟩
  rw [show a + b - (a' + b') = (a - a') + (b - b') by ring, add_mul]
  exact (abs_add_le _ _).trans (add_le_add h.err g.err)

theorem Near.neg {ε : K} {k M a a' : K} (h : Near ε k M a a') : Near ε k M (-a) (-a') :=
  ⟨by rw [show -a - -a' = -(a - a') by ring, abs_neg]; exact h.err, by rw [abs_neg]; exact h.size, h.nonneg⟩

theorem Near.sub {ε : K} {k M a a' l L b b' : K} (h : Near ε k M a a') (g : Near ε l L b b') : Near ε (k + l) (M + L) (a - b) (a' - b') := by
  rw [sub_eq_add_neg, sub_eq_add_neg]
  exact h.add g.neg

/-- The base cell of the code. -/
def pieceBaseR (R : Rounding K) (t : Tuned) (X : K) : ℤ :=
  match t with
  | .nnb => ⌊R.rnd (X + 1 / 2)⌋
  | .tsc => ⌊R.rnd (X + 1 / 2)⌋
  | _ => ⌊X⌋

theorem pieceBaseR_mem {R : Rounding K} {ε : K} (hR : RelativeError R ε) (hε : 0 ≤ ε) (t : Tuned) {X b : K} (hX : (|X| + 1 / 2) * ε ≤ b) :
    pieceLo t - b ≤ X - (pieceBaseR R t X : K) ∧ X - (pieceBaseR R t X : K) ≤ pieceLo t + 1 + b := by
  have hb : 0 ≤ b := le_trans (by positivity) hX
  have key : |R.rnd (X + 1 / 2) - (X + 1 / 2)| ≤ b := by
    refine (hR _).trans (le_trans ?_ hX)
    apply mul_le_mul_of_nonneg_right _ hε
    refine (abs_add_le _ _).trans ?_
    rw [abs_of_pos (show (0 : K) < 1 / 2 by norm_num)]
  obtain ⟨k1, k2⟩ := abs_le.1 key
  have f1 := Int.floor_le (R.rnd (X + 1 / 2))
  have f2 := Int.lt_floor_add_one (R.rnd (X + 1 / 2))
  have g1 := Int.floor_le X
  have g2 := Int.lt_floor_add_one X
  cases t <;> simp only [pieceBaseR, pieceLo] <;> constructor <;> linarith

/-- The cells and the values of the stencil, with rounding. -/
theorem tunedSetupR_near {R : Rounding K} {ε : K} (hR : RelativeError R ε) (hε : 0 ≤ ε) (hε1 : ε ≤ 1 / 64) (t : Tuned) (ax : PAxis K)
    (ho : ax.order = 0) (x : K) (hX : (|ax.gridR R x| + 1 / 2) * ε ≤ 1 / 4) :
    (tunedSetupR R t ax x).1 = (pieces (K := K) t).map (fun q => pieceBaseR R t (ax.gridR R x) + q.1) ∧
    List.Forall₂ (fun v q => Near ε 24 (5 / 4) v (q.2 (ax.gridR R x - pieceBaseR R t (ax.gridR R x)))) (tunedSetupR R t ax x).2 (pieces t) := by
  set X := ax.gridR R x with hXd
  obtain ⟨b1, b2⟩ := pieceBaseR_mem hR hε t hX
  cases t with
  | nnb =>
    simp only [tunedSetupR, pieces, pieceBaseR, ho, if_true, List.map_cons, List.map_nil, ← hXd, add_zero, true_and]
    refine .cons ?_ .nil
    exact (Near.const (by norm_num)).mono hε (by norm_num)
  | cic =>
    simp only [pieceBaseR, pieceLo] at b1 b2
    simp only [tunedSetupR, pieces, pieceBaseR, ho, if_true, List.map_cons, List.map_nil, ← hXd, add_zero, true_and]
    set f := X - (⌊X⌋ : K) with hf
    have d : Near ε (0 + 5 / 4 + 0 / 64) (5 / 4) (R.rnd f) f := (Near.const (by rw [abs_le]; constructor <;> linarith)).rnd hR hε hε1
    have e := (((Near.const (ε := ε) (a := (1 : K)) (M := 1) (by norm_num)).sub d).bound (M' := 5 / 4)
      (by rw [abs_le]; constructor <;> linarith)).rnd hR hε hε1
    exact .cons (e.mono hε (by norm_num)) (.cons (d.mono hε (by norm_num)) .nil)
  | tsc =>
    simp only [pieceBaseR, pieceLo] at b1 b2
    simp only [tunedSetupR, pieces, pieceBaseR, ho, if_true, List.map_cons, List.map_nil, ← hXd, add_zero]
    refine ⟨by simp only [List.cons.injEq, and_true, true_and]; ring, ?_⟩
    set i := ⌊R.rnd (X + 1 / 2)⌋ with hi
    set f := X - (i : K) with hf
    have e0 : X - ((i - 1 : ℤ) : K) = f + 1 := by rw [hf]; push_cast; ring
    have e2 : X - ((i + 1 : ℤ) : K) = f - 1 := by rw [hf]; push_cast; ring
    rw [e0, e2]
    have d0 : Near ε _ (7 / 4) (R.rnd (f + 1)) (f + 1) := (Near.const (by rw [abs_le]; constructor <;> linarith)).rnd hR hε hε1
    have d1 : Near ε _ (3 / 4) (R.rnd f) f := (Near.const (by rw [abs_le]; constructor <;> linarith)).rnd hR hε hε1
    have d2 : Near ε _ (7 / 4) (R.rnd (f - 1)) (f - 1) := (Near.const (by rw [abs_le]; constructor <;> linarith)).rnd hR hε hε1
    have c32 : Near ε 0 (3 / 2) (3 / 2 : K) (3 / 2) := Near.const (by rw [abs_of_pos] <;> norm_num)
    have ch : Near ε 0 (1 / 2) (1 / 2 : K) (1 / 2) := Near.const (by rw [abs_of_pos] <;> norm_num)
    have c34 : Near ε 0 (3 / 4) (3 / 4 : K) (3 / 4) := Near.const (by rw [abs_of_pos] <;> norm_num)
    have a := ((c32.sub d0).bound (M' := 5 / 4) (by rw [abs_le]; constructor <;> linarith)).rnd hR hε hε1
    have b := ((c32.add d2).bound (M' := 5 / 4) (by rw [abs_le]; constructor <;> linarith)).rnd hR hε hε1
    have v0 := (((a.mul hε hε1 a).rnd hR hε hε1).mul hε hε1 ch).rnd hR hε hε1
    have v1 := (c34.sub ((d1.mul hε hε1 d1).rnd hR hε hε1)).rnd hR hε hε1
    have v2 := (((b.mul hε hε1 b).rnd hR hε hε1).mul hε hε1 ch).rnd hR hε hε1
    refine .cons ?_ (.cons ?_ (.cons ?_ .nil))
    · have := (v0.mono hε (k' := 24) (by norm_num)).bound (M' := 5 / 4) (v0.size.trans (by norm_num))
      simp only [prodR, List.foldl]
      rwa [show 3 / 2 - (f + 1) = 1 / 2 - f by ring] at this
    · have hs : |3 / 4 - f * f| ≤ 5 / 4 := by
        have := mul_self_nonneg f
        rw [abs_le]; constructor <;> nlinarith
      simp only [prodR, List.foldl]
      exact (v1.mono hε (k' := 24) (by norm_num)).bound (M' := 5 / 4) hs
    · have := (v2.mono hε (k' := 24) (by norm_num)).bound (M' := 5 / 4) (v2.size.trans (by norm_num))
      simp only [prodR, List.foldl]
      rwa [show 3 / 2 + (f - 1) = 1 / 2 + f by ring] at this
  | pcs =>
    simp only [pieceBaseR, pieceLo] at b1 b2
    simp only [tunedSetupR, pieces, pieceBaseR, ho, if_true, List.map_cons, List.map_nil, ← hXd, add_zero]
    refine ⟨by simp only [List.cons.injEq, and_true, true_and]; constructor <;> ring, ?_⟩
    set i := ⌊X⌋ with hi
    set f := X - (i : K) with hf
    have e0 : X - ((i - 1 : ℤ) : K) = f + 1 := by rw [hf]; push_cast; ring
    have e2 : X - ((i + 1 : ℤ) : K) = f - 1 := by rw [hf]; push_cast; ring
    have e3 : X - ((i + 1 + 1 : ℤ) : K) = f - 2 := by rw [hf]; push_cast; ring
    rw [e0, e2, e3]
    have d0 : Near ε (9 / 4) (9 / 4) (R.rnd (f + 1)) (f + 1) :=
      ((Near.const (by rw [abs_le]; constructor <;> linarith)).rnd hR hε hε1).mono hε (by norm_num)
    have d1 : Near ε (5 / 4) (5 / 4) (R.rnd f) f :=
      ((Near.const (by rw [abs_le]; constructor <;> linarith)).rnd hR hε hε1).mono hε (by norm_num)
    have d2 : Near ε (5 / 4) (5 / 4) (R.rnd (f - 1)) (f - 1) :=
      ((Near.const (by rw [abs_le]; constructor <;> linarith)).rnd hR hε hε1).mono hε (by norm_num)
    have d3 : Near ε (9 / 4) (9 / 4) (R.rnd (f - 2)) (f - 2) :=
      ((Near.const (by rw [abs_le]; constructor <;> linarith)).rnd hR hε hε1).mono hε (by norm_num)
    have s6 : Near ε (1 / 6) (1 / 6) (R.rnd (1 / 6 : K)) (1 / 6) :=
      ((Near.const (by rw [abs_of_pos] <;> norm_num)).rnd hR hε hε1).mono hε (by norm_num)
    have c2 : Near ε 0 2 (2 : K) 2 := Near.const (by rw [abs_of_pos] <;> norm_num)
    have c3 : Near ε 0 3 (3 : K) 3 := Near.const (by rw [abs_of_pos] <;> norm_num)
    have c4 : Near ε 0 4 (4 : K) 4 := Near.const (by rw [abs_of_pos] <;> norm_num)
    have c6 : Near ε 0 6 (6 : K) 6 := Near.const (by rw [abs_of_pos] <;> norm_num)
    have a := (((c2.sub d0).bound (M' := 5 / 4) (by rw [abs_le]; constructor <;> linarith)).rnd hR hε hε1).mono hε (k' := 4) (by norm_num)
    have b := (((c2.add d3).bound (M' := 5 / 4) (by rw [abs_le]; constructor <;> linarith)).rnd hR hε hε1).mono hε (k' := 4) (by norm_num)
    have cube : ∀ {z z' : K}, Near ε 4 (5 / 4) z z' →
        Near ε 24 (5 / 4) (R.rnd (R.rnd (R.rnd (R.rnd (1 / 6) * z) * z) * z)) (1 / 6 * z' * z' * z') := by
      intro z z' h
      have u1 := ((s6.mul hε hε1 h).rnd hR hε hε1).mono hε (k' := 2) (by norm_num)
      have u2 := ((u1.mul hε hε1 h).rnd hR hε hε1).mono hε (k' := 4) (by norm_num)
      have u3 := ((u2.mul hε hε1 h).rnd hR hε hε1).mono hε (k' := 24) (by norm_num)
      exact u3.bound (u3.size.trans (by norm_num))
    have v0 := cube a
    have v3 := cube b
    have quad : ∀ {z z' : K}, Near ε (5 / 4) (5 / 4) z z' → Near ε 50 6 (R.rnd (4 - R.rnd (R.rnd (6 * z) * z))) (4 - 6 * z' * z') := by
      intro z z' h
      have hz := abs_le.1 h.size
      have u1 := ((c6.mul hε hε1 h).rnd hR hε hε1).mono hε (k' := 16) (by norm_num)
      have u2 := ((u1.mul hε hε1 h).rnd hR hε hε1).mono hε (k' := 41) (by norm_num)
      have hs : |4 - 6 * z' * z'| ≤ 6 := by
        have := mul_self_nonneg z'
        rw [abs_le]; constructor <;> nlinarith [hz.1, hz.2]
      exact (((c4.sub u2).bound hs).rnd hR hε hε1).mono hε (by norm_num)
    have cub3 : ∀ {z z' : K}, Near ε (5 / 4) (5 / 4) z z' →
        Near ε 40 6 (R.rnd (R.rnd (R.rnd (3 * z) * z) * z)) (3 * z' * z' * z') := by
      intro z z' h
      have u1 := ((c3.mul hε hε1 h).rnd hR hε hε1).mono hε (k' := 8) (by norm_num)
      have u2 := ((u1.mul hε hε1 h).rnd hR hε hε1).mono hε (k' := 20) (by norm_num)
      have u3 := ((u2.mul hε hε1 h).rnd hR hε hε1).mono hε (k' := 40) (by norm_num)
      exact u3.bound (u3.size.trans (by norm_num))
    have q1 := quad d1
    have q2 := quad d2
    have r1 := cub3 d1
    have r2 := cub3 d2
    have hb1 : |4 - 6 * f * f + 3 * f * f * f| ≤ 6 := by
      have h2 : 0 ≤ f * f := mul_self_nonneg f
      rw [abs_le]; constructor <;> nlinarith
    have hb2 : |4 - 6 * (f - 1) * (f - 1) - 3 * (f - 1) * (f - 1) * (f - 1)| ≤ 6 := by
      have h2 : 0 ≤ (f - 1) * (f - 1) := mul_self_nonneg _
      rw [abs_le]; constructor <;> nlinarith
    have last : ∀ {z z' : K}, Near ε 90 6 z z' → Near ε 24 (5 / 4) (R.rnd (R.rnd (1 / 6) * R.rnd z)) (1 / 6 * z') := by
      intro z z' h
      have u1 := (h.rnd hR hε hε1).mono hε (k' := 98) (by norm_num)
      have u2 := ((s6.mul hε hε1 u1).rnd hR hε hε1).mono hε (k' := 24) (by norm_num)
      exact u2.bound (u2.size.trans (by norm_num))
    have v1 := last (((q1.add r1).bound hb1).mono hε (by norm_num))
    have v2 := last (((q2.sub r2).bound hb2).mono hε (by norm_num))
    refine .cons ?_ (.cons ?_ (.cons ?_ (.cons ?_ .nil)))
    · simp only [prodR, List.foldl]
      rwa [show 2 - (f + 1) = 1 - f by ring] at v0
    · simp only [prodR, List.foldl]
      exact v1
    · simp only [prodR, List.foldl]
      exact v2
    · simp only [prodR, List.foldl]
      rwa [show 2 + (f - 2) = f by ring] at v3

end
end Pmesh
