import Verif.Lemmas.Interp
import Verif.Spec.GradAccuracy
import Mathlib.Algebra.BigOperators.Group.Finset.Piecewise

/-! # Moments of the derivative stencils -/

set_option linter.unusedSectionVars false

namespace Pmesh

section
variable {K : Type} [Field K] [LinearOrder K] [IsStrictOrderedRing K] [FloorRing K]

/-! ### weighted sums with weights of any sign -/

theorem expect_add : ∀ (sts : List (List (ℤ × K))) (G H : List ℤ → K),
    expect sts (fun c => G c + H c) = expect sts G + expect sts H
  | [], _, _ => rfl
  | st :: sts, G, H => by
    simp only [expect]
    rw [← sum_map_add]
    congr 1
    apply List.map_congr_left
    intro p _
    rw [expect_add sts]
    ring

theorem expect_smul (a : K) : ∀ (sts : List (List (ℤ × K))) (G : List ℤ → K), expect sts (fun c => a * G c) = a * expect sts G
  | [], _ => rfl
  | st :: sts, G => by
    simp only [expect]
    rw [← sum_mul_left']
    congr 1
    apply List.map_congr_left
    intro p _
    rw [expect_smul a sts]
    ring

theorem expect_finset (sts : List (List (ℤ × K))) (n : ℕ) (G : ℕ → List ℤ → K) :
    expect sts (fun c => ∑ j ∈ Finset.range n, G j c) = ∑ j ∈ Finset.range n, expect sts (G j) := by
  induction n with
  | zero =>
    simp only [Finset.range_zero, Finset.sum_empty]
    have := expect_smul 0 sts (fun _ => (0 : K))
    simpa using this
  | succ n ih => simp only [Finset.sum_range_succ]; rw [expect_add, ih]

theorem expect_prod : ∀ (sts : List (List (ℤ × K))) (u : ℕ → ℤ → K),
    expect sts (fun c => ∏ i ∈ Finset.range sts.length, u i (c.getD i 0)) =
      ∏ i ∈ Finset.range sts.length, ((sts.getD i []).map fun p => p.2 * u i p.1).sum
  | [], _ => by simp [expect]
  | st :: sts, u => by
    simp only [expect, List.length_cons, Finset.prod_range_succ', List.getD_cons_zero, List.getD_cons_succ]
    rw [← expect_prod sts fun i => u (i + 1), ← sum_mul_left']
    congr 1
    apply List.map_congr_left
    intro p _
    have e : (fun c : List ℤ => (∏ i ∈ Finset.range sts.length, u (i + 1) (c.getD i 0)) * u 0 p.1) =
        fun c => u 0 p.1 * ∏ i ∈ Finset.range sts.length, u (i + 1) (c.getD i 0) := by funext c; ring
    rw [e, expect_smul]
    ring

/-- The same weights without their signs. -/
def absStencil (st : List (ℤ × K)) : List (ℤ × K) := st.map fun p => (p.1, |p.2|)

theorem expect_abs : ∀ (sts : List (List (ℤ × K))) {G H : List ℤ → K},
    (∀ c, c.length = sts.length → (∀ i (h : i < c.length) (h' : i < sts.length), c[i] ∈ sts[i].map Prod.fst) → |G c| ≤ H c) →
      |expect sts G| ≤ expect (sts.map absStencil) H
  | [], _, _, h => h [] rfl (by simp)
  | st :: sts, G, H, h => by
    simp only [expect, List.map_cons, absStencil, List.map_map]
    have key : ∀ l : List (ℤ × K), (∀ p ∈ l, p ∈ st) →
        |(l.map fun p => p.2 * expect sts fun c => G (p.1 :: c)).sum| ≤
          (l.map ((fun p : ℤ × K => p.2 * expect (sts.map absStencil) fun c => H (p.1 :: c)) ∘ fun p => (p.1, |p.2|))).sum := by
      intro l
      induction l with
      | nil => intro _; simp
      | cons p l ih =>
        intro hl
        simp only [List.map_cons, List.sum_cons]
        refine (abs_add_le _ _).trans (add_le_add ?_ (ih fun q hq => hl q (by simp [hq])))
        simp only [Function.comp]
        rw [abs_mul]
        apply mul_le_mul_of_nonneg_left _ (abs_nonneg _)
        apply expect_abs sts
        intro c hc hm
        apply h _ (by simp [hc])
        intro i h1 h2
        cases i with
        | zero => simpa using ⟨p.2, hl p (by simp)⟩
        | succ i => simpa using hm i (by simpa using h1) (by simpa using h2)
    exact key st fun _ hp => hp

/-! ### derivative stencils of one axis -/

/-- What the derivative weights of the tuned code give for the function `i`: the scale, as they should, for cic and tsc; pcs lacks the
factor. -/
def gradFactor (kind : Tuned) (scale : K) : K :=
  match kind with
  | .nnb => 0
  | .cic => scale
  | .tsc => scale
  | .pcs => 1

theorem gradStencil_sum (t : Tuned) (ax : PAxis K) (ho : ax.order = 1) (x : K) : ((rawStencil t ax x).map fun p => p.2 * 1).sum = 0 := by
  have ho : ¬ ax.order = 0 := by omega
  cases t <;> simp only [rawStencil, tunedSetup, ho, if_false, List.zip_cons_cons, List.zip_nil_right, List.map_cons, List.map_nil,
    List.sum_cons, List.sum_nil] <;> push_cast <;> ring

theorem gradStencil_first (t : Tuned) (ax : PAxis K) (ho : ax.order = 1) (x : K) :
    ((rawStencil t ax x).map fun p => p.2 * ((p.1 : K) - ax.grid x)).sum = gradFactor t ax.scale := by
  have ho : ¬ ax.order = 0 := by omega
  cases t <;> simp only [rawStencil, tunedSetup, ho, if_false, List.zip_cons_cons, List.zip_nil_right, List.map_cons, List.map_nil,
    List.sum_cons, List.sum_nil, gradFactor] <;> push_cast <;> ring

theorem gradStencil_second (t : Tuned) (ht : t ≠ .cic) (ax : PAxis K) (ho : ax.order = 1) (x : K) :
    ((rawStencil t ax x).map fun p => p.2 * ((p.1 : K) - ax.grid x) ^ 2).sum = 0 := by
  have ho : ¬ ax.order = 0 := by omega
  cases t
  case cic => exact absurd rfl ht
  all_goals
    simp only [rawStencil, tunedSetup, ho, if_false, List.zip_cons_cons, List.zip_nil_right, List.map_cons, List.map_nil,
      List.sum_cons, List.sum_nil] <;> push_cast <;> ring

theorem gradStencil_abs (t : Tuned) (ax : PAxis K) (hs : 0 ≤ ax.scale) (ho : ax.order = 1) (x : K) :
    ((absStencil (rawStencil t ax x)).map fun p => p.2 * 1).sum ≤ 2 * gradFactor t ax.scale ∧
      ((absStencil (rawStencil t ax x)).map fun p => p.2 * ((p.1 : K) - ax.grid x) ^ 2).sum ≤ gradFactor t ax.scale := by
  have ho : ¬ ax.order = 0 := by omega
  cases t
  · simp only [absStencil, rawStencil, tunedSetup, ho, if_false, List.zip_cons_cons, List.zip_nil_right, List.map_cons, List.map_nil,
      List.sum_cons, List.sum_nil, gradFactor, abs_zero]
    constructor <;> simp
  · simp only [absStencil, rawStencil, tunedSetup, ho, if_false, List.zip_cons_cons, List.zip_nil_right, List.map_cons, List.map_nil,
      List.sum_cons, List.sum_nil, gradFactor, abs_neg, abs_of_nonneg hs]
    refine ⟨by linarith, ?_⟩
    have f1 := Int.floor_le (ax.grid x)
    have f2 := Int.lt_floor_add_one (ax.grid x)
    push_cast
    obtain ⟨f, hf⟩ : ∃ f, f = ax.grid x - ⌊ax.grid x⌋ := ⟨_, rfl⟩
    rw [show (⌊ax.grid x⌋ : K) - ax.grid x = -f by rw [hf]; ring, show (⌊ax.grid x⌋ : K) + 1 - ax.grid x = 1 - f by rw [hf]; ring]
    have h0 : 0 ≤ f := by linarith
    have h1 : f ≤ 1 := by linarith
    have : f ^ 2 + (1 - f) ^ 2 ≤ 1 := by nlinarith
    nlinarith [mul_le_mul_of_nonneg_left this hs]
  · simp only [absStencil, rawStencil, tunedSetup, ho, if_false, List.zip_cons_cons, List.zip_nil_right, List.map_cons, List.map_nil,
      List.sum_cons, List.sum_nil, gradFactor]
    have f3 := Int.floor_le (ax.grid x + 1 / 2)
    have f4 := Int.lt_floor_add_one (ax.grid x + 1 / 2)
    push_cast
    obtain ⟨t, ht⟩ : ∃ t, t = ax.grid x - ⌊ax.grid x + 1 / 2⌋ := ⟨_, rfl⟩
    rw [show -(3 / 2 - (ax.grid x - (⌊ax.grid x + 1 / 2⌋ - 1 : K))) * ax.scale = -((1 / 2 - t) * ax.scale) by rw [ht]; ring,
      show -2 * (ax.grid x - (⌊ax.grid x + 1 / 2⌋ : K)) * ax.scale = -(2 * t * ax.scale) by rw [ht]; ring,
      show (3 / 2 + (ax.grid x - (⌊ax.grid x + 1 / 2⌋ + 1 : K))) * ax.scale = (1 / 2 + t) * ax.scale by rw [ht]; ring,
      show (⌊ax.grid x + 1 / 2⌋ : K) - 1 - ax.grid x = -(1 + t) by rw [ht]; ring,
      show (⌊ax.grid x + 1 / 2⌋ : K) - ax.grid x = -t by rw [ht]; ring,
      show (⌊ax.grid x + 1 / 2⌋ : K) + 1 - ax.grid x = 1 - t by rw [ht]; ring]
    have h0 : -(1 / 2) ≤ t := by linarith
    have h1 : t ≤ 1 / 2 := by linarith
    rw [abs_neg, abs_neg, abs_mul, abs_mul, abs_mul, abs_mul, abs_of_nonneg hs, abs_of_nonneg (show 0 ≤ 1 / 2 - t by linarith),
      abs_of_nonneg (show 0 ≤ 1 / 2 + t by linarith), abs_of_nonneg (show (0 : K) ≤ 2 by norm_num)]
    have ha : |t| ≤ 1 / 2 := abs_le.2 ⟨h0, h1⟩
    have ha0 := abs_nonneg t
    have hsq : t ^ 2 = |t| ^ 2 := (sq_abs t).symm
    refine ⟨by nlinarith, ?_⟩
    have : (1 / 2 - t) * (-(1 + t)) ^ 2 + 2 * |t| * (-t) ^ 2 + (1 / 2 + t) * (1 - t) ^ 2 ≤ 1 := by
      have e : (1 / 2 - t) * (-(1 + t)) ^ 2 + 2 * |t| * (-t) ^ 2 + (1 / 2 + t) * (1 - t) ^ 2 = 1 - t ^ 2 * (3 - 2 * |t|) := by ring
      rw [e]
      have : 0 ≤ t ^ 2 * (3 - 2 * |t|) := mul_nonneg (sq_nonneg t) (by linarith)
      linarith
    nlinarith [mul_le_mul_of_nonneg_left this hs]
  · simp only [absStencil, rawStencil, tunedSetup, ho, if_false, List.zip_cons_cons, List.zip_nil_right, List.map_cons, List.map_nil,
      List.sum_cons, List.sum_nil, gradFactor]
    have f1 := Int.floor_le (ax.grid x)
    have f2 := Int.lt_floor_add_one (ax.grid x)
    push_cast
    obtain ⟨f, hf⟩ : ∃ f, f = ax.grid x - ⌊ax.grid x⌋ := ⟨_, rfl⟩
    have h0 : 0 ≤ f := by linarith
    have h1 : f ≤ 1 := by linarith
    rw [show -1 / 2 * (2 - (ax.grid x - (⌊ax.grid x⌋ - 1 : K))) * (2 - (ax.grid x - (⌊ax.grid x⌋ - 1 : K))) = -((1 - f) ^ 2 / 2) by rw [hf]; ring,
      show 1 / 6 * (-12 * (ax.grid x - (⌊ax.grid x⌋ : K)) + 9 * (ax.grid x - ⌊ax.grid x⌋) * (ax.grid x - ⌊ax.grid x⌋)) = -(f * (4 - 3 * f) / 2) by
        rw [hf]; ring,
      show -1 / 6 * (12 * (ax.grid x - (⌊ax.grid x⌋ + 1 : K)) + 9 * (ax.grid x - (⌊ax.grid x⌋ + 1)) * (ax.grid x - (⌊ax.grid x⌋ + 1))) =
        (1 - f) * (1 + 3 * f) / 2 by rw [hf]; ring,
      show 1 / 2 * (2 + (ax.grid x - (⌊ax.grid x⌋ + 1 + 1 : K))) * (2 + (ax.grid x - (⌊ax.grid x⌋ + 1 + 1 : K))) = f ^ 2 / 2 by rw [hf]; ring,
      show (⌊ax.grid x⌋ : K) - 1 - ax.grid x = -(1 + f) by rw [hf]; ring,
      show (⌊ax.grid x⌋ : K) - ax.grid x = -f by rw [hf]; ring,
      show (⌊ax.grid x⌋ : K) + 1 - ax.grid x = 1 - f by rw [hf]; ring,
      show (⌊ax.grid x⌋ : K) + 1 + 1 - ax.grid x = 2 - f by rw [hf]; ring]
    rw [abs_neg, abs_neg, abs_of_nonneg (show 0 ≤ (1 - f) ^ 2 / 2 by positivity),
      abs_of_nonneg (show 0 ≤ f * (4 - 3 * f) / 2 by have := mul_nonneg h0 (show 0 ≤ 4 - 3 * f by linarith); linarith),
      abs_of_nonneg (show 0 ≤ (1 - f) * (1 + 3 * f) / 2 by have := mul_nonneg (show 0 ≤ 1 - f by linarith) (show 0 ≤ 1 + 3 * f by linarith); linarith),
      abs_of_nonneg (show 0 ≤ f ^ 2 / 2 by positivity)]
    have hq : 0 ≤ f * (1 - f) := mul_nonneg h0 (by linarith)
    constructor
    · nlinarith
    · have e : (1 - f) ^ 2 / 2 * (-(1 + f)) ^ 2 + (f * (4 - 3 * f) / 2 * (-f) ^ 2 + ((1 - f) * (1 + 3 * f) / 2 * (1 - f) ^ 2 + (f ^ 2 / 2 * (2 - f) ^ 2 + 0))) =
        1 - 2 * (f * (1 - f)) ^ 2 := by ring
      rw [e]
      have := sq_nonneg (f * (1 - f))
      linarith

/-! ### the gradient over the periodic mesh -/

/-- Axis `j` of the painter of a single process for the gradient along axis `d`. -/
def gradAxis (m : PMesh K) (st : List ℤ) (d j : ℕ) : PAxis K :=
  ⟨if some d = some j then 1 else 0, m.scale.getD j 0, 0, m.nmesh.getD j 0, m.nmesh.getD j 0, st.getD j 0⟩

theorem serial_axes_grad (m : PMesh K) (st : List ℤ) (w : Resampler K) (d : ℕ) :
    ((m.serial st).painter w (some d) 0).axes = (List.range m.nmesh.length).map (gradAxis m st d) := by
  have hs := serial_localShape m st
  simp only [PMesh.painter]
  apply List.map_congr_left
  intro j hj
  have h0 : ((m.serial st).start 0).getD j 0 = 0 := by
    have hj : j < m.nmesh.length := by simpa [PMesh.serial] using hj
    simp only [PMesh.start, PMesh.serial]
    rw [List.getD_eq_getElem _ _ (by simpa using hj)]
    simp
  rw [h0, hs]
  simp [gradAxis, PMesh.serial, PMesh.scale]

/-- The stencils of the gradient around `x` before wrapping. -/
def gradStencils (m : PMesh K) (st : List ℤ) (kind : Tuned) (d : ℕ) (x : List K) : List (List (ℤ × K)) :=
  (List.range m.nmesh.length).map fun j => rawStencil kind (gradAxis m st d j) (x.getD j 0)

theorem grad_eq {m : PMesh K} (hm : m.OK) (st : List ℤ) {w : Resampler K} {kind : Tuned} (hk : w.kern = Tuned.kern kind)
    (ht : w.tuned = some kind) (hdim : m.nmesh.length ≤ 3) (hsup : w.support = w.kern.native) (d : ℕ) {x : List K}
    (hx : x.length = m.nmesh.length)
    (G : List ℤ → K) (hG : ∀ c : List ℤ, c.length = m.nmesh.length →
      G (c.mapIdx fun j i => genWrap (m.nmesh.getD j 0) i) = G c) :
    ((ndindex m.nmesh).map fun g =>
        cwProd (List.zipWith (axisStencil ((m.serial st).painter w (some d) 0) 1) ((m.serial st).painter w (some d) 0).axes x) g *
          G (g.map (Nat.cast : ℕ → ℤ))).sum = expect (gradStencils m st kind d x) G := by
  have hnat : 0 < (Tuned.kern kind : Kern K).native := by cases kind <;> simp [Tuned.kern, nearestK, linearK, quadraticK, cubicK]
  have hfast : fastMethod ((m.serial st).painter w (some d) 0) (partWin ((m.serial st).painter w (some d) 0) 1) = some kind := by
    have h1 : ((m.serial st).painter w (some d) 0).axes.length = m.nmesh.length := by rw [serial_axes_grad]; simp
    have h2 : (((m.serial st).painter w (some d) 0).axes.take 3).any (fun ax => ax.order > 1) = false := by
      rw [List.any_eq_false]
      intro ax hax
      have := List.mem_of_mem_take hax
      rw [serial_axes_grad] at this
      obtain ⟨j, _, rfl⟩ := List.mem_map.1 this
      simp only [gradAxis]
      split <;> simp
    have h3 : (partWin ((m.serial st).painter w (some d) 0) (1 : K)).support = (Tuned.kern kind : Kern K).native := by
      have e : partWin ((m.serial st).painter w (some d) 0) (1 : K) = windowInfo (Tuned.kern kind : Kern K).native ((Tuned.kern kind : Kern K).native : K) := by
        unfold partWin
        simp only [PMesh.painter, hsup, hk, mul_one]
      rw [e]
      unfold windowInfo
      have : ¬ (((Tuned.kern kind : Kern K).native : K) ≤ 0) := by
        rw [not_le]; exact_mod_cast hnat
      simp [this]
    have h4 := hm.dim
    have h5 : m.nmesh.length ≠ 0 := by
      intro h; exact h4 (List.length_eq_zero_iff.1 h)
    unfold fastMethod
    have ht' : ((m.serial st).painter w (some d) 0).tuned = some kind := ht
    rw [ht']
    simp only [h2, h1, h3]
    rw [if_neg (by simp), if_neg (by omega), if_neg (by simp), if_pos (by omega)]
  have hst : ∀ ax x, axisStencil ((m.serial st).painter w (some d) 0) 1 ax x = tunedStencil kind ax x := by
    intro ax x
    unfold axisStencil
    rw [hfast]
  have e : List.zipWith (axisStencil ((m.serial st).painter w (some d) 0) 1) ((m.serial st).painter w (some d) 0).axes x =
      (gradStencils m st kind d x).mapIdx fun j s => s.map fun p => (genWrap (m.nmesh.getD j 0) p.1, p.2) := by
    rw [serial_axes_grad]
    apply List.ext_getElem
    · simp [gradStencils, hx]
    · intro i h1 h2
      simp only [gradStencils, List.length_mapIdx, List.length_map, List.length_range] at h2
      simp only [List.getElem_zipWith, List.getElem_map, List.getElem_range, List.getElem_mapIdx, gradStencils]
      rw [hst, rawStencil_wrap, List.getD_eq_getElem (l := x) _ (by omega)]
      rfl
  rw [e, sum_expect]
  · have := expect_map (fun j i => genWrap (m.nmesh.getD j 0) i) (gradStencils m st kind d x) 0 G
    simp only [Nat.zero_add] at this
    rw [this]
    apply expect_congr
    intro c hc
    exact hG c (by simpa [gradStencils] using hc)
  · simp [gradStencils]
  · intro i h1 h2 p hp
    simp only [List.getElem_mapIdx, List.mem_map] at hp
    obtain ⟨q, _, rfl⟩ := hp
    have hpos := hm.nmesh_pos h2
    rw [List.getD_eq_getElem _ _ h2] at hpos
    simp only
    rw [List.getD_eq_getElem _ _ h2]
    exact genWrap_range _ hpos _

/-- A moment of the stencil of axis `i`. -/
def mom (sts : List (List (ℤ × K))) (i : ℕ) (f : ℤ → K) : K := ((sts.getD i []).map fun p => p.2 * f p.1).sum

theorem expect_one (sts : List (List (ℤ × K))) : expect sts (fun _ => 1) = ∏ i ∈ Finset.range sts.length, mom sts i fun _ => 1 := by
  have := expect_prod sts fun _ _ => 1
  simpa [mom] using this

theorem expect_single (sts : List (List (ℤ × K))) {j : ℕ} (hj : j < sts.length) (f : ℤ → K) :
    expect sts (fun c => f (c.getD j 0)) = ∏ i ∈ Finset.range sts.length, mom sts i fun a => if i = j then f a else 1 := by
  have := expect_prod sts fun i a => if i = j then f a else 1
  unfold mom
  rw [← this]
  congr 1
  funext c
  rw [Finset.prod_eq_single j]
  · simp
  · intro i _ hi; rw [if_neg hi]
  · intro h; exact absurd (Finset.mem_range.2 hj) h

theorem expect_pair (sts : List (List (ℤ × K))) {j k : ℕ} (hj : j < sts.length) (hk : k < sts.length) (f g : ℤ → K) :
    expect sts (fun c => f (c.getD j 0) * g (c.getD k 0)) =
      ∏ i ∈ Finset.range sts.length, mom sts i fun a => (if i = j then f a else 1) * (if i = k then g a else 1) := by
  have := expect_prod sts fun i a => (if i = j then f a else 1) * (if i = k then g a else 1)
  unfold mom
  rw [← this]
  congr 1
  funext c
  rw [Finset.prod_mul_distrib]
  congr 1
  · rw [Finset.prod_eq_single j]
    · simp
    · intro i _ hi; rw [if_neg hi]
    · intro h; exact absurd (Finset.mem_range.2 hj) h
  · rw [Finset.prod_eq_single k]
    · simp
    · intro i _ hi; rw [if_neg hi]
    · intro h; exact absurd (Finset.mem_range.2 hk) h

/-- Distance of cell `i` from the particle along axis `j`. -/
def offs (m : PMesh K) (x : List K) (j : ℕ) (i : ℤ) : K := (i : K) * m.cell j - x.getD j 0

section
variable {m : PMesh K} (hm : m.OK) (st : List ℤ) (kind : Tuned) {d : ℕ} (hd : d < m.nmesh.length) (x : List K)

theorem gradStencils_len : (gradStencils m st kind d x).length = m.nmesh.length := by simp [gradStencils]

theorem gradStencils_getD {j : ℕ} (hj : j < m.nmesh.length) :
    (gradStencils m st kind d x).getD j [] = rawStencil kind (gradAxis m st d j) (x.getD j 0) := by
  unfold gradStencils
  rw [List.getD_eq_getElem _ _ (by simpa using hj)]
  simp

theorem absStencils_getD {j : ℕ} (hj : j < m.nmesh.length) :
    ((gradStencils m st kind d x).map absStencil).getD j [] = absStencil (rawStencil kind (gradAxis m st d j) (x.getD j 0)) := by
  unfold gradStencils
  rw [List.getD_eq_getElem _ _ (by simpa using hj)]
  simp

theorem gradAxis_order_d : (gradAxis m st d d).order = 1 := by simp [gradAxis]

theorem gradAxis_order {j : ℕ} (hj : j ≠ d) : (gradAxis m st d j).order = 0 := by
  simp only [gradAxis]
  rw [if_neg]
  intro h
  exact hj (Option.some.inj h).symm

include hm in
theorem offs_eq {j : ℕ} (hj : j < m.nmesh.length) (i : ℤ) :
    offs m x j i = ((i : K) - (gradAxis m st d j).grid (x.getD j 0)) * m.cell j := by
  have := meshAxis_dist hm st hj (x.getD j 0) i
  unfold offs
  rw [this]
  rfl

theorem absStencil_nonneg {s : List (ℤ × K)} (h : ∀ p ∈ s, 0 ≤ p.2) : absStencil s = s := by
  unfold absStencil
  conv_rhs => rw [← List.map_id s]
  apply List.map_congr_left
  intro p hp
  simp [abs_of_nonneg (h p hp)]

theorem mom_one {j : ℕ} (hj : j < m.nmesh.length) (hjd : j ≠ d) : mom (gradStencils m st kind d x) j (fun _ => 1) = 1 := by
  unfold mom
  rw [gradStencils_getD st kind x hj]
  have := rawStencil_sum kind (gradAxis m st d j) (gradAxis_order st hjd) (x.getD j 0)
  simpa using this

include hd in
theorem mom_one_d : mom (gradStencils m st kind d x) d (fun _ => 1) = 0 := by
  unfold mom
  rw [gradStencils_getD st kind x hd]
  exact gradStencil_sum kind _ (gradAxis_order_d st) _

include hm in
theorem mom_offs (hk : kind ≠ .nnb) {j : ℕ} (hj : j < m.nmesh.length) (hjd : j ≠ d) :
    mom (gradStencils m st kind d x) j (offs m x j) = 0 := by
  unfold mom
  rw [gradStencils_getD st kind x hj]
  simp only [offs_eq (d := d) hm st x hj]
  have := rawStencil_first kind hk (gradAxis m st d j) (gradAxis_order st hjd) (x.getD j 0)
  have e : ((rawStencil kind (gradAxis m st d j) (x.getD j 0)).map fun p =>
      p.2 * (((p.1 : K) - (gradAxis m st d j).grid (x.getD j 0)) * m.cell j)) =
      (rawStencil kind (gradAxis m st d j) (x.getD j 0)).map fun p =>
      m.cell j * (p.2 * ((p.1 : K) - (gradAxis m st d j).grid (x.getD j 0))) := by
    apply List.map_congr_left; intro p _; ring
  rw [e, sum_mul_left', this, mul_zero]

include hm hd in
theorem mom_offs_d : mom (gradStencils m st kind d x) d (offs m x d) = gradFactor kind (m.scale.getD d 0) * m.cell d := by
  unfold mom
  rw [gradStencils_getD st kind x hd]
  simp only [offs_eq (d := d) hm st x hd]
  have := gradStencil_first kind (gradAxis m st d d) (gradAxis_order_d st) (x.getD d 0)
  have e : ((rawStencil kind (gradAxis m st d d) (x.getD d 0)).map fun p =>
      p.2 * (((p.1 : K) - (gradAxis m st d d).grid (x.getD d 0)) * m.cell d)) =
      (rawStencil kind (gradAxis m st d d) (x.getD d 0)).map fun p =>
      m.cell d * (p.2 * ((p.1 : K) - (gradAxis m st d d).grid (x.getD d 0))) := by
    apply List.map_congr_left; intro p _; ring
  rw [e, sum_mul_left', this, mul_comm]
  rfl

include hm hd in
theorem mom_offs_sq_d (hc : kind ≠ .cic) : mom (gradStencils m st kind d x) d (fun i => offs m x d i * offs m x d i) = 0 := by
  unfold mom
  rw [gradStencils_getD st kind x hd]
  simp only [offs_eq (d := d) hm st x hd]
  have := gradStencil_second kind hc (gradAxis m st d d) (gradAxis_order_d st) (x.getD d 0)
  have e : ((rawStencil kind (gradAxis m st d d) (x.getD d 0)).map fun p =>
      p.2 * (((p.1 : K) - (gradAxis m st d d).grid (x.getD d 0)) * m.cell d * (((p.1 : K) - (gradAxis m st d d).grid (x.getD d 0)) * m.cell d))) =
      (rawStencil kind (gradAxis m st d d) (x.getD d 0)).map fun p =>
      m.cell d ^ 2 * (p.2 * ((p.1 : K) - (gradAxis m st d d).grid (x.getD d 0)) ^ 2) := by
    apply List.map_congr_left; intro p _; ring
  rw [e, sum_mul_left', this, mul_zero]

theorem amom_one {j : ℕ} (hj : j < m.nmesh.length) (hjd : j ≠ d) : mom ((gradStencils m st kind d x).map absStencil) j (fun _ => 1) = 1 := by
  unfold mom
  rw [absStencils_getD st kind x hj, absStencil_nonneg (rawStencil_nonneg kind _ (gradAxis_order st hjd) _)]
  have := rawStencil_sum kind (gradAxis m st d j) (gradAxis_order st hjd) (x.getD j 0)
  simpa using this

include hm in
theorem scale_nonneg {j : ℕ} (hj : j < m.nmesh.length) : 0 ≤ m.scale.getD j 0 := by
  obtain ⟨h1, h2, _⟩ := hm.scale_cell hj
  by_contra h
  have := mul_neg_of_neg_of_pos (not_le.1 h) h1
  linarith

include hm hd in
theorem amom_d : 0 ≤ mom ((gradStencils m st kind d x).map absStencil) d (fun _ => 1) ∧
    mom ((gradStencils m st kind d x).map absStencil) d (fun _ => 1) ≤ 2 * gradFactor kind (m.scale.getD d 0) ∧
    mom ((gradStencils m st kind d x).map absStencil) d (fun i => offs m x d i ^ 2) ≤ gradFactor kind (m.scale.getD d 0) * m.cell d ^ 2 := by
  unfold mom
  rw [absStencils_getD st kind x hd]
  have h := gradStencil_abs kind (gradAxis m st d d) (scale_nonneg hm hd) (gradAxis_order_d st) (x.getD d 0)
  refine ⟨?_, h.1, ?_⟩
  · apply List.sum_nonneg
    intro y hy
    obtain ⟨p, hp, rfl⟩ := List.mem_map.1 hy
    obtain ⟨q, _, rfl⟩ := List.mem_map.1 hp
    simp
  · simp only [offs_eq (d := d) hm st x hd]
    have e : ((absStencil (rawStencil kind (gradAxis m st d d) (x.getD d 0))).map fun p =>
        p.2 * (((p.1 : K) - (gradAxis m st d d).grid (x.getD d 0)) * m.cell d) ^ 2) =
        (absStencil (rawStencil kind (gradAxis m st d d) (x.getD d 0))).map fun p =>
        m.cell d ^ 2 * (p.2 * ((p.1 : K) - (gradAxis m st d d).grid (x.getD d 0)) ^ 2) := by
      apply List.map_congr_left; intro p _; ring
    rw [e, sum_mul_left', mul_comm]
    exact mul_le_mul_of_nonneg_right h.2 (sq_nonneg _)

include hm in
theorem amom_sq {j : ℕ} (hj : j < m.nmesh.length) (hjd : j ≠ d) :
    0 ≤ mom ((gradStencils m st kind d x).map absStencil) j (fun i => offs m x j i ^ 2) ∧
    mom ((gradStencils m st kind d x).map absStencil) j (fun i => offs m x j i ^ 2) ≤ windowVariance kind * m.cell j ^ 2 := by
  unfold mom
  rw [absStencils_getD st kind x hj, absStencil_nonneg (rawStencil_nonneg kind _ (gradAxis_order st hjd) _)]
  constructor
  · apply List.sum_nonneg
    intro y hy
    obtain ⟨p, hp, rfl⟩ := List.mem_map.1 hy
    exact mul_nonneg (rawStencil_nonneg kind _ (gradAxis_order st hjd) _ p hp) (sq_nonneg _)
  · simp only [offs_eq (d := d) hm st x hj]
    have h := rawStencil_second kind (gradAxis m st d j) (gradAxis_order st hjd) (x.getD j 0)
    have e : ((rawStencil kind (gradAxis m st d j) (x.getD j 0)).map fun p =>
        p.2 * (((p.1 : K) - (gradAxis m st d j).grid (x.getD j 0)) * m.cell j) ^ 2) =
        (rawStencil kind (gradAxis m st d j) (x.getD j 0)).map fun p =>
        m.cell j ^ 2 * (p.2 * ((p.1 : K) - (gradAxis m st d j).grid (x.getD j 0)) ^ 2) := by
      apply List.map_congr_left; intro p _; ring
    rw [e, sum_mul_left', mul_comm]
    exact mul_le_mul_of_nonneg_right h (sq_nonneg _)

include hd in
theorem grad_const (a : K) : expect (gradStencils m st kind d x) (fun _ => a) = 0 := by
  have h := expect_smul a (gradStencils m st kind d x) fun _ => 1
  simp only [mul_one] at h
  rw [h, expect_one, gradStencils_len, Finset.prod_eq_zero (Finset.mem_range.2 hd) (mom_one_d st kind hd x), mul_zero]

include hm hd in
theorem grad_linear {j : ℕ} (hj : j < m.nmesh.length) :
    expect (gradStencils m st kind d x) (fun c => offs m x j (c.getD j 0)) =
      if j = d then gradFactor kind (m.scale.getD d 0) * m.cell d else 0 := by
  rw [expect_single _ (by rw [gradStencils_len]; exact hj), gradStencils_len]
  by_cases hjd : j = d
  · subst hjd
    rw [if_pos rfl, Finset.prod_eq_single j]
    · simp only [if_true]; exact mom_offs_d hm st kind hd x
    · intro i hi hij
      simp only [if_neg hij]
      exact mom_one st kind x (Finset.mem_range.1 hi) hij
    · intro h; exact absurd (Finset.mem_range.2 hd) h
  · rw [if_neg hjd]
    refine Finset.prod_eq_zero (Finset.mem_range.2 hd) ?_
    simp only [if_neg (Ne.symm hjd)]
    exact mom_one_d st kind hd x

include hm hd in
theorem grad_quadratic (hk : kind ≠ .nnb) (hc : kind ≠ .cic) {j k : ℕ} (hj : j < m.nmesh.length) (hk' : k < m.nmesh.length) :
    expect (gradStencils m st kind d x) (fun c => offs m x j (c.getD j 0) * offs m x k (c.getD k 0)) = 0 := by
  rw [expect_pair _ (by rw [gradStencils_len]; exact hj) (by rw [gradStencils_len]; exact hk'), gradStencils_len]
  by_cases hjd : j = d
  · by_cases hkd : k = d
    · refine Finset.prod_eq_zero (Finset.mem_range.2 hd) ?_
      subst hjd hkd
      simp only [if_true]
      exact mom_offs_sq_d hm st kind hd x hc
    · refine Finset.prod_eq_zero (Finset.mem_range.2 hk') ?_
      have : k ≠ j := by rw [hjd]; exact hkd
      simp only [if_true, if_neg this, one_mul]
      exact mom_offs hm st kind x hk hk' hkd
  · by_cases hkd : k = d
    · refine Finset.prod_eq_zero (Finset.mem_range.2 hj) ?_
      have : j ≠ k := by rw [hkd]; exact hjd
      simp only [if_true, if_neg this, mul_one]
      exact mom_offs hm st kind x hk hj hjd
    · refine Finset.prod_eq_zero (Finset.mem_range.2 hd) ?_
      simp only [if_neg (Ne.symm hjd), if_neg (Ne.symm hkd), mul_one]
      exact mom_one_d st kind hd x

theorem abs_len : ((gradStencils m st kind d x).map absStencil).length = m.nmesh.length := by simp [gradStencils]

include hm hd in
theorem abs_const {a : K} (ha : 0 ≤ a) :
    expect ((gradStencils m st kind d x).map absStencil) (fun _ => a) ≤ a * (2 * gradFactor kind (m.scale.getD d 0)) := by
  have h := expect_smul a ((gradStencils m st kind d x).map absStencil) fun _ => 1
  simp only [mul_one] at h
  rw [h, expect_one, abs_len, Finset.prod_eq_single d]
  · exact mul_le_mul_of_nonneg_left (amom_d hm st kind hd x).2.1 ha
  · intro i hi hid; exact amom_one st kind x (Finset.mem_range.1 hi) hid
  · intro h; exact absurd (Finset.mem_range.2 hd) h

include hm hd in
theorem abs_square {j : ℕ} (hj : j < m.nmesh.length) :
    expect ((gradStencils m st kind d x).map absStencil) (fun c => offs m x j (c.getD j 0) ^ 2) ≤
      if j = d then gradFactor kind (m.scale.getD d 0) * m.cell d ^ 2
      else 2 * gradFactor kind (m.scale.getD d 0) * (windowVariance kind * m.cell j ^ 2) := by
  have h := expect_single ((gradStencils m st kind d x).map absStencil) (by rw [abs_len]; exact hj) (fun i => offs m x j i ^ 2)
  rw [h, abs_len]
  obtain ⟨a0, a1, a2⟩ := amom_d hm st kind hd x
  by_cases hjd : j = d
  · subst hjd
    rw [if_pos rfl, Finset.prod_eq_single j]
    · simp only [if_true]; exact a2
    · intro i hi hij
      simp only [if_neg hij]
      exact amom_one st kind x (Finset.mem_range.1 hi) hij
    · intro h; exact absurd (Finset.mem_range.2 hd) h
  · rw [if_neg hjd, Finset.prod_eq_mul d j (Ne.symm hjd)]
    · simp only [if_true, if_neg (Ne.symm hjd)]
      obtain ⟨b0, b1⟩ := amom_sq hm st kind x hj hjd
      exact mul_le_mul a1 b1 b0 (a0.trans a1)
    · intro i hi hij
      simp only [if_neg hij.2]
      exact amom_one st kind x (Finset.mem_range.1 hi) hij.1
    · intro h; exact absurd (Finset.mem_range.2 hd) h
    · intro h; exact absurd (Finset.mem_range.2 hj) h

end

theorem posZ_offs (m : PMesh K) (x : List K) (c : List ℤ) {j : ℕ} (hj : j < m.nmesh.length) :
    (posZ m c).getD j 0 - x.getD j 0 = offs m x j (c.getD j 0) := by rw [posZ_getD m c hj]; rfl

theorem getD_nonneg {M : List K} (hM : ∀ b ∈ M, 0 ≤ b) (j : ℕ) : 0 ≤ M.getD j 0 := by
  by_cases hj : j < M.length
  · rw [List.getD_eq_getElem _ _ hj]; exact hM _ (List.getElem_mem _)
  · rw [List.getD_eq_default _ _ (by omega)]

/-- The gradient over the mesh, first order. -/
theorem grad_first_order {m : PMesh K} (hm : m.OK) (st : List ℤ) {kind : Tuned} (hk : kind ≠ .nnb) {d : ℕ} (hd : d < m.nmesh.length)
    {x : List K} (hx : x.length = m.nmesh.length) {φ : List K → K} {g M : List K} (hM : ∀ b ∈ M, 0 ≤ b) (hφ : Tangent φ g M x) :
    |expect (gradStencils m st kind d x) (fun c => φ (posZ m c)) - gradFactor kind (m.scale.getD d 0) * m.cell d * g.getD d 0| ≤
      gradFactor kind (m.scale.getD d 0) * (1 / 2 * (M.getD d 0 * m.cell d ^ 2) +
        windowVariance kind * ∑ j ∈ (Finset.range m.nmesh.length).erase d, M.getD j 0 * m.cell j ^ 2) := by
  obtain ⟨R, hR⟩ : ∃ R : List ℤ → K, R = fun c => φ (posZ m c) - φ x - ∑ j ∈ Finset.range m.nmesh.length, g.getD j 0 * offs m x j (c.getD j 0) :=
    ⟨_, rfl⟩
  have hb : ∀ c : List ℤ, |R c| ≤ 1 / 2 * ∑ j ∈ Finset.range m.nmesh.length, M.getD j 0 * offs m x j (c.getD j 0) ^ 2 := by
    intro c
    have h := hφ (posZ m c) (by rw [posZ_len, hx])
    rw [hx] at h
    have p1 : ∑ j ∈ Finset.range m.nmesh.length, g.getD j 0 * ((posZ m c).getD j 0 - x.getD j 0) =
        ∑ j ∈ Finset.range m.nmesh.length, g.getD j 0 * offs m x j (c.getD j 0) :=
      Finset.sum_congr rfl fun j hj => by rw [posZ_offs m x c (Finset.mem_range.1 hj)]
    have p2 : ∑ j ∈ Finset.range m.nmesh.length, M.getD j 0 * ((posZ m c).getD j 0 - x.getD j 0) ^ 2 =
        ∑ j ∈ Finset.range m.nmesh.length, M.getD j 0 * offs m x j (c.getD j 0) ^ 2 :=
      Finset.sum_congr rfl fun j hj => by rw [posZ_offs m x c (Finset.mem_range.1 hj)]
    rw [p1, p2] at h
    rw [hR]
    exact h
  have e : expect (gradStencils m st kind d x) (fun c => φ (posZ m c)) =
      expect (gradStencils m st kind d x) R + gradFactor kind (m.scale.getD d 0) * m.cell d * g.getD d 0 := by
    have e1 : (fun c => φ (posZ m c)) = fun c => R c + (φ x + ∑ j ∈ Finset.range m.nmesh.length, g.getD j 0 * offs m x j (c.getD j 0)) := by
      funext c; rw [hR]; ring
    rw [e1, expect_add, expect_add, grad_const st kind hd x, zero_add, expect_finset]
    congr 1
    rw [Finset.sum_eq_single d]
    · rw [expect_smul, grad_linear hm st kind hd x hd, if_pos rfl, mul_comm]
    · intro j hj hjd
      rw [expect_smul, grad_linear hm st kind hd x (Finset.mem_range.1 hj), if_neg hjd, mul_zero]
    · intro h; exact absurd (Finset.mem_range.2 hd) h
  rw [e, add_sub_cancel_right]
  refine (expect_abs _ (fun c _ _ => hb c)).trans ?_
  rw [expect_smul, expect_finset, ← Finset.add_sum_erase _ _ (Finset.mem_range.2 hd)]
  have h1 : expect ((gradStencils m st kind d x).map absStencil) (fun c => M.getD d 0 * offs m x d (c.getD d 0) ^ 2) ≤
      M.getD d 0 * (gradFactor kind (m.scale.getD d 0) * m.cell d ^ 2) := by
    rw [expect_smul]
    have := abs_square hm st kind hd x hd
    rw [if_pos rfl] at this
    exact mul_le_mul_of_nonneg_left this (getD_nonneg hM d)
  have h2 : ∑ j ∈ (Finset.range m.nmesh.length).erase d, expect ((gradStencils m st kind d x).map absStencil)
      (fun c => M.getD j 0 * offs m x j (c.getD j 0) ^ 2) ≤
      ∑ j ∈ (Finset.range m.nmesh.length).erase d, 2 * gradFactor kind (m.scale.getD d 0) * windowVariance kind * (M.getD j 0 * m.cell j ^ 2) := by
    apply Finset.sum_le_sum
    intro j hj
    rw [Finset.mem_erase, Finset.mem_range] at hj
    rw [expect_smul]
    have := abs_square hm st kind hd x hj.2
    rw [if_neg hj.1] at this
    refine (mul_le_mul_of_nonneg_left this (getD_nonneg hM j)).trans (le_of_eq ?_)
    ring
  rw [← Finset.mul_sum] at h2
  calc _ ≤ 1 / 2 * (M.getD d 0 * (gradFactor kind (m.scale.getD d 0) * m.cell d ^ 2) + 2 * gradFactor kind (m.scale.getD d 0) * windowVariance kind *
        ∑ j ∈ (Finset.range m.nmesh.length).erase d, M.getD j 0 * m.cell j ^ 2) :=
        mul_le_mul_of_nonneg_left (add_le_add h1 h2) (by norm_num)
    _ = _ := by ring

/-- The gradient over the mesh, second order. -/
theorem grad_second_order {m : PMesh K} (hm : m.OK) (st : List ℤ) {kind : Tuned} (hk : kind ≠ .nnb) (hc : kind ≠ .cic) {d : ℕ}
    (hd : d < m.nmesh.length) {x : List K} (hx : x.length = m.nmesh.length) {φ : List K → K} {g : List K} {H : ℕ → ℕ → K} {C : K}
    (hC : 0 ≤ C) (hφ : Osculating φ g H C x) :
    |expect (gradStencils m st kind d x) (fun c => φ (posZ m c)) - gradFactor kind (m.scale.getD d 0) * m.cell d * g.getD d 0| ≤
      C / 6 * (((Tuned.kern kind : Kern K).native : K) / 2 * ∑ j ∈ Finset.range m.nmesh.length, m.cell j) ^ 3 *
        (2 * gradFactor kind (m.scale.getD d 0)) := by
  obtain ⟨R, hR⟩ : ∃ R : List ℤ → K, R = fun c => φ (posZ m c) - φ x - ∑ j ∈ Finset.range m.nmesh.length, g.getD j 0 * offs m x j (c.getD j 0) -
      1 / 2 * ∑ j ∈ Finset.range m.nmesh.length, ∑ k ∈ Finset.range m.nmesh.length,
        H j k * (offs m x j (c.getD j 0) * offs m x k (c.getD k 0)) := ⟨_, rfl⟩
  have hb : ∀ c : List ℤ, |R c| ≤ C / 6 * (∑ j ∈ Finset.range m.nmesh.length, |offs m x j (c.getD j 0)|) ^ 3 := by
    intro c
    have h := hφ (posZ m c) (by rw [posZ_len, hx])
    rw [hx] at h
    have p1 : ∑ j ∈ Finset.range m.nmesh.length, g.getD j 0 * ((posZ m c).getD j 0 - x.getD j 0) =
        ∑ j ∈ Finset.range m.nmesh.length, g.getD j 0 * offs m x j (c.getD j 0) :=
      Finset.sum_congr rfl fun j hj => by rw [posZ_offs m x c (Finset.mem_range.1 hj)]
    have p2 : ∑ j ∈ Finset.range m.nmesh.length, ∑ k ∈ Finset.range m.nmesh.length,
        H j k * (((posZ m c).getD j 0 - x.getD j 0) * ((posZ m c).getD k 0 - x.getD k 0)) =
        ∑ j ∈ Finset.range m.nmesh.length, ∑ k ∈ Finset.range m.nmesh.length,
        H j k * (offs m x j (c.getD j 0) * offs m x k (c.getD k 0)) :=
      Finset.sum_congr rfl fun j hj => Finset.sum_congr rfl fun k hk => by
        rw [posZ_offs m x c (Finset.mem_range.1 hj), posZ_offs m x c (Finset.mem_range.1 hk)]
    have p3 : ∑ j ∈ Finset.range m.nmesh.length, |(posZ m c).getD j 0 - x.getD j 0| =
        ∑ j ∈ Finset.range m.nmesh.length, |offs m x j (c.getD j 0)| :=
      Finset.sum_congr rfl fun j hj => by rw [posZ_offs m x c (Finset.mem_range.1 hj)]
    rw [p1, p2, p3] at h
    rw [hR]
    exact h
  have e : expect (gradStencils m st kind d x) (fun c => φ (posZ m c)) =
      expect (gradStencils m st kind d x) R + gradFactor kind (m.scale.getD d 0) * m.cell d * g.getD d 0 := by
    have e1 : (fun c => φ (posZ m c)) = fun c => R c + (φ x + (∑ j ∈ Finset.range m.nmesh.length, g.getD j 0 * offs m x j (c.getD j 0) +
        1 / 2 * ∑ j ∈ Finset.range m.nmesh.length, ∑ k ∈ Finset.range m.nmesh.length,
        H j k * (offs m x j (c.getD j 0) * offs m x k (c.getD k 0)))) := by
      funext c; rw [hR]; ring
    rw [e1, expect_add, expect_add, grad_const st kind hd x, zero_add, expect_add, expect_finset, expect_smul, expect_finset]
    congr 1
    have z : ∑ j ∈ Finset.range m.nmesh.length, expect (gradStencils m st kind d x) (fun c => ∑ k ∈ Finset.range m.nmesh.length,
        H j k * (offs m x j (c.getD j 0) * offs m x k (c.getD k 0))) = 0 := by
      apply Finset.sum_eq_zero
      intro j hj
      rw [expect_finset]
      apply Finset.sum_eq_zero
      intro k hk'
      rw [expect_smul, grad_quadratic hm st kind hd x hk hc (Finset.mem_range.1 hj) (Finset.mem_range.1 hk'), mul_zero]
    rw [z, mul_zero, add_zero, Finset.sum_eq_single d]
    · rw [expect_smul, grad_linear hm st kind hd x hd, if_pos rfl, mul_comm]
    · intro j hj hjd
      rw [expect_smul, grad_linear hm st kind hd x (Finset.mem_range.1 hj), if_neg hjd, mul_zero]
    · intro h; exact absurd (Finset.mem_range.2 hd) h
  rw [e, add_sub_cancel_right]
  have hcell : 0 ≤ ∑ j ∈ Finset.range m.nmesh.length, m.cell j :=
    Finset.sum_nonneg fun j hj => (hm.scale_cell (Finset.mem_range.1 hj)).1.le
  refine (expect_abs _ (H := fun _ => C / 6 * (((Tuned.kern kind : Kern K).native : K) / 2 * ∑ j ∈ Finset.range m.nmesh.length, m.cell j) ^ 3)
    (fun c hcl hmem => (hb c).trans ?_)).trans (abs_const hm st kind hd x (by positivity))
  have hs : ∑ j ∈ Finset.range m.nmesh.length, |offs m x j (c.getD j 0)| ≤
      ((Tuned.kern kind : Kern K).native : K) / 2 * ∑ j ∈ Finset.range m.nmesh.length, m.cell j := by
    rw [Finset.mul_sum]
    apply Finset.sum_le_sum
    intro j hj
    rw [Finset.mem_range] at hj
    rw [gradStencils_len] at hcl
    rw [offs_eq (d := d) hm st x hj, abs_mul, abs_of_pos (hm.scale_cell hj).1]
    have hi := hmem j (by omega) (by rw [gradStencils_len]; exact hj)
    have e : (gradStencils m st kind d x)[j]'(by rw [gradStencils_len]; exact hj) = rawStencil kind (gradAxis m st d j) (x.getD j 0) := by
      simp [gradStencils]
    rw [e] at hi
    rw [List.getD_eq_getElem (l := c) _ (by omega)]
    exact mul_le_mul_of_nonneg_right (rawStencil_near kind _ _ _ hi) (hm.scale_cell hj).1.le
  have h0 : 0 ≤ ∑ j ∈ Finset.range m.nmesh.length, |offs m x j (c.getD j 0)| := Finset.sum_nonneg fun _ _ => abs_nonneg _
  exact mul_le_mul_of_nonneg_left (pow_le_pow_left₀ h0 hs 3) (by positivity)

end
end Pmesh
