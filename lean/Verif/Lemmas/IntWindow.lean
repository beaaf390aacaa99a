import Verif.Spec.IntWindow
import Verif.Lemmas.Stencil
import Verif.Lemmas.Index
import Mathlib.Tactic.Linarith
import Mathlib.Tactic.Positivity

/-! # Painting with the `int` of C: lemmas -/

namespace Pmesh

theorem cInt_some {z : ℤ} (h : -2147483648 ≤ z) (h' : z ≤ 2147483647) : cInt z = some z := if_pos ⟨h, h'⟩

theorem cInt_none {z : ℤ} (h : z < -2147483648 ∨ 2147483647 < z) : cInt z = none := if_neg (by omega)

theorem wrapDownC_eq {n : ℤ} (hn : 0 < n) : ∀ (m : ℕ) (t : ℤ), t.toNat = m → -2147483648 ≤ t → t ≤ 2147483647 → wrapDownC t n = some (wrapDown t n) := by
  intro m
  induction m using Nat.strong_induction_on with
  | _ m ih =>
    intro t hm h1 h2
    rw [wrapDownC, wrapDown]
    by_cases h : 0 < n ∧ n ≤ t
    · rw [dif_pos h, dif_pos h, cInt_some (by omega) (by omega)]
      exact ih (t - n).toNat (by omega) _ rfl (by omega) (by omega)
    · rw [dif_neg h, dif_neg h]

theorem wrapUpC_eq {n : ℤ} (hn : 0 < n) (hn' : n ≤ 2147483648) : ∀ (m : ℕ) (t : ℤ), (-t).toNat = m → -2147483648 ≤ t → t ≤ 2147483647 →
    wrapUpC t n = some (wrapUp t n) := by
  intro m
  induction m using Nat.strong_induction_on with
  | _ m ih =>
    intro t hm h1 h2
    rw [wrapUpC, wrapUp]
    by_cases h : 0 < n ∧ t < 0
    · rw [dif_pos h, dif_pos h, cInt_some (by omega) (by omega)]
      exact ih (-(t + n)).toNat (by omega) _ rfl (by omega) (by omega)
    · rw [dif_neg h, dif_neg h]

theorem wrapDown_range {n t : ℤ} (hn : 0 < n) (h1 : -2147483648 ≤ t) (h2 : t ≤ 2147483647) :
    -2147483648 ≤ wrapDown t n ∧ wrapDown t n ≤ 2147483647 := by
  rw [wrapDown_eq hn t]
  split_ifs with h
  · exact ⟨h1, h2⟩
  · have a : 0 ≤ t % n := Int.emod_nonneg t hn.ne'
    have b : t % n ≤ t := by
      by_cases hl : t < n
      · rw [Int.emod_eq_of_lt (by omega) hl]
      · exact ((Int.emod_lt_of_pos t hn).trans_le (by omega)).le
    constructor
    · exact le_trans (by norm_num) a
    · exact b.trans h2

section
variable {K : Type} [Field K] [LinearOrder K] [IsStrictOrderedRing K] [FloorRing K]

theorem nmax_eq {S : ℕ} (n : ℕ) (h : S ^ n ≤ 2147483647) :
    ((List.range n).foldlM (fun (nmax : ℤ) _ => cInt (nmax * S)) 1) = some (((S ^ n : ℕ)) : ℤ) := by
  induction n with
  | zero => simp
  | succ n ih =>
    have h' : S ^ n ≤ 2147483647 := by
      rcases Nat.eq_zero_or_pos S with h0 | h0
      · subst h0
        rcases Nat.eq_zero_or_pos n with h1 | h1
        · subst h1; norm_num
        · rw [zero_pow h1.ne']; norm_num
      · exact le_trans (Nat.pow_le_pow_right h0 (Nat.le_succ n)) h
    rw [List.range_succ, List.foldlM_append, ih h']
    simp only [List.foldlM_cons, List.foldlM_nil]
    have e : (((S ^ n : ℕ) : ℤ) * S) = ((S ^ (n + 1) : ℕ) : ℤ) := by push_cast; ring
    show (cInt (((S ^ n : ℕ) : ℤ) * S)).bind pure = _
    rw [e, cInt_some (by omega) (by omega)]
    rfl

theorem windowInfoC_eq {ndim native : ℕ} {support : K} (hS : (windowInfo native support).support ≤ 2147483647)
    (hp : (windowInfo native support).support ^ ndim ≤ 2147483647) :
    windowInfoC ndim native support = some (windowInfo native support) := by
  by_cases h : support ≤ 0
  · have hw : (windowInfo native support).support = native := by unfold windowInfo; simp [h]
    rw [hw] at hp
    unfold windowInfoC
    simp only [if_pos h]
    show ((List.range ndim).foldlM (fun (nmax : ℤ) _ => cInt (nmax * (native : ℤ))) 1).bind _ = _
    rw [nmax_eq ndim hp]
    unfold windowInfo
    simp only [if_pos h]
    rfl
  · have hf : 0 ≤ ⌊support⌋ := Int.floor_nonneg.2 (le_of_not_ge h)
    have hw : (windowInfo native support).support = ⌊support⌋.toNat + (if support ≠ (⌊support⌋.toNat : K) then 1 else 0) := by
      unfold windowInfo; simp [h]
    have hc : ((⌊support⌋.toNat : ℕ) : K) = (⌊support⌋ : K) := by
      have : ((⌊support⌋.toNat : ℕ) : ℤ) = ⌊support⌋ := Int.toNat_of_nonneg hf
      calc ((⌊support⌋.toNat : ℕ) : K) = (((⌊support⌋.toNat : ℕ) : ℤ) : K) := by push_cast; rfl
        _ = _ := by rw [this]
    rw [hc] at hw
    have hz : ⌊support⌋ + (if support ≠ (⌊support⌋ : K) then (1 : ℤ) else 0) = (((windowInfo native support).support : ℕ) : ℤ) := by
      rw [hw]
      split_ifs <;> push_cast <;> omega
    unfold windowInfoC
    simp only [if_neg h]
    have h1 : ⌊support⌋ ≤ 2147483647 := by
      have : (0 : ℤ) ≤ if support ≠ (⌊support⌋ : K) then (1 : ℤ) else 0 := by split_ifs <;> norm_num
      omega
    rw [cInt_some (by omega) h1]
    show ((cInt (⌊support⌋ + if support ≠ (⌊support⌋ : K) then (1 : ℤ) else 0)).bind _) = _
    rw [hz, cInt_some (by omega) (by omega)]
    show ((List.range ndim).foldlM (fun (nmax : ℤ) _ => cInt (nmax * (((windowInfo native support).support : ℕ) : ℤ))) 1).bind _ = _
    rw [nmax_eq ndim hp]
    show some _ = some _
    congr 1
    have e : ∀ S : ℕ, S = (windowInfo native support).support → (⟨((S : ℕ) : ℤ).toNat, native / support,
        support / 2 - ((((S : ℕ) : ℤ).toNat / 2 : ℕ) : K), (((S : ℕ) : ℤ) - 1) / 2⟩ : Win K) = windowInfo native support := by
      intro S hS
      have hS' : S = ⌊support⌋.toNat + (if support ≠ (⌊support⌋.toNat : K) then 1 else 0) := by rw [hS, hw, hc]
      unfold windowInfo
      simp only [if_neg h]
      rw [Int.toNat_natCast, ← hS']
    exact e _ rfl

theorem windowInfo_shift {native : ℕ} {support : K} : |(windowInfo native support).shift| ≤ 1 := by
  have key : ∀ (S : ℕ) (s : K), (S : K) - 1 ≤ s → s ≤ S → |s / 2 - ((S / 2 : ℕ) : K)| ≤ 1 := by
    intro S s h1 h2
    have h3 : S % 2 + 2 * (S / 2) = S := Nat.mod_add_div S 2
    have h4 : S % 2 < 2 := Nat.mod_lt _ (by norm_num)
    have h5 : ((S % 2 : ℕ) : K) + 2 * ((S / 2 : ℕ) : K) = S := by exact_mod_cast congrArg (Nat.cast (R := K)) h3
    have h6 : ((S % 2 : ℕ) : K) ≤ 1 := by exact_mod_cast (by omega : S % 2 ≤ 1)
    have h7 : (0 : K) ≤ ((S % 2 : ℕ) : K) := Nat.cast_nonneg _
    rw [abs_le]
    constructor <;> linarith
  unfold windowInfo
  by_cases h : support ≤ 0
  · simp only [if_pos h]
    exact key native native (by linarith) le_rfl
  · simp only [if_neg h]
    have hf : 0 ≤ ⌊support⌋ := Int.floor_nonneg.2 (le_of_not_ge h)
    have hc : ((⌊support⌋.toNat : ℕ) : K) = (⌊support⌋ : K) := by
      have : ((⌊support⌋.toNat : ℕ) : ℤ) = ⌊support⌋ := Int.toNat_of_nonneg hf
      calc ((⌊support⌋.toNat : ℕ) : K) = (((⌊support⌋.toNat : ℕ) : ℤ) : K) := by push_cast; rfl
        _ = _ := by rw [this]
    apply key
    · push_cast
      rw [hc]
      have := Int.floor_le support
      split_ifs <;> push_cast <;> linarith
    · push_cast
      rw [hc]
      have := (Int.lt_floor_add_one support).le
      split_ifs with h'
      · push_cast; exact this
      · push_cast; push Not at h'; linarith

theorem wrapUp_range {n t : ℤ} (hn : 0 < n) (hn' : n ≤ 2147483648) (h1 : -2147483648 ≤ t) (h2 : t ≤ 2147483647) :
    -2147483648 ≤ wrapUp t n ∧ wrapUp t n ≤ 2147483647 := by
  rw [wrapUp_eq hn t]
  split_ifs with h
  · have a : 0 ≤ t % n := Int.emod_nonneg t hn.ne'
    have b : t % n < n := Int.emod_lt_of_pos t hn
    constructor <;> linarith
  · exact ⟨h1, h2⟩

theorem tunedWrapC_eq {period : ℕ} {t : ℤ} (hn : period ≤ 2147483648) (h1 : -2147483648 ≤ t) (h2 : t ≤ 2147483647) :
    tunedWrapC period t = some (tunedWrap period t) := by
  unfold tunedWrapC tunedWrap
  by_cases h : period = 0
  · rw [if_pos h, if_pos h]
  · rw [if_neg h, if_neg h, wrapUpC_eq (by omega) (by exact_mod_cast hn) _ t rfl h1 h2]
    have := wrapUp_range (n := (period : ℤ)) (by omega) (by exact_mod_cast hn) h1 h2
    exact wrapDownC_eq (by omega) _ _ rfl this.1 this.2

theorem floor_fits {y : K} {b : ℤ} (h : |y| ≤ b) : -b ≤ ⌊y⌋ ∧ ⌊y⌋ ≤ b := by
  rw [abs_le] at h
  constructor
  · rw [Int.le_floor]; push_cast; exact h.1
  · have := Int.floor_le y
    have h2 : (⌊y⌋ : K) ≤ (b : K) := this.trans h.2
    exact_mod_cast h2

theorem int_floor_near (y : K) : -1 ≤ (⌊y⌋ : K) - y ∧ (⌊y⌋ : K) - y ≤ 0 := by
  have h1 := Int.floor_le y
  have h2 := (Int.lt_floor_add_one y).le
  constructor <;> linarith

theorem int_of_abs {z : ℤ} (h : |(z : K)| ≤ 2147483647) : -2147483648 ≤ z ∧ z ≤ 2147483647 := by
  rw [abs_le] at h
  have h1 : ((-2147483647 : ℤ) : K) ≤ (z : K) := by push_cast; exact h.1
  have h2 : (z : K) ≤ ((2147483647 : ℤ) : K) := by push_cast; exact h.2
  have h1' := Int.cast_le.1 h1
  have h2' := Int.cast_le.1 h2
  omega

theorem fillAxisC_eq {k : Kern K} {native : ℕ} {support : K} {ax : PAxis K} {x : K}
    (h : CellFits (windowInfo native support).support ax x) :
    fillAxisC k (windowInfo native support) ax x = some (fillAxis k (windowInfo native support) ax x) ∧
    ∀ r < (windowInfo native support).support, |(((fillAxis k (windowInfo native support) ax x).1 + (r : ℕ) : ℤ) : K)| ≤ 2147483647 := by
  set w := windowInfo native support with hw
  have hl : w.left = ((w.support : ℤ) - 1) / 2 := rfl
  have hs : |w.shift| ≤ 1 := windowInfo_shift
  have hf := int_floor_near (ax.grid x + w.shift)
  have hg := h.2
  have hS : (0 : K) ≤ (w.support : K) := Nat.cast_nonneg _
  have hll : -1 ≤ w.left ∧ w.left ≤ w.support := by rw [hl]; omega
  have hl1 : (-1 : K) ≤ (w.left : K) := by exact_mod_cast hll.1
  have hl2 : (w.left : K) ≤ (w.support : K) := by exact_mod_cast hll.2
  have hfit : |((⌊ax.grid x + w.shift⌋ - w.left : ℤ) : K)| ≤ 2147483647 := by
    push_cast
    rw [abs_le] at hs ⊢
    have a1 := le_abs_self (ax.grid x)
    have a2 := neg_abs_le (ax.grid x)
    constructor <;> linarith
  refine ⟨?_, ?_⟩
  · unfold fillAxisC fillAxis
    have := int_of_abs hfit
    simp only [cInt_some this.1 this.2]
    rfl
  · intro r hr
    have hr' : ((r : ℕ) : K) + 1 ≤ (w.support : K) := by exact_mod_cast hr
    have hr0 : (0 : K) ≤ ((r : ℕ) : K) := Nat.cast_nonneg _
    unfold fillAxis
    simp only
    push_cast
    have hl3 : (0 : K) ≤ (w.left : K) := by
      have : 0 ≤ w.left := by rw [hl]; omega
      exact_mod_cast this
    rw [abs_le] at hs ⊢
    have a1 := le_abs_self (ax.grid x)
    have a2 := neg_abs_le (ax.grid x)
    constructor <;> linarith

theorem pointLoopC_eq (axes : List (PAxis K)) : ∀ (ks : List (ℤ × List K)) (rs : List ℕ) (ind : ℤ) (kernel : K),
    (∀ a ∈ axes, a.period ≤ 2147483648) → (∀ a ∈ ks.zip rs, |((a.1.1 + (a.2 : ℕ) : ℤ) : K)| ≤ 2147483647) →
    pointLoopC axes ks rs ind kernel = some (pointLoop axes ks rs ind kernel) := by
  induction axes with
  | nil => intro ks rs ind kernel _ _; rw [pointLoopC, pointLoop] <;> simp
  | cons ax axs ih =>
    intro ks rs ind kernel hp hk
    match ks, rs with
    | [], _ => rw [pointLoopC, pointLoop] <;> simp
    | _ :: _, [] => rw [pointLoopC, pointLoop] <;> simp
    | (ipos, kd) :: ks, r :: rs =>
      rw [pointLoopC, pointLoop]
      have hpa := hp ax (by simp)
      have h0 := int_of_abs (hk ((ipos, kd), r) (by simp))
      have ih' := fun ind kernel => ih ks rs ind kernel (fun a ha => hp a (by simp [ha])) (fun a ha => hk a (by simp [ha]))
      simp only at h0
      rw [cInt_some h0.1 h0.2]
      simp only [Option.bind_eq_bind, Option.bind_some]
      by_cases h : 0 < ax.period
      · have hr := wrapDown_range (n := (ax.period : ℤ)) (by omega) h0.1 h0.2
        have hw : ((wrapDownC (ipos + (r : ℤ)) ax.period).bind fun t => wrapUpC t ax.period) = some (wrapLoop (ipos + (r : ℤ)) ax.period) := by
          rw [wrapDownC_eq (by omega) _ _ rfl h0.1 h0.2]
          exact wrapUpC_eq (by omega) (by exact_mod_cast hpa) _ _ rfl hr.1 hr.2
        simp only [if_pos h, hw, Option.bind_some, ih']
        split_ifs <;> rfl
      · simp only [if_neg h, ih']
        split_ifs <;> rfl

theorem mapM_some {α β : Type} {f : α → Option β} {g : α → β} : ∀ {l : List α}, (∀ a ∈ l, f a = some (g a)) → l.mapM f = some (l.map g) := by
  intro l
  induction l with
  | nil => intro _; rfl
  | cons a l ih =>
    intro h
    rw [List.mapM_cons, h a (by simp), ih fun b hb => h b (by simp [hb])]
    rfl

theorem tunedIntsC_eq {t : Tuned} {ax : PAxis K} {x : K} (h : CellFits (Tuned.kern t : Kern K).native ax x) :
    tunedIntsC t ax x = some (tunedSetup t ax x).1 ∧ ∀ i ∈ (tunedSetup t ax x).1, -2147483648 ≤ i ∧ i ≤ 2147483647 := by
  have hg := h.2
  have a1 := le_abs_self (ax.grid x)
  have a2 := neg_abs_le (ax.grid x)
  have f1 := int_floor_near (ax.grid x)
  have f2 := int_floor_near (ax.grid x + 1 / 2)
  have step : ∀ {z : ℤ}, |(z : K)| ≤ 2147483647 → cInt z = some z := fun hz => cInt_some (int_of_abs hz).1 (int_of_abs hz).2
  cases t with
  | nnb =>
    simp only [Tuned.kern, nearestK, Nat.cast_one] at hg
    have h0 : |((⌊ax.grid x + 1 / 2⌋ : ℤ) : K)| ≤ 2147483647 := by rw [abs_le]; constructor <;> linarith
    refine ⟨?_, ?_⟩
    · simp only [tunedIntsC, tunedSetup, step h0]; rfl
    · simp only [tunedSetup, List.mem_singleton, forall_eq]
      exact int_of_abs h0
  | cic =>
    simp only [Tuned.kern, linearK, Nat.cast_ofNat] at hg
    have h0 : |((⌊ax.grid x⌋ : ℤ) : K)| ≤ 2147483647 := by rw [abs_le]; constructor <;> linarith
    have h1 : |((⌊ax.grid x⌋ + 1 : ℤ) : K)| ≤ 2147483647 := by push_cast; rw [abs_le]; constructor <;> linarith
    refine ⟨?_, ?_⟩
    · simp only [tunedIntsC, tunedSetup, step h0, Option.bind_eq_bind, Option.bind_some, step h1]
    · simp only [tunedSetup, List.mem_cons, List.not_mem_nil, or_false, forall_eq_or_imp, forall_eq]
      exact ⟨int_of_abs h0, int_of_abs h1⟩
  | tsc =>
    simp only [Tuned.kern, quadraticK, Nat.cast_ofNat] at hg
    have h0 : |((⌊ax.grid x + 1 / 2⌋ : ℤ) : K)| ≤ 2147483647 := by rw [abs_le]; constructor <;> linarith
    have h1 : |((⌊ax.grid x + 1 / 2⌋ - 1 : ℤ) : K)| ≤ 2147483647 := by push_cast; rw [abs_le]; constructor <;> linarith
    have h2 : |((⌊ax.grid x + 1 / 2⌋ + 1 : ℤ) : K)| ≤ 2147483647 := by push_cast; rw [abs_le]; constructor <;> linarith
    refine ⟨?_, ?_⟩
    · simp only [tunedIntsC, tunedSetup, step h0, Option.bind_eq_bind, Option.bind_some, step h1, step h2]
    · simp only [tunedSetup, List.mem_cons, List.not_mem_nil, or_false, forall_eq_or_imp, forall_eq]
      exact ⟨int_of_abs h1, int_of_abs h0, int_of_abs h2⟩
  | pcs =>
    simp only [Tuned.kern, cubicK, Nat.cast_ofNat] at hg
    have h0 : |((⌊ax.grid x⌋ : ℤ) : K)| ≤ 2147483647 := by rw [abs_le]; constructor <;> linarith
    have h1 : |((⌊ax.grid x⌋ - 1 : ℤ) : K)| ≤ 2147483647 := by push_cast; rw [abs_le]; constructor <;> linarith
    have h2 : |((⌊ax.grid x⌋ + 1 : ℤ) : K)| ≤ 2147483647 := by push_cast; rw [abs_le]; constructor <;> linarith
    have h3 : |((⌊ax.grid x⌋ + 1 + 1 : ℤ) : K)| ≤ 2147483647 := by push_cast; rw [abs_le]; constructor <;> linarith
    refine ⟨?_, ?_⟩
    · simp only [tunedIntsC, tunedSetup, step h0, Option.bind_eq_bind, Option.bind_some, step h1, step h2, step h3]
    · simp only [tunedSetup, List.mem_cons, List.not_mem_nil, or_false, forall_eq_or_imp, forall_eq]
      exact ⟨int_of_abs h1, int_of_abs h0, int_of_abs h2, int_of_abs h3⟩

theorem tunedCellsC_eq {t : Tuned} {axes : List (PAxis K)} {pos : List K}
    (h : ∀ a ∈ axes.zip pos, CellFits (Tuned.kern t : Kern K).native a.1 a.2) :
    tunedCellsC t axes pos = some (tunedCells t axes pos) := by
  unfold tunedCellsC tunedCells
  rw [mapM_some (g := fun a => (tunedSetup t a.1 a.2).1.map (tunedWrap a.1.period))]
  · rw [List.map_zip_eq_zipWith]
    rfl
  · intro a ha
    have h1 := tunedIntsC_eq (h a ha)
    rw [h1.1, Option.bind_some]
    exact mapM_some fun i hi => tunedWrapC_eq (h a ha).1 (h1.2 i hi).1 (h1.2 i hi).2

theorem windowInfo_pos {native : ℕ} (hn : 0 < native) {support : K} : 0 < (windowInfo native support).support := by
  unfold windowInfo
  by_cases h : support ≤ 0
  · simp [h, hn]
  · simp only [if_neg h]
    by_contra hc
    have h0 : ⌊support⌋.toNat = 0 := by omega
    rw [h0] at hc
    have : support ≠ ((0 : ℕ) : K) := by push_cast; intro e; exact h e.le
    rw [if_pos this] at hc
    omega

theorem genericAccessC_eq {k : Kern K} {native : ℕ} (hn : 0 < native) {support : K} {axes : List (PAxis K)} (hne : axes ≠ []) {pos : List K}
    (hlen : pos.length = axes.length) (h : ∀ a ∈ axes.zip pos, CellFits (windowInfo native support).support a.1 a.2) :
    genericAccessC k (windowInfo native support) axes pos = genericAccess k (windowInfo native support) axes pos := by
  set w := windowInfo native support with hw
  have hks : (axes.zip pos).mapM (fun a => fillAxisC k w a.1 a.2) = some (List.zipWith (fillAxis k w) axes pos) := by
    rw [mapM_some (g := fun a => fillAxis k w a.1 a.2) fun a ha => (fillAxisC_eq (h a ha)).1, List.map_zip_eq_zipWith]
    rfl
  unfold genericAccessC genericAccess
  rw [hks, relLoop_eq _ _ (windowInfo_pos hn) (List.length_pos_iff.2 hne)]
  simp only [Option.bind_eq_bind, Option.bind_some, Option.map_some]
  rw [mapM_some (g := fun rel => pointLoop axes (List.zipWith (fillAxis k w) axes pos) rel 0 1)]
  · simp [List.filterMap_map]
  · intro rel hrel
    rw [mem_ndindex] at hrel
    apply pointLoopC_eq
    · intro a ha
      obtain ⟨i, hi, rfl⟩ := List.getElem_of_mem ha
      exact (h (axes[i], pos[i]'(by omega)) (List.mem_iff_getElem.2 ⟨i, by simp; omega, by simp⟩)).1
    · intro a ha
      obtain ⟨i, hi, rfl⟩ := List.getElem_of_mem ha
      simp only [List.length_zip, List.length_zipWith] at hi
      simp only [List.getElem_zip, List.getElem_zipWith]
      have hi1 : i < axes.length := by omega
      have hm := h (axes[i], pos[i]'(by omega)) (List.mem_iff_getElem.2 ⟨i, by simp; omega, by simp⟩)
      refine (fillAxisC_eq (k := k) hm).2 _ ?_
      have := List.forall₂_iff_get.1 hrel
      have := this.2 i (by simp; omega) (by omega)
      simpa using this

theorem mapM_none {α β : Type} {f : α → Option β} : ∀ {l : List α} {a : α}, a ∈ l → f a = none → l.mapM f = none := by
  intro l a ha h
  induction l with
  | nil => cases ha
  | cons b l ih =>
    rw [List.mapM_cons]
    rcases List.mem_cons.1 ha with rfl | ha
    · rw [h]; rfl
    · cases f b with
      | none => rfl
      | some y => rw [ih ha]; rfl

theorem nmax_none {S : ℕ} (n : ℕ) (h : 2147483647 < S ^ n) :
    ((List.range n).foldlM (fun (nmax : ℤ) _ => cInt (nmax * S)) 1) = none := by
  induction n with
  | zero => simp at h
  | succ n ih =>
    rw [List.range_succ, List.foldlM_append]
    by_cases h' : 2147483647 < S ^ n
    · rw [ih h']; rfl
    · rw [nmax_eq n (by omega)]
      simp only [List.foldlM_cons, List.foldlM_nil]
      show (cInt (((S ^ n : ℕ) : ℤ) * S)).bind pure = _
      have e : (((S ^ n : ℕ) : ℤ) * S) = ((S ^ (n + 1) : ℕ) : ℤ) := by push_cast; ring
      rw [e, cInt_none (by right; exact_mod_cast h)]
      rfl

theorem windowInfoC_none {ndim native : ℕ} {support : K} (hp : 2147483647 < (windowInfo native support).support ^ ndim) :
    windowInfoC ndim native support = none := by
  by_cases h : support ≤ 0
  · have hw : (windowInfo native support).support = native := by unfold windowInfo; simp [h]
    rw [hw] at hp
    unfold windowInfoC
    simp only [if_pos h]
    show ((List.range ndim).foldlM (fun (nmax : ℤ) _ => cInt (nmax * (native : ℤ))) 1).bind _ = _
    rw [nmax_none ndim hp]
    rfl
  · have hf : 0 ≤ ⌊support⌋ := Int.floor_nonneg.2 (le_of_not_ge h)
    have hw : (windowInfo native support).support = ⌊support⌋.toNat + (if support ≠ (⌊support⌋.toNat : K) then 1 else 0) := by
      unfold windowInfo; simp [h]
    have hc : ((⌊support⌋.toNat : ℕ) : K) = (⌊support⌋ : K) := by
      have : ((⌊support⌋.toNat : ℕ) : ℤ) = ⌊support⌋ := Int.toNat_of_nonneg hf
      calc ((⌊support⌋.toNat : ℕ) : K) = (((⌊support⌋.toNat : ℕ) : ℤ) : K) := by push_cast; rfl
        _ = _ := by rw [this]
    rw [hc] at hw
    have hz : ⌊support⌋ + (if support ≠ (⌊support⌋ : K) then (1 : ℤ) else 0) = (((windowInfo native support).support : ℕ) : ℤ) := by
      rw [hw]
      split_ifs <;> push_cast <;> omega
    unfold windowInfoC
    simp only [if_neg h]
    cases h1 : cInt ⌊support⌋ with
    | none => rfl
    | some s =>
      have hs : s = ⌊support⌋ := by
        unfold cInt at h1
        split_ifs at h1
        cases h1
        rfl
      subst hs
      show ((cInt (⌊support⌋ + if support ≠ (⌊support⌋ : K) then (1 : ℤ) else 0)).bind _) = _
      rw [hz]
      cases h2 : cInt (((windowInfo native support).support : ℕ) : ℤ) with
      | none => rfl
      | some s =>
        have hs : s = (((windowInfo native support).support : ℕ) : ℤ) := by
          unfold cInt at h2
          split_ifs at h2
          cases h2
          rfl
        subst hs
        show ((List.range ndim).foldlM (fun (nmax : ℤ) _ => cInt (nmax * (((windowInfo native support).support : ℕ) : ℤ))) 1).bind _ = _
        rw [nmax_none ndim hp]
        rfl

theorem floor_far {y : K} {b : ℤ} (h : (b : K) ≤ |y|) : ⌊y⌋ ≤ -b ∨ b ≤ ⌊y⌋ := by
  rcases le_abs.1 h with h | h
  · right; exact Int.le_floor.2 h
  · left
    have h1 := Int.floor_le y
    have h2 : (⌊y⌋ : K) ≤ ((-b : ℤ) : K) := by push_cast; linarith
    exact_mod_cast h2

theorem fillAxisC_none {k : Kern K} {native : ℕ} {support : K} {ax : PAxis K} {x : K}
    (h : 2147483648 + (windowInfo native support).support + 3 ≤ |ax.grid x|) : fillAxisC k (windowInfo native support) ax x = none := by
  set w := windowInfo native support with hw
  have hl : w.left = ((w.support : ℤ) - 1) / 2 := rfl
  have hs : |w.shift| ≤ 1 := windowInfo_shift
  have h1 : (((2147483648 + w.support + 2 : ℕ) : ℤ) : K) ≤ |ax.grid x + w.shift| := by
    have := abs_sub_abs_le_abs_sub (ax.grid x) (-w.shift)
    rw [abs_neg, sub_neg_eq_add] at this
    push_cast
    linarith
  have := floor_far h1
  unfold fillAxisC
  simp only
  rw [cInt_none (by push_cast at this; omega)]
  rfl

theorem tunedIntsC_none {t : Tuned} {ax : PAxis K} {x : K} (h : 2147483648 + 2 ≤ |ax.grid x|) : tunedIntsC t ax x = none := by
  have h1 : (((2147483649 : ℕ) : ℤ) : K) ≤ |ax.grid x| := by push_cast; linarith
  have h2 : (((2147483649 : ℕ) : ℤ) : K) ≤ |ax.grid x + 1 / 2| := by
    have := abs_sub_abs_le_abs_sub (ax.grid x) (-(1 / 2))
    rw [abs_neg, sub_neg_eq_add, abs_of_pos (by norm_num : (0 : K) < 1 / 2)] at this
    push_cast
    linarith
  have e1 := cInt_none (z := ⌊ax.grid x⌋) (by have := floor_far h1; omega)
  have e2 := cInt_none (z := ⌊ax.grid x + 1 / 2⌋) (by have := floor_far h2; omega)
  cases t <;> simp only [tunedIntsC, e1, e2] <;> rfl

end
end Pmesh
