import Verif.Lemmas.AxisWeight

set_option linter.unusedSectionVars false

namespace Pmesh
section
variable {K : Type*} [Field K] [LinearOrder K] [IsStrictOrderedRing K] [FloorRing K]

/-- Deposit of one particle of unit mass at an address. -/
def unitDeposit (P : Painter K) (p : Particle K) (a : ℤ) : K :=
  ((ndindex (shapeOf P.axes)).map fun c =>
    cwProd (List.zipWith (axisStencil P p.hsml) P.axes p.pos) c * (if elemAddr P.axes c = a then 1 else 0)).sum

theorem paint_eq (P : Painter K) (hP : P.Valid) (ps : List (Particle K)) (hl : ∀ p ∈ ps, p.pos.length = P.axes.length)
    (mem : ℤ → K) :
    paint P mem ps = some fun a => mem a + (ps.map fun p => p.mass * unitDeposit P p a).sum := by
  unfold paint
  induction ps generalizing mem with
  | nil => simp [List.foldlM]
  | cons p ps ih =>
    rw [List.foldlM_cons, paintOne_eq P mem p.pos p.mass p.hsml hP.native_pos hP.axes_ne (hl p (by simp))]
    simp only [Option.bind_eq_bind, Option.bind_some]
    rw [ih (fun q hq => hl q (by simp [hq]))]
    simp only [List.map_cons, List.sum_cons, Option.some.injEq]
    funext a
    simp only [unitDeposit]
    ring

theorem readout_eq (P : Painter K) (hP : P.Valid) (ps : List (Particle K)) (hl : ∀ p ∈ ps, p.pos.length = P.axes.length)
    (mem : ℤ → K) :
    readout P mem ps = some (ps.map fun p => ((ndindex (shapeOf P.axes)).map fun c =>
        cwProd (List.zipWith (axisStencil P p.hsml) P.axes p.pos) c * mem (elemAddr P.axes c)).sum) := by
  unfold readout
  induction ps with
  | nil => rfl
  | cons p ps ih =>
    rw [List.mapM_cons, readoutOne_eq P mem p.pos p.hsml hP.native_pos hP.axes_ne (hl p (by simp)),
      ih (fun q hq => hl q (by simp [hq]))]
    rfl

theorem sum_ite_eq_of_nodup {α : Type*} (l : List α) (hnd : l.Nodup) (f : α → K) (P : α → Prop) [DecidablePred P]
    (c : α) (hc : c ∈ l) (hP : ∀ x ∈ l, P x ↔ x = c) : (l.map fun x => f x * (if P x then 1 else 0)).sum = f c := by
  induction l with
  | nil => simp at hc
  | cons a l ih =>
    rw [List.nodup_cons] at hnd
    simp only [List.map_cons, List.sum_cons]
    rcases List.mem_cons.mp hc with rfl | hc
    · rw [if_pos ((hP c (by simp)).mpr rfl)]
      have : (l.map fun x => f x * (if P x then 1 else 0)).sum = 0 := by
        apply List.sum_eq_zero
        intro y hy
        obtain ⟨x, hx, rfl⟩ := List.mem_map.mp hy
        have : ¬ P x := by
          intro h
          have := (hP x (by simp [hx])).mp h
          subst this; exact hnd.1 hx
        simp [this]
      rw [this]; ring
    · have : ¬ P a := by
        intro h
        have := (hP a (by simp)).mp h
        subst this; exact hnd.1 hc
      rw [if_neg this, ih hnd.2 hc (fun x hx => hP x (by simp [hx]))]; ring

theorem unitDeposit_elem (P : Painter K) (hd : DistinctElems P.axes) (p : Particle K) (c : List ℕ)
    (hc : ValidIndex (shapeOf P.axes) c) :
    unitDeposit P p (elemAddr P.axes c) = cwProd (List.zipWith (axisStencil P p.hsml) P.axes p.pos) c := by
  unfold unitDeposit
  rw [sum_ite_eq_of_nodup _ (ndindex_nodup _) _ _ c (mem_ndindex.mpr hc)]
  intro x hx
  constructor
  · intro h; exact hd x c (mem_ndindex.mp hx) hc h
  · rintro rfl; rfl

theorem unitDeposit_other (P : Painter K) (p : Particle K) (a : ℤ)
    (ha : ∀ c, ValidIndex (shapeOf P.axes) c → a ≠ elemAddr P.axes c) : unitDeposit P p a = 0 := by
  unfold unitDeposit
  apply List.sum_eq_zero
  intro y hy
  obtain ⟨c, hc, rfl⟩ := List.mem_map.mp hy
  rw [if_neg (fun h => ha c (mem_ndindex.mp hc) h.symm), mul_zero]

/-! ### exact windows -/

theorem fast_exact {P : Painter K} (hP : P.Valid) {p : Particle K} (hf : Faithful P p) {t : Tuned}
    (h : fastMethod P (partWin P p.hsml) = some t) :
    P.kern = Tuned.kern t ∧ windowSize P p.hsml = P.kern.native ∧ ∀ q ∈ List.zip P.axes p.pos, TunedExact t q.1 q.2 := by
  obtain ⟨h1, h2, h3, h4⟩ := fastMethod_dim h
  have hk := hP.tuned_kern t h1
  obtain ⟨s, hspos, hs, hvf, hip, hle, hlt⟩ := windowInfo_eq hP.native_pos (P.support * p.hsml)
  have hsw : s = windowSize P p.hsml := hs
  have h3' : (windowInfo P.kern.native (P.support * p.hsml)).support = P.kern.native :=
    h3.trans (by rw [hk])
  rw [h3', hsw] at hle hlt
  rcases hf t h1 with h | h | h | h
  · omega
  · exfalso; linarith
  · exfalso; linarith
  · exact ⟨hk, h.1, h.2⟩

theorem axisStencil_gen {P : Painter K} (hP : P.Valid) {p : Particle K} (hf : Faithful P p) {ax : PAxis K} {x : K}
    (hx : (ax, x) ∈ List.zip P.axes p.pos) :
    axisStencil P p.hsml ax x = genStencil P.kern (partWin P p.hsml) ax x := by
  unfold axisStencil
  cases h : fastMethod P (partWin P p.hsml) with
  | none => rfl
  | some t =>
    obtain ⟨h1, h2, h3⟩ := fast_exact hP hf h
    simp only
    unfold partWin
    rw [h1]
    apply tunedStencil_eq
    · rw [← h1]; exact h2
    · exact h3 _ hx

theorem zipWith_congr_mem {α β γ : Type*} (f g : α → β → γ) (l : List α) (l' : List β)
    (h : ∀ a b, (a, b) ∈ List.zip l l' → f a b = g a b) : List.zipWith f l l' = List.zipWith g l l' := by
  induction l generalizing l' with
  | nil => simp
  | cons a l ih =>
    cases l' with
    | nil => simp
    | cons b l' =>
      simp only [List.zipWith_cons_cons]
      rw [h a b (by simp), ih l' (fun x y hxy => h x y (by simp [hxy]))]

theorem cwProd_gen (k : Kern K) (hk : Confined k) (s0 : K) : ∀ (axes : List (PAxis K)) (pos : List K) (c : List ℕ),
    cwProd (List.zipWith (genStencil k (windowInfo k.native s0)) axes pos) c =
      cellWeight k (if s0 ≤ 0 then (k.native : K) else s0) axes pos c := by
  intro axes
  induction axes with
  | nil => intro pos c; simp [cwProd, cellWeight]
  | cons ax axs ih =>
    intro pos c
    cases pos with
    | nil => simp [cwProd, cellWeight]
    | cons x xs =>
      cases c with
      | nil => simp [cwProd, cellWeight]
      | cons i is =>
        simp only [List.zipWith_cons_cons, cwProd, cellWeight, ih, cw_eq_axisWeight hk]

theorem cwProd_cellWeight {P : Painter K} (hP : P.Valid) (hk : Confined P.kern) {p : Particle K} (hf : Faithful P p)
    (c : List ℕ) :
    cwProd (List.zipWith (axisStencil P p.hsml) P.axes p.pos) c =
      cellWeight P.kern (windowSize P p.hsml) P.axes p.pos c := by
  rw [zipWith_congr_mem _ (genStencil P.kern (partWin P p.hsml)) _ _ (fun a b h => axisStencil_gen hP hf h)]
  exact cwProd_gen P.kern hk _ _ _ _

/-! ### kernels that are not confined -/

theorem cutKern_confined (k : Kern K) (hn : 0 < k.native) : Confined (cutKern k) := by
  constructor <;> simp only [cutKern]
  · exact hn
  · intro x hx; rw [if_neg]; rintro ⟨h1, _⟩; linarith
  · intro x hx; rw [if_neg]; rintro ⟨_, h1⟩; linarith
  · intro x hx; rw [if_neg]; rintro ⟨h1, _⟩; linarith
  · intro x hx; rw [if_neg]; rintro ⟨_, h1⟩; linarith

/-- With an integer window size the painter looks at the kernel only inside `[-native/2, native/2)`. -/
theorem genStencil_cut (k : Kern K) (hn : 0 < k.native) (s0 : K) (S : ℕ)
    (hs : (if s0 ≤ 0 then (k.native : K) else s0) = S) (ax : PAxis K) (x : K) :
    genStencil k (windowInfo k.native s0) ax x = genStencil (cutKern k) (windowInfo k.native s0) ax x := by
  obtain ⟨s, hspos, hs', hvf, hip, hle, hlt⟩ := windowInfo_eq hn s0
  have e : s = S := by rw [hs', hs]
  subst e
  have hS : (windowInfo k.native s0).support = S := by
    have h1 : S ≤ (windowInfo k.native s0).support := by exact_mod_cast hle
    have h2 : (windowInfo k.native s0).support < S + 1 := by exact_mod_cast hlt
    omega
  unfold genStencil
  apply List.map_congr_left
  intro r hr
  rw [List.mem_range, hS] at hr
  simp only [Prod.mk.injEq]
  refine ⟨rfl, ?_⟩
  simp only [fillAxis]
  rw [hip (ax.grid x), hS, hvf]
  have hnp : (0 : K) < k.native := by exact_mod_cast hn
  have hv : 0 < (k.native : K) / S := div_pos hnp hspos
  have key : ((S : K) / 2) * ((k.native : K) / S) = k.native / 2 := by field_simp
  have h1 := Int.floor_le (ax.grid x + (S : K) / 2)
  have h2 := Int.lt_floor_add_one (ax.grid x + (S : K) / 2)
  have hrS : (r : K) ≤ S - 1 := by
    have : (r : ℤ) ≤ S - 1 := by omega
    exact_mod_cast this
  have hr0 : (0 : K) ≤ r := by exact_mod_cast Nat.zero_le r
  set y := (ax.grid x - ((⌊ax.grid x + (S : K) / 2⌋ - ((S : ℤ) - 1) : ℤ) : K) - (r : K)) with hy
  have hylow : -((S : K) / 2) ≤ y := by rw [hy]; push_cast; linarith
  have hyhigh : y < (S : K) / 2 := by rw [hy]; push_cast; linarith
  have c1 : -(k.native / 2 : K) ≤ y * (k.native / S) := by
    rw [← key, ← neg_mul]; exact mul_le_mul_of_nonneg_right hylow hv.le
  have c2 : y * (k.native / S) < (k.native / 2 : K) := by
    rw [← key]; exact mul_lt_mul_of_pos_right hyhigh hv
  rw [List.getD_eq_getElem _ _ (by simpa using hr), List.getD_eq_getElem _ _ (by simpa using hr)]
  simp only [List.getElem_map, List.getElem_range, cutKern]
  rw [← hy, if_pos (show _ ∧ _ from ⟨c1, c2⟩), if_pos (show _ ∧ _ from ⟨c1, c2⟩)]

/-! ### moments -/

theorem tunedVals_sum (t : Tuned) (ax : PAxis K) (ho : ax.order = 0) (x : K) : (tunedSetup t ax x).2.sum = 1 := by
  cases t <;> simp only [tunedSetup, ho, if_true, List.sum_cons, List.sum_nil] <;> push_cast <;> ring

theorem tunedVals_first (t : Tuned) (ht : t ≠ .nnb) (ax : PAxis K) (ho : ax.order = 0) (x : K) :
    (List.zipWith (fun (i : ℤ) v => v * (i : K)) (tunedSetup t ax x).1 (tunedSetup t ax x).2).sum = ax.grid x := by
  cases t
  · exact absurd rfl ht
  all_goals
    simp only [tunedSetup, ho, if_true, List.zipWith_cons_cons, List.zipWith_nil_right, List.sum_cons, List.sum_nil]
    push_cast
    ring

/-- Sum of the weights of a stencil that lies inside the array. -/
theorem sum_cw_all (n : ℕ) (st : List (ℤ × K)) (h : ∀ p ∈ st, 0 ≤ p.1 ∧ p.1 < (n : ℤ)) (G : ℤ → K) :
    ((List.range n).map fun (c : ℕ) => cw st c * G c).sum = (st.map fun p => p.2 * G p.1).sum := by
  rw [sum_cw]
  congr 1
  apply List.map_congr_left
  intro p hp
  rw [if_pos (h p hp)]

theorem genWrap_range (period : ℕ) (h : 0 < period) (t : ℤ) : 0 ≤ genWrap period t ∧ genWrap period t < period := by
  unfold genWrap
  rw [if_pos h, wrapLoop_eq (by omega)]
  exact ⟨Int.emod_nonneg _ (by omega), Int.emod_lt_of_pos _ (by omega)⟩

theorem tunedStencil_map (t : Tuned) (ax : PAxis K) (x : K) (G : ℤ → K) :
    ((tunedStencil t ax x).map fun p => p.2 * G p.1).sum =
      (List.zipWith (fun (i : ℤ) v => v * G (genWrap ax.period i)) (tunedSetup t ax x).1 (tunedSetup t ax x).2).sum := by
  unfold tunedStencil
  rw [List.zip_eq_zipWith, List.map_zipWith, List.zipWith_map_left]
  simp only [tunedWrap_eq]

theorem zipWith_snd_sum (l : List ℤ) (v : List K) (h : l.length = v.length) :
    (List.zipWith (fun (_ : ℤ) v => v) l v).sum = v.sum := by
  induction l generalizing v with
  | nil => cases v with
    | nil => simp
    | cons => simp at h
  | cons a l ih => cases v with
    | nil => simp at h
    | cons b v => simp [ih v (by simpa using h)]

theorem sum_ndindex_cwProd : ∀ (axes : List (PAxis K)) (sts : List (List (ℤ × K))), sts.length = axes.length →
    ((ndindex (shapeOf axes)).map fun c => cwProd sts c).sum =
      (List.zipWith (fun (ax : PAxis K) st => ((List.range ax.size).map fun (c : ℕ) => cw st c).sum) axes sts).prod := by
  intro axes
  induction axes with
  | nil => intro sts h; simp [shapeOf, ndindex, cwProd]
  | cons ax axs ih =>
    intro sts h
    match sts, h with
    | st :: sts, h =>
      have hih := ih sts (by simpa using h)
      simp only [shapeOf, List.map_cons, ndindex, List.zipWith_cons_cons, List.prod_cons]
      rw [sum_flatMap', ← hih]
      have : ∀ a : ℕ, (List.map (fun c => cwProd (st :: sts) c) (List.map (fun t => a :: t)
          (ndindex (List.map (·.size) axs)))).sum = (((ndindex (shapeOf axs)).map fun c => cwProd sts c).sum) * cw st a := by
        intro a
        rw [List.map_map, mul_comm, ← sum_mul_left']
        rfl
      simp only [this]
      rw [sum_mul_left']; ring

/-! ### shifts -/

theorem grid_floor {ax : PAxis K} {x x' : K} {n : ℤ} (h : ax.grid x' = ax.grid x + n) (y : K) :
    ⌊ax.grid x' + y⌋ = ⌊ax.grid x + y⌋ + n := by
  rw [h, show ax.grid x + n + y = (ax.grid x + y) + (n : K) by ring, Int.floor_add_intCast]

theorem genStencil_shift (k : Kern K) (w : Win K) {ax : PAxis K} {x x' : K} {n : ℤ} (h : ax.grid x' = ax.grid x + n) :
    ∃ raw : List (ℤ × K), genStencil k w ax x = raw.map (fun p => (genWrap ax.period p.1, p.2)) ∧
      genStencil k w ax x' = raw.map (fun p => (genWrap ax.period (p.1 + n), p.2)) := by
  have hv : (fillAxis k w ax x').2 = (fillAxis k w ax x).2 := by
    unfold fillAxis
    simp only
    rw [grid_floor h, h]
    apply List.map_congr_left
    intro i _
    have : ax.grid x + (n : K) - ((⌊ax.grid x + w.shift⌋ + n - w.left : ℤ) : K) =
      ax.grid x - ((⌊ax.grid x + w.shift⌋ - w.left : ℤ) : K) := by push_cast; ring
    rw [this]
  have hi : (fillAxis k w ax x').1 = (fillAxis k w ax x).1 + n := by
    unfold fillAxis
    simp only
    rw [grid_floor h]; ring
  refine ⟨(List.range w.support).map fun (r : ℕ) => ((fillAxis k w ax x).1 + r, (fillAxis k w ax x).2.getD r 0), ?_, ?_⟩
  · unfold genStencil; rw [List.map_map]; rfl
  · unfold genStencil; rw [List.map_map, hv, hi]
    apply List.map_congr_left
    intro r _
    simp only [Function.comp]
    rw [show (fillAxis k w ax x).1 + n + (r : ℤ) = (fillAxis k w ax x).1 + r + n by ring]

theorem tunedSetup_shift (t : Tuned) {ax : PAxis K} {x x' : K} {n : ℤ} (h : ax.grid x' = ax.grid x + n) :
    (tunedSetup t ax x').1 = (tunedSetup t ax x).1.map (· + n) ∧ (tunedSetup t ax x').2 = (tunedSetup t ax x).2 := by
  have hf := grid_floor h (1 / 2)
  have hf0 : ⌊ax.grid x'⌋ = ⌊ax.grid x⌋ + n := by have := grid_floor h 0; simpa using this
  cases t
  · simp only [tunedSetup, hf, List.map_cons, List.map_nil]; trivial
  · simp only [tunedSetup, hf0, List.map_cons, List.map_nil]
    have e0 : ax.grid x' - ((⌊ax.grid x⌋ + n : ℤ) : K) = ax.grid x - (⌊ax.grid x⌋ : K) := by rw [h]; push_cast; ring
    rw [e0]
    refine ⟨?_, rfl⟩
    simp only [List.cons.injEq, and_true, true_and]
    ring
  · simp only [tunedSetup, hf, List.map_cons, List.map_nil]
    set i := ⌊ax.grid x + 1 / 2⌋
    have e0 : ax.grid x' - ((i + n - 1 : ℤ) : K) = ax.grid x - ((i - 1 : ℤ) : K) := by rw [h]; push_cast; ring
    have e1 : ax.grid x' - ((i + n : ℤ) : K) = ax.grid x - (i : K) := by rw [h]; push_cast; ring
    have e2 : ax.grid x' - ((i + n + 1 : ℤ) : K) = ax.grid x - ((i + 1 : ℤ) : K) := by rw [h]; push_cast; ring
    rw [e0, e1, e2]
    refine ⟨?_, rfl⟩
    simp only [List.cons.injEq, and_true, true_and]
    exact ⟨by ring, by ring⟩
  · simp only [tunedSetup, hf0, List.map_cons, List.map_nil]
    set i := ⌊ax.grid x⌋
    have e0 : ax.grid x' - ((i + n - 1 : ℤ) : K) = ax.grid x - ((i - 1 : ℤ) : K) := by rw [h]; push_cast; ring
    have e1 : ax.grid x' - ((i + n : ℤ) : K) = ax.grid x - (i : K) := by rw [h]; push_cast; ring
    have e2 : ax.grid x' - ((i + n + 1 : ℤ) : K) = ax.grid x - ((i + 1 : ℤ) : K) := by rw [h]; push_cast; ring
    have e3 : ax.grid x' - ((i + n + 1 + 1 : ℤ) : K) = ax.grid x - ((i + 1 + 1 : ℤ) : K) := by rw [h]; push_cast; ring
    rw [e0, e1, e2, e3]
    refine ⟨?_, rfl⟩
    simp only [List.cons.injEq, and_true, true_and]
    exact ⟨by ring, by ring, by ring⟩

theorem axisStencil_shift (P : Painter K) (hs : K) {ax : PAxis K} {x x' : K} {n : ℤ} (h : ax.grid x' = ax.grid x + n) :
    ∃ raw : List (ℤ × K), axisStencil P hs ax x = raw.map (fun p => (genWrap ax.period p.1, p.2)) ∧
      axisStencil P hs ax x' = raw.map (fun p => (genWrap ax.period (p.1 + n), p.2)) := by
  unfold axisStencil
  cases fastMethod P (partWin P hs) with
  | none => exact genStencil_shift _ _ h
  | some t =>
    obtain ⟨h1, h2⟩ := tunedSetup_shift t h
    refine ⟨List.zip (tunedSetup t ax x).1 (tunedSetup t ax x).2, ?_, ?_⟩
    · simp only [tunedStencil, List.zip_map_left]
      apply List.map_congr_left
      intro p _
      simp [Prod.map, tunedWrap_eq]
    · simp only [tunedStencil, h1, h2, List.zip_map_left, List.map_map]
      apply List.map_congr_left
      intro p _
      simp [Prod.map, tunedWrap_eq]

theorem genWrap_add_period (period : ℕ) (t m : ℤ) : genWrap period (t + m * period) = genWrap period t := by
  unfold genWrap
  split
  · next h => rw [wrapLoop_eq (by omega), wrapLoop_eq (by omega)]; simp
  · next h =>
    have : period = 0 := by omega
    subst this; simp

theorem cw_shift (P : Painter K) (hs : K) {ax : PAxis K} {x x' : K} {n : ℤ} (h : ax.grid x' = ax.grid x + n)
    {c c' : ℕ} (hc : c < ax.size)
    (hm : (n = 0 ∧ c' = c) ∨ (0 < ax.size ∧ ax.period = ax.size ∧ (c' : ℤ) = (c + n) % ax.size)) :
    cw (axisStencil P hs ax x') c' = cw (axisStencil P hs ax x) c := by
  obtain ⟨raw, h1, h2⟩ := axisStencil_shift P hs h
  rw [h1, h2]
  unfold cw
  rw [List.map_map, List.map_map]
  congr 1
  apply List.map_congr_left
  intro p _
  simp only [Function.comp]
  rcases hm with ⟨rfl, rfl⟩ | ⟨hp, hpe, hc'⟩
  · simp
  · congr 1
    unfold genWrap
    rw [if_pos (by omega), if_pos (by omega), wrapLoop_eq (by omega), wrapLoop_eq (by omega), hpe, hc']
    rw [eq_iff_iff]
    constructor
    · intro he
      have h3 : p.1 % (ax.size : ℤ) = (c : ℤ) % ax.size := Int.ModEq.add_right_cancel' n he
      rw [h3]; exact Int.emod_eq_of_lt (by omega) (by omega)
    · intro he
      rw [← he]; simp

theorem cwProd_shift (P : Painter K) (hs : K) : ∀ (axes : List (PAxis K)) (ns : List ℤ) (xs xs' : List K) (c c' : List ℕ),
    MovedBy axes ns xs xs' → ValidIndex (shapeOf axes) c → CellMoved axes ns c c' →
    cwProd (List.zipWith (axisStencil P hs) axes xs') c' = cwProd (List.zipWith (axisStencil P hs) axes xs) c := by
  intro axes
  induction axes with
  | nil => intro ns xs xs' c c' h1 h2 h3; simp [cwProd]
  | cons ax axs ih =>
    intro ns xs xs' c c' h1 h2 h3
    match ns, xs, xs', c, c', h1, h2, h3 with
    | n :: ns, x :: xs, x' :: xs', c :: cs, c' :: cs', h1, h2, h3 =>
      obtain ⟨h1a, h1b⟩ := h1
      obtain ⟨h3a, h3b⟩ := h3
      obtain ⟨h2a, h2b⟩ : c < ax.size ∧ ValidIndex (shapeOf axs) cs := by
        cases h2 with | cons a b => exact ⟨a, b⟩
      simp only [List.zipWith_cons_cons, cwProd]
      rw [cw_shift P hs (show ax.grid x' = ax.grid x + n from h1a) h2a h3a, ih ns xs xs' cs cs' h1b h2b h3b]

theorem zipWith_stencil_box (P : Painter K) (hs : K) : ∀ (axes : List (PAxis K)) (ns : List ℤ) (xs xs' : List K),
    MovedBy axes ns xs xs' → (∀ q ∈ List.zip axes ns, ∃ m : ℤ, q.2 = m * q.1.period) →
    List.zipWith (axisStencil P hs) axes xs' = List.zipWith (axisStencil P hs) axes xs := by
  intro axes
  induction axes with
  | nil => intro ns xs xs' _ _; simp
  | cons ax axs ih =>
    intro ns xs xs' h1 h2
    match ns, xs, xs', h1, h2 with
    | n :: ns, x :: xs, x' :: xs', h1, h2 =>
      obtain ⟨h1a, h1b⟩ := h1
      simp only [List.zipWith_cons_cons]
      rw [ih ns xs xs' h1b (fun q hq => h2 q (by simp [hq]))]
      obtain ⟨m, hm⟩ := h2 (ax, n) (by simp)
      simp only at hm
      obtain ⟨raw, e1, e2⟩ := axisStencil_shift P hs (show ax.grid x' = ax.grid x + n from h1a)
      rw [e1, e2]
      congr 1
      apply List.map_congr_left
      intro p _
      rw [hm, genWrap_add_period]

theorem MovedBy.length {axes : List (PAxis K)} {ns : List ℤ} {xs xs' : List K} (h : MovedBy axes ns xs xs') :
    xs.length = axes.length ∧ xs'.length = axes.length := by
  induction axes generalizing ns xs xs' with
  | nil =>
    match ns, xs, xs', h with
    | [], [], [], _ => simp
  | cons ax axs ih =>
    match ns, xs, xs', h with
    | n :: ns, x :: xs, x' :: xs', h =>
      have := ih h.2
      simp [this.1, this.2]

/-! ### linear fields -/

theorem sum_linear : ∀ (axes : List (PAxis K)) (sts : List (List (ℤ × K))) (bs gs : List K),
    sts.length = axes.length → bs.length = axes.length → gs.length = axes.length →
    (∀ i (h : i < axes.length) (h1 : i < sts.length) (h2 : i < bs.length) (h3 : i < gs.length),
      ((List.range axes[i].size).map fun (c : ℕ) => cw sts[i] c).sum = 1 ∧
      ((List.range axes[i].size).map fun (c : ℕ) => cw sts[i] c * (bs[i] * (c : K))).sum = bs[i] * gs[i]) →
    ∀ a : K, ((ndindex (shapeOf axes)).map fun c => cwProd sts c * linAt a bs (c.map (Nat.cast : ℕ → K))).sum =
      linAt a bs gs := by
  intro axes
  induction axes with
  | nil =>
    intro sts bs gs h1 h2 h3 _ a
    have e2 : bs = [] := List.length_eq_zero_iff.mp (by simpa using h2)
    subst e2
    simp [shapeOf, ndindex, cwProd, linAt]
  | cons ax axs ih =>
    intro sts bs gs h1 h2 h3 hm a
    match sts, bs, gs, h1, h2, h3, hm with
    | st :: sts, b :: bs, g :: gs, h1, h2, h3, hm =>
      have hih := ih sts bs gs (by simpa using h1) (by simpa using h2) (by simpa using h3)
        (fun i h h1 h2 h3 => hm (i + 1) (by simpa using h) (by simpa using h1) (by simpa using h2) (by simpa using h3))
      obtain ⟨m0, m1⟩ := hm 0 (by simp) (by simp) (by simp) (by simp)
      simp only [List.getElem_cons_zero] at m0 m1
      simp only [shapeOf, List.map_cons, ndindex]
      rw [sum_flatMap']
      have : ∀ d : ℕ, (List.map (fun c => cwProd (st :: sts) c * linAt a (b :: bs) (c.map (Nat.cast : ℕ → K)))
          (List.map (fun t => d :: t) (ndindex (List.map (·.size) axs)))).sum =
          cw st d * linAt (a + b * d) bs gs := by
        intro d
        rw [List.map_map, ← hih (a + b * d), ← sum_mul_left']
        congr 1
        apply List.map_congr_left
        intro c _
        simp only [Function.comp, cwProd, linAt, List.map_cons, List.zipWith_cons_cons, List.sum_cons]
        ring
      simp only [this]
      have e : ∀ d : ℕ, cw st d * linAt (a + b * d) bs gs = cw st d * (b * (d : K)) + linAt a bs gs * cw st d := by
        intro d; unfold linAt; ring
      simp only [e]
      rw [sum_map_add, m1, sum_mul_left', m0]
      simp only [linAt, List.zipWith_cons_cons, List.sum_cons]
      ring

theorem sum_mul_left'' (l : List K) (r : K) : (l.map fun b => r * b).sum = r * l.sum := by
  induction l with
  | nil => simp
  | cons a l ih => simp [ih, mul_add]

theorem interior_cells (kind : Tuned) (ax : PAxis K) (x : K) (hint : Interior (Tuned.kern kind : Kern K).native ax x)
    {t : ℤ} (ht : t ∈ (tunedSetup kind ax x).1) : 0 ≤ t ∧ t < ax.size := by
  obtain ⟨h1, h2, _⟩ := hint
  have hg : x * ax.scale + ax.translate = ax.grid x := rfl
  rw [hg] at h1 h2
  have f1 := Int.floor_le (ax.grid x)
  have f2 := Int.lt_floor_add_one (ax.grid x)
  have f3 := Int.floor_le (ax.grid x + 1 / 2)
  have f4 := Int.lt_floor_add_one (ax.grid x + 1 / 2)
  cases kind <;> simp only [tunedSetup, List.mem_cons, List.not_mem_nil, or_false, Tuned.kern, nearestK, linearK,
    quadraticK, cubicK] at ht h1 h2 <;> push_cast at h1 h2
  · subst ht
    constructor
    · have : (-1 : K) < (⌊ax.grid x + 1 / 2⌋ : K) := by linarith
      have : (-1 : ℤ) < ⌊ax.grid x + 1 / 2⌋ := by exact_mod_cast this
      omega
    · have : (⌊ax.grid x + 1 / 2⌋ : K) < (ax.size : K) := by linarith
      exact_mod_cast this
  · have a1 : (-1 : K) < (⌊ax.grid x⌋ : K) := by linarith
    have a1' : (-1 : ℤ) < ⌊ax.grid x⌋ := by exact_mod_cast a1
    have a2 : (⌊ax.grid x⌋ : K) + 1 < (ax.size : K) := by linarith
    have a2' : ⌊ax.grid x⌋ + 1 < (ax.size : ℤ) := by exact_mod_cast a2
    rcases ht with rfl | rfl <;> omega
  · have a1 : (-1 : K) < (⌊ax.grid x + 1 / 2⌋ : K) - 1 := by linarith
    have a1' : (-1 : ℤ) < ⌊ax.grid x + 1 / 2⌋ - 1 := by exact_mod_cast a1
    have a2 : (⌊ax.grid x + 1 / 2⌋ : K) + 1 < (ax.size : K) := by linarith
    have a2' : ⌊ax.grid x + 1 / 2⌋ + 1 < (ax.size : ℤ) := by exact_mod_cast a2
    rcases ht with rfl | rfl | rfl <;> omega
  · have a1 : (-1 : K) < (⌊ax.grid x⌋ : K) - 1 := by linarith
    have a1' : (-1 : ℤ) < ⌊ax.grid x⌋ - 1 := by exact_mod_cast a1
    have a2 : (⌊ax.grid x⌋ : K) + 2 < (ax.size : K) := by linarith
    have a2' : ⌊ax.grid x⌋ + 2 < (ax.size : ℤ) := by exact_mod_cast a2
    rcases ht with rfl | rfl | rfl | rfl <;> omega

theorem interior_nowrap (kind : Tuned) (ax : PAxis K) (x : K) (hint : Interior (Tuned.kern kind : Kern K).native ax x)
    {t : ℤ} (ht : t ∈ (tunedSetup kind ax x).1) : genWrap ax.period t = t := by
  have hr := interior_cells kind ax x hint ht
  have h3 := hint.2.2
  unfold genWrap
  split
  · rw [wrapLoop_eq (by omega), Int.emod_eq_of_lt (by omega) (by omega)]
  · rfl

theorem linear_axis (kind : Tuned) (ax : PAxis K) (x b : K) (ho : ax.order = 0)
    (hb : (FullPeriod ax ∧ b = 0) ∨ (Interior (Tuned.kern kind : Kern K).native ax x ∧ (kind ≠ .nnb ∨ b = 0))) :
    ((List.range ax.size).map fun (c : ℕ) => cw (tunedStencil kind ax x) c).sum = 1 ∧
    ((List.range ax.size).map fun (c : ℕ) => cw (tunedStencil kind ax x) c * (b * (c : K))).sum = b * ax.grid x := by
  have hlen := tunedSetup_length kind ax x
  -- all cells of the stencil lie in the array
  have hin : ∀ q ∈ tunedStencil kind ax x, 0 ≤ q.1 ∧ q.1 < (ax.size : ℤ) := by
    intro q hq
    unfold tunedStencil at hq
    obtain ⟨t, ht, htq⟩ := List.mem_map.mp (List.of_mem_zip hq).1
    rw [← htq, tunedWrap_eq]
    rcases hb with ⟨⟨hp, hpe⟩, _⟩ | ⟨⟨h1, h2, h3⟩, _⟩
    · rw [← hpe]; exact genWrap_range _ (by omega) t
    · rw [interior_nowrap kind ax x ⟨h1, h2, h3⟩ ht]; exact interior_cells kind ax x ⟨h1, h2, h3⟩ ht
  have m0 := sum_cw_all ax.size _ hin (fun _ => 1)
  simp only [mul_one] at m0
  have hz := tunedStencil_map kind ax x (fun _ => 1)
  simp only [mul_one] at hz
  rw [hz, zipWith_snd_sum _ _ (by rw [hlen.1, hlen.2]), tunedVals_sum kind ax ho] at m0
  refine ⟨m0, ?_⟩
  by_cases hb0 : b = 0
  · subst hb0; simp
  · have hint : Interior (Tuned.kern kind : Kern K).native ax x ∧ kind ≠ .nnb := by
      rcases hb with h | h
      · exact absurd h.2 hb0
      · exact ⟨h.1, h.2.resolve_right hb0⟩
    have m1 := sum_cw_all ax.size _ hin (fun c => b * (c : K))
    simp only [Int.cast_natCast] at m1
    rw [m1, tunedStencil_map kind ax x (fun c => b * (c : K))]
    rw [← tunedVals_first kind hint.2 ax ho x, ← sum_mul_left'' ]
    congr 1
    apply List.ext_getElem
    · simp
    · intro i h1 h2
      simp only [List.getElem_zipWith, List.getElem_map]
      rw [interior_nowrap kind ax x hint.1 (List.getElem_mem _)]
      ring

end
end Pmesh
