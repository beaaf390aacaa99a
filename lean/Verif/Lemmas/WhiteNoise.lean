import Verif.Spec.WhiteNoise
import Mathlib.Data.List.Nodup
import Mathlib.Tactic.Linarith
import Mathlib.Tactic.Ring

/-! # The seed tables -/

set_option linter.unusedSectionVars false

namespace Pmesh

theorem mem_intRange {lo hi x : ℤ} : x ∈ intRange lo hi ↔ lo ≤ x ∧ x < hi := by
  unfold intRange
  rw [List.mem_map]
  constructor
  · rintro ⟨n, hn, rfl⟩
    rw [List.mem_range] at hn
    omega
  · rintro ⟨h1, h2⟩
    exact ⟨(x - lo).toNat, by rw [List.mem_range]; omega, by omega⟩

theorem intRange_nodup (lo hi : ℤ) : (intRange lo hi).Nodup := by
  unfold intRange
  refine List.Nodup.map ?_ List.nodup_range
  intro a b h
  simp only at h
  omega

theorem rowMajor_inj {z a b a' b' : ℤ} (hb : 0 ≤ b) (hbz : b < z) (hb' : 0 ≤ b') (hbz' : b' < z) (h : a * z + b = a' * z + b') :
    a = a' ∧ b = b' := by
  have : (a - a') * z = b' - b := by linarith
  have h0 : a - a' = 0 := by
    by_contra hne
    rcases lt_or_gt_of_ne hne with hlt | hgt
    · have : (a - a') * z ≤ -1 * z := by apply mul_le_mul_of_nonneg_right <;> omega
      omega
    · have : 1 * z ≤ (a - a') * z := by apply mul_le_mul_of_nonneg_right <;> omega
      omega
  rw [h0, zero_mul] at this
  omega

/-- What `SETSEED` changes. -/
theorem getSeed_setSeed (g : NoiseGen) (t : SeedTables) (a b i j : ℤ) (s : ℕ) (hi : g.start 0 ≤ i ∧ i < g.start 0 + g.size 0)
    (hj : g.start 1 ≤ j ∧ j < g.start 1 + g.size 1) {d1 d2 : ℕ} (hd1 : d1 < 2) (hd2 : d2 < 2) :
    getSeed g (setSeed g a b s t) i j d1 d2 =
      if conjIndex (g.nmesh 0) a d1 = i ∧ conjIndex (g.nmesh 1) b d2 = j then s else getSeed g t i j d1 d2 := by
  have one : ∀ (e1 e2 : ℕ) (t : SeedTables),
      getSeed g (if 0 ≤ conjIndex (g.nmesh 0) a e1 - g.start 0 ∧ conjIndex (g.nmesh 0) a e1 - g.start 0 < g.size 0 ∧
          0 ≤ conjIndex (g.nmesh 1) b e2 - g.start 1 ∧ conjIndex (g.nmesh 1) b e2 - g.start 1 < g.size 1 then
        fun e1' e2' x => if e1' = e1 ∧ e2' = e2 ∧ x = (conjIndex (g.nmesh 0) a e1 - g.start 0) * g.size 1 +
          (conjIndex (g.nmesh 1) b e2 - g.start 1) then s else t e1' e2' x else t) i j d1 d2 =
      if (d1 = e1 ∧ d2 = e2) ∧ conjIndex (g.nmesh 0) a e1 = i ∧ conjIndex (g.nmesh 1) b e2 = j then s
      else getSeed g t i j d1 d2 := by
    intro e1 e2 t
    set A := conjIndex (g.nmesh 0) a e1
    set B := conjIndex (g.nmesh 1) b e2
    split_ifs with h1 h2 h2
    · unfold getSeed
      simp only
      rw [if_pos ⟨h2.1.1, h2.1.2, by rw [h2.2.1, h2.2.2]⟩]
    · unfold getSeed
      simp only
      rw [if_neg]
      rintro ⟨r1, r2, r3⟩
      obtain ⟨u, v⟩ := rowMajor_inj (by omega) (by omega) (by omega) (by omega) r3
      exact h2 ⟨⟨r1, r2⟩, by omega, by omega⟩
    · exact absurd ⟨by omega, by omega, by omega, by omega⟩ h1
    · rfl
  unfold setSeed
  simp only [List.foldl_cons, List.foldl_nil]
  rw [one 1 1, one 1 0, one 0 1, one 0 0]
  obtain rfl | rfl : d1 = 0 ∨ d1 = 1 := by omega
  all_goals obtain rfl | rfl : d2 = 0 ∨ d2 = 1 := by omega
  all_goals simp

/-- The seed that table `d1, d2` has for a column: the one of the last call with that column. -/
def colSeed (n0 n1 : ℤ) (d1 d2 : ℕ) (i j : ℤ) (l : List ((ℤ × ℤ) × ℕ)) (c : ℕ := 0) : ℕ :=
  l.foldl (fun c v => if conjIndex n0 v.1.1 d1 = i ∧ conjIndex n1 v.1.2 d2 = j then v.2 else c) c

/-- The calls of `SETSEED` with their seeds. -/
def seedCalls {σ D : Type} [Field D] [LinearOrder D] [FloorRing D] (r : Rng σ D) (rnd : D → D) (n0 n1 : ℤ) (seed : ℕ) : List ((ℤ × ℤ) × ℕ) :=
  (seedVisits n0 n1).zipIdx.map fun v => (v.1, toSeed rnd (r.uniform seed v.2))

theorem seedTables_fold {σ D : Type} [Field D] [LinearOrder D] [FloorRing D] (r : Rng σ D) (rnd : D → D) (g : NoiseGen) (seed : ℕ) (l : List (ℤ × ℤ)) (m : ℕ) (t : SeedTables) :
    (l.foldl (fun (st : σ × SeedTables) (v : ℤ × ℤ) =>
      let (u, s) := r.next st.1
      (s, setSeed g v.1 v.2 (toSeed rnd u) st.2)) ((fun s => (r.next s).2)^[m] (r.set seed), t)).2 =
    ((l.zipIdx m).map fun v => (v.1, toSeed rnd (r.uniform seed v.2))).foldl (fun t v => setSeed g v.1.1 v.1.2 v.2 t) t := by
  induction l generalizing m t with
  | nil => rfl
  | cons v l ih =>
    rw [List.zipIdx_cons, List.map_cons, List.foldl_cons, List.foldl_cons, ← ih (m + 1)]
    simp only
    rw [Function.iterate_succ_apply']
    rfl

theorem getSeed_fold (g : NoiseGen) (l : List ((ℤ × ℤ) × ℕ)) (t : SeedTables) (i j : ℤ)
    (hi : g.start 0 ≤ i ∧ i < g.start 0 + g.size 0) (hj : g.start 1 ≤ j ∧ j < g.start 1 + g.size 1) {d1 d2 : ℕ} (hd1 : d1 < 2)
    (hd2 : d2 < 2) :
    getSeed g (l.foldl (fun t v => setSeed g v.1.1 v.1.2 v.2 t) t) i j d1 d2 =
      l.foldl (fun c v => if conjIndex (g.nmesh 0) v.1.1 d1 = i ∧ conjIndex (g.nmesh 1) v.1.2 d2 = j then v.2 else c)
        (getSeed g t i j d1 d2) := by
  induction l generalizing t with
  | nil => rfl
  | cons v l ih => rw [List.foldl_cons, List.foldl_cons, ih, getSeed_setSeed g t _ _ i j _ hi hj hd1 hd2]

/-- The tables do not depend on the local box. -/
theorem getSeed_eq {σ D : Type} [Field D] [LinearOrder D] [FloorRing D] (r : Rng σ D) (rnd : D → D) (g : NoiseGen) (seed : ℕ) (i j : ℤ)
    (hi : g.start 0 ≤ i ∧ i < g.start 0 + g.size 0) (hj : g.start 1 ≤ j ∧ j < g.start 1 + g.size 1) {d1 d2 : ℕ} (hd1 : d1 < 2)
    (hd2 : d2 < 2) :
    getSeed g (seedTables r rnd g seed) i j d1 d2 =
      colSeed (g.nmesh 0) (g.nmesh 1) d1 d2 i j (seedCalls r rnd (g.nmesh 0) (g.nmesh 1) seed) := by
  unfold seedTables
  have h := seedTables_fold r rnd g seed (seedVisits (g.nmesh 0) (g.nmesh 1)) 0 fun _ _ _ => 0
  rw [Function.iterate_zero, id] at h
  rw [h, getSeed_fold g _ _ i j hi hj hd1 hd2]
  rfl

theorem conjIndex_range {n i : ℤ} (h0 : 0 ≤ i) (hi : i < n) (d : ℕ) : 0 ≤ conjIndex n i d ∧ conjIndex n i d < n := by
  unfold conjIndex
  split_ifs
  · exact ⟨h0, hi⟩
  · rw [Int.tmod_eq_emod_of_nonneg (by omega)]
    exact ⟨Int.emod_nonneg _ (by omega), Int.emod_lt_of_pos _ (by omega)⟩

theorem conjIndex_one {n i : ℤ} (h0 : 0 ≤ i) (hi : i < n) : conjIndex n i 1 = if i = 0 then 0 else n - i := by
  unfold conjIndex
  rw [if_neg (by omega), Int.tmod_eq_emod_of_nonneg (by omega)]
  split_ifs with h
  · rw [h, sub_zero, Int.emod_self]
  · exact Int.emod_eq_of_lt (by omega) (by omega)

/-- In the table of the conjugates a column has the seed of the opposite column. -/
theorem colSeed_conj {n0 n1 i j : ℤ} (l : List ((ℤ × ℤ) × ℕ)) (hl : ∀ v ∈ l, (0 ≤ v.1.1 ∧ v.1.1 < n0) ∧ 0 ≤ v.1.2 ∧ v.1.2 < n1)
    (hi : 0 ≤ i ∧ i < n0) (hj : 0 ≤ j ∧ j < n1) (c : ℕ := 0) :
    colSeed n0 n1 1 1 i j l c = colSeed n0 n1 0 0 (conjIndex n0 i 1) (conjIndex n1 j 1) l c := by
  unfold colSeed
  induction l generalizing c with
  | nil => rfl
  | cons v l ih =>
    obtain ⟨h1, h2⟩ := hl v (by simp)
    rw [List.foldl_cons, List.foldl_cons, ih fun w hw => hl w (by simp [hw])]
    congr 1
    refine if_congr ?_ rfl rfl
    rw [conjIndex_one h1.1 h1.2, conjIndex_one h2.1 h2.2, conjIndex_one hi.1 hi.2, conjIndex_one hj.1 hj.2]
    unfold conjIndex
    simp only [if_true]
    refine and_congr ?_ ?_
    · split_ifs <;> omega
    · split_ifs <;> omega

theorem colSeed_none {n0 n1 i j : ℤ} {d1 d2 : ℕ} (l : List ((ℤ × ℤ) × ℕ))
    (hl : ∀ v ∈ l, ¬(conjIndex n0 v.1.1 d1 = i ∧ conjIndex n1 v.1.2 d2 = j)) (c : ℕ := 0) : colSeed n0 n1 d1 d2 i j l c = c := by
  unfold colSeed
  induction l with
  | nil => rfl
  | cons v l ih => rw [List.foldl_cons, if_neg (hl v (by simp)), ih fun w hw => hl w (by simp [hw])]

/-- If the columns of the calls are different, the seed of a column is the one of its call. -/
theorem colSeed_nodup {n0 n1 : ℤ} (l : List ((ℤ × ℤ) × ℕ)) (hn : (l.map (·.1)).Nodup) {v : (ℤ × ℤ) × ℕ} (hv : v ∈ l) (c : ℕ := 0) :
    colSeed n0 n1 0 0 v.1.1 v.1.2 l c = v.2 := by
  have none' : ∀ (l : List ((ℤ × ℤ) × ℕ)) (c : ℕ), v.1 ∉ l.map (·.1) →
      l.foldl (fun c w => if conjIndex n0 w.1.1 0 = v.1.1 ∧ conjIndex n1 w.1.2 0 = v.1.2 then w.2 else c) c = c := by
    intro l c h
    induction l with
    | nil => rfl
    | cons w l ih =>
      simp only [List.map_cons, List.mem_cons, not_or] at h
      rw [List.foldl_cons, if_neg, ih h.2]
      simp only [conjIndex, if_true]
      rintro ⟨a, b⟩
      exact h.1 (Prod.ext a.symm b.symm)
  unfold colSeed
  induction l generalizing c with
  | nil => cases hv
  | cons w l ih =>
    simp only [List.map_cons, List.nodup_cons] at hn
    rw [List.foldl_cons]
    rcases List.mem_cons.1 hv with rfl | hv
    · rw [none' l _ hn.1]
      simp [conjIndex]
    · exact ih hn.2 hv _

/-! ## The order of the columns -/

/-- The columns of shell `i`, in the order in which they get their seeds, as mode numbers. -/
def shell (i : ℤ) : List (ℤ × ℤ) :=
  (intRange 0 i).map (fun j => (i, j)) ++
  (intRange 0 (i + 1)).map (fun j => (j, i)) ++
  (intRange 0 i).map (fun j => (-1 - i, j)) ++
  (intRange 0 (i + 1)).map (fun j => (-1 - j, i)) ++
  (intRange 0 i).map (fun j => (i, -1 - j)) ++
  (intRange 0 (i + 1)).map (fun j => (j, -1 - i)) ++
  (intRange 0 i).map (fun j => (-1 - i, -1 - j)) ++
  (intRange 0 (i + 1)).map (fun j => (-1 - j, -1 - i))

def shells (h : ℕ) : List (ℤ × ℤ) := (List.range h).flatMap fun i : ℕ => shell i

/-- Number of the shell of one coordinate. -/
def shellNo (a : ℤ) : ℤ := if a < 0 then -1 - a else a

theorem mem_shell {i a b : ℤ} (hi : 0 ≤ i) : (a, b) ∈ shell i ↔ max (shellNo a) (shellNo b) = i := by
  unfold shell shellNo
  simp only [List.mem_append, List.mem_map, mem_intRange, Prod.mk.injEq]
  constructor
  · rintro (((((((⟨j, h, rfl, rfl⟩ | ⟨j, h, rfl, rfl⟩) | ⟨j, h, rfl, rfl⟩) | ⟨j, h, rfl, rfl⟩) | ⟨j, h, rfl, rfl⟩) | ⟨j, h, rfl, rfl⟩) |
      ⟨j, h, rfl, rfl⟩) | ⟨j, h, rfl, rfl⟩) <;> split_ifs <;> omega
  · intro h
    rcases lt_or_ge a 0 with ha | ha <;> rcases lt_or_ge b 0 with hb | hb
    · rw [if_pos ha, if_pos hb] at h
      by_cases hc : -1 - b < i
      · exact .inl (.inr ⟨-1 - b, by omega, by omega, by omega⟩)
      · exact .inr ⟨-1 - a, by omega, by omega, by omega⟩
    · rw [if_pos ha, if_neg (by omega)] at h
      by_cases hc : b < i
      · exact .inl (.inl (.inl (.inl (.inl (.inr ⟨b, by omega, by omega, by omega⟩)))))
      · exact .inl (.inl (.inl (.inl (.inr ⟨-1 - a, by omega, by omega, by omega⟩))))
    · rw [if_neg (by omega), if_pos hb] at h
      by_cases hc : -1 - b < i
      · exact .inl (.inl (.inl (.inr ⟨-1 - b, by omega, by omega, by omega⟩)))
      · exact .inl (.inl (.inr ⟨a, by omega, by omega, by omega⟩))
    · rw [if_neg (by omega), if_neg (by omega)] at h
      by_cases hc : b < i
      · exact .inl (.inl (.inl (.inl (.inl (.inl (.inl ⟨b, by omega, by omega, by omega⟩))))))
      · exact .inl (.inl (.inl (.inl (.inl (.inl (.inr ⟨a, by omega, by omega, by omega⟩))))))

theorem shell_nodup {i : ℤ} (hi : 0 ≤ i) : (shell i).Nodup := by
  have hm : ∀ (n : ℤ) (f : ℤ → ℤ × ℤ), (∀ a b, f a = f b → a = b) → ((intRange 0 n).map f).Nodup :=
    fun n f hf => (intRange_nodup 0 n).map fun a b h => hf a b h
  unfold shell
  simp only [List.nodup_append, List.mem_append, List.mem_map, mem_intRange]
  refine ⟨⟨⟨⟨⟨⟨⟨hm _ _ ?_, hm _ _ ?_, ?_⟩, hm _ _ ?_, ?_⟩, hm _ _ ?_, ?_⟩, hm _ _ ?_, ?_⟩, hm _ _ ?_, ?_⟩, hm _ _ ?_, ?_⟩, hm _ _ ?_, ?_⟩
  all_goals try (intro a b h; simp only [Prod.mk.injEq] at h; omega)
  all_goals
    rintro ⟨a, b⟩ h ⟨a', b'⟩ h' e
    simp only [Prod.mk.injEq] at h h' e
    obtain ⟨rfl, rfl⟩ := e
    obtain ⟨j', h', rfl, rfl⟩ := h'
    repeat' first | refine h.elim (fun h => ?_) (fun h => ?_) | (obtain ⟨j, h⟩ := h; omega)

theorem mem_shells {h : ℕ} {a b : ℤ} : (a, b) ∈ shells h ↔ (-(h : ℤ) ≤ a ∧ a < h) ∧ -(h : ℤ) ≤ b ∧ b < h := by
  unfold shells
  rw [List.mem_flatMap]
  constructor
  · rintro ⟨i, hi, hab⟩
    rw [mem_shell (by omega)] at hab
    rw [List.mem_range] at hi
    unfold shellNo at hab
    split_ifs at hab <;> omega
  · intro hab
    refine ⟨(max (shellNo a) (shellNo b)).toNat, ?_, ?_⟩
    · rw [List.mem_range]
      unfold shellNo
      split_ifs <;> omega
    · rw [mem_shell (by omega)]
      unfold shellNo
      split_ifs <;> omega

theorem shells_nodup (h : ℕ) : (shells h).Nodup := by
  unfold shells
  rw [List.nodup_flatMap]
  refine ⟨fun i _ => shell_nodup (by omega), ?_⟩
  refine List.nodup_range.imp ?_
  intro a b hab
  simp only [Function.onFun]
  rintro ⟨x, y⟩ h1 h2
  rw [mem_shell (by omega)] at h1 h2
  exact hab (by omega)

theorem shells_prefix {h h' : ℕ} (hh : h ≤ h') : ∃ l, shells h' = shells h ++ l := by
  obtain ⟨k, rfl⟩ := Nat.exists_eq_add_of_le hh
  unfold shells
  rw [List.range_add, List.flatMap_append]
  exact ⟨_, rfl⟩

/-- The calls of `SETSEED` on a square mesh: the shells, with negative mode numbers at the end of the axis. -/
theorem seedVisits_eq {n : ℤ} (hn : 0 ≤ n) :
    seedVisits n n = (shells (n / 2).toNat).map fun v => (modeIndex n v.1, modeIndex n v.2) := by
  unfold seedVisits shells
  rw [List.map_flatMap]
  have e : intRange 0 (n.tdiv 2) = (List.range (n / 2).toNat).map fun i : ℕ => (i : ℤ) := by
    unfold intRange
    rw [Int.tdiv_eq_ediv_of_nonneg hn, sub_zero]
    simp
  rw [e, List.flatMap_map]
  congr 1
  funext i
  unfold shell
  simp only [List.map_append, List.map_map]
  have hc : ∀ (m : ℤ) (f f' : ℤ → ℤ × ℤ), (∀ x, 0 ≤ x → x < m → f x = f' x) → (intRange 0 m).map f = (intRange 0 m).map f' := by
    intro m f f' h
    refine List.map_congr_left fun x hx => ?_
    rw [mem_intRange] at hx
    exact h x hx.1 hx.2
  refine congr (congrArg _ (congr (congrArg _ (congr (congrArg _ (congr (congrArg _ (congr (congrArg _ (congr (congrArg _
    (congr (congrArg _ ?_) ?_)) ?_)) ?_)) ?_)) ?_)) ?_)) ?_
  all_goals
    refine hc _ _ _ fun x h1 h2 => ?_
    simp only [Function.comp_apply, modeIndex, Prod.mk.injEq]
    constructor <;> split_ifs <;> omega

theorem modeIndex_inj {n a b : ℤ} (ha : -(n / 2) ≤ a ∧ a < n / 2) (hb : -(n / 2) ≤ b ∧ b < n / 2) (h : modeIndex n a = modeIndex n b) :
    a = b := by
  unfold modeIndex at h
  split_ifs at h <;> omega

theorem seedVisits_nodup {n : ℤ} (hn : 0 ≤ n) : (seedVisits n n).Nodup := by
  rw [seedVisits_eq hn]
  refine (List.nodup_map_iff_inj_on (shells_nodup _)).2 ?_
  rintro ⟨a, b⟩ h ⟨a', b'⟩ h' e
  rw [mem_shells] at h h'
  simp only [Prod.mk.injEq] at e
  rw [modeIndex_inj (by omega) (by omega) e.1, modeIndex_inj (by omega) (by omega) e.2]

theorem mem_seedVisits {n a b : ℤ} (hn : 0 ≤ n) : (a, b) ∈ seedVisits n n ↔
    (0 ≤ a ∧ a < n ∧ (a < n / 2 ∨ n - n / 2 ≤ a)) ∧ 0 ≤ b ∧ b < n ∧ (b < n / 2 ∨ n - n / 2 ≤ b) := by
  rw [seedVisits_eq hn, List.mem_map]
  constructor
  · rintro ⟨⟨x, y⟩, h, e⟩
    rw [mem_shells] at h
    simp only [Prod.mk.injEq, modeIndex] at e
    obtain ⟨rfl, rfl⟩ := e
    constructor <;> split_ifs <;> omega
  · intro h
    refine ⟨(if a < n / 2 then a else a - n, if b < n / 2 then b else b - n), mem_shells.2 ?_, ?_⟩
    · constructor <;> split_ifs <;> omega
    · simp only [Prod.mk.injEq, modeIndex]
      constructor <;> split_ifs <;> omega

theorem seedCalls_fst {σ D : Type} [Field D] [LinearOrder D] [FloorRing D] (r : Rng σ D) (rnd : D → D) (n0 n1 : ℤ) (seed : ℕ) :
    (seedCalls r rnd n0 n1 seed).map (·.1) = seedVisits n0 n1 := by
  unfold seedCalls
  rw [List.map_map]
  exact List.zipIdx_map_fst 0 _

/-- The seed of a column is made from the number drawn at its call. -/
theorem colSeed_draw {σ D : Type} [Field D] [LinearOrder D] [FloorRing D] (r : Rng σ D) (rnd : D → D) {n : ℤ} (hn : 0 ≤ n) (seed k : ℕ) {a b : ℤ}
    (hk : (seedVisits n n)[k]? = some (a, b)) :
    colSeed n n 0 0 a b (seedCalls r rnd n n seed) = toSeed rnd (r.uniform seed k) := by
  have := colSeed_nodup (n0 := n) (n1 := n) (seedCalls r rnd n n seed) (by rw [seedCalls_fst]; exact seedVisits_nodup hn)
    (v := ((a, b), toSeed rnd (r.uniform seed k))) (by
      unfold seedCalls
      rw [List.mem_map]
      exact ⟨((a, b), k), by rw [List.mem_zipIdx_iff_getElem?]; exact hk, rfl⟩)
  exact this

theorem seedCalls_range {σ D : Type} [Field D] [LinearOrder D] [FloorRing D] (r : Rng σ D) (rnd : D → D) {n : ℤ} (hn : 0 ≤ n) (seed : ℕ) :
    ∀ v ∈ seedCalls r rnd n n seed, (0 ≤ v.1.1 ∧ v.1.1 < n) ∧ 0 ≤ v.1.2 ∧ v.1.2 < n := by
  intro v hv
  have : v.1 ∈ seedVisits n n := by
    rw [← seedCalls_fst r rnd n n seed]
    exact List.mem_map.2 ⟨v, hv, rfl⟩
  have := (mem_seedVisits hn).1 (show (v.1.1, v.1.2) ∈ _ from this)
  omega

end Pmesh
