import Verif.Lemmas.FMesh

/-!
# Sums with rounding, and the writes of a particle
-/

set_option linter.unusedSectionVars false

namespace Pmesh

section
variable {K : Type*} [Field K] [LinearOrder K] [IsStrictOrderedRing K] [FloorRing K]

/-- An element sees the writes to its address only. -/
theorem depositR_get (store : K → K) (mem : ℤ → K) (ws : List (ℤ × K)) (a : ℤ) :
    depositR store mem ws a = ((ws.filter fun w => w.1 = a).map (·.2)).foldl (fun s v => store (s + v)) (mem a) := by
  unfold depositR
  induction ws generalizing mem with
  | nil => rfl
  | cons w ws ih =>
    rw [List.foldl_cons, ih]
    by_cases h : w.1 = a
    · rw [List.filter_cons_of_pos (by simpa using h), List.map_cons, List.foldl_cons, if_pos h.symm]
    · rw [List.filter_cons_of_neg (by simpa using h), if_neg (Ne.symm h)]

/-- A running sum. -/
theorem foldl_store {store : K → K} {η : K} (hη : 0 ≤ η) (hst : ∀ y, |store y - y| ≤ |y| * η) (vs : List K) (s : K) :
    |vs.foldl (fun s v => store (s + v)) s - (s + vs.sum)| ≤ ((1 + η) ^ vs.length - 1) * (|s| + (vs.map (|·|)).sum) := by
  induction vs generalizing s with
  | nil => simp
  | cons v vs ih =>
    simp only [List.foldl_cons, List.sum_cons, List.length_cons, List.map_cons]
    have h1 := ih (store (s + v))
    have h2 := hst (s + v)
    have h3 := abs_add_le s v
    set q := (1 + η) ^ vs.length with hq
    have hq1 : 1 ≤ q := one_le_pow₀ (by linarith)
    set A := (vs.map (|·|)).sum with hA
    have hA0 : 0 ≤ A := List.sum_nonneg (by
      intro x hx
      obtain ⟨y, -, rfl⟩ := List.mem_map.1 hx
      exact abs_nonneg y)
    have h4 : |store (s + v)| ≤ (|s| + |v|) * (1 + η) := by
      have h := abs_sub_abs_le_abs_sub (store (s + v)) (s + v)
      have h' : |s + v| * (1 + η) ≤ (|s| + |v|) * (1 + η) := mul_le_mul_of_nonneg_right h3 (by linarith)
      linarith
    have h5 : |store (s + v) - (s + v)| ≤ (|s| + |v|) * η := h2.trans (mul_le_mul_of_nonneg_right h3 hη)
    have h6 : (q - 1) * (|store (s + v)| + A) ≤ (q - 1) * ((|s| + |v|) * (1 + η) + A) :=
      mul_le_mul_of_nonneg_left (by linarith) (by linarith)
    have h7 := abs_sub_le (vs.foldl (fun s v => store (s + v)) (store (s + v))) (store (s + v) + vs.sum) (s + (v + vs.sum))
    have h8 : store (s + v) + vs.sum - (s + (v + vs.sum)) = store (s + v) - (s + v) := by ring
    rw [h8] at h7
    have h9 : 0 ≤ q * η * A := mul_nonneg (mul_nonneg (by linarith) hη) hA0
    rw [pow_succ, ← hq]
    nlinarith

/-- There are at most 64 writes, none much larger than the mass. -/
theorem writes_small {R : Rounding K} {ε : K} (hR : RelativeError R ε) (hε : 0 ≤ ε) (hε1 : ε ≤ 1 / 64) (t : Tuned)
    (axes : List (PAxis K)) (pos : List K) (h1 : 1 ≤ axes.length) (h3 : axes.length ≤ 3) (hs : List.Forall₂ (AxisSmall R ε) axes pos)
    (w : K) : (tunedWritesR R t axes pos w).length ≤ 64 ∧ ∀ a ∈ tunedWritesR R t axes pos w, |a.2| ≤ 8 * |w| := by
  have hl := hs.length_eq
  unfold tunedWritesR
  rw [paintTable_eq t _ (by omega), native_rat (K := K)]
  constructor
  · refine (List.length_filterMap_le _ _).trans ?_
    rw [ndindex_length, List.prod_replicate]
    calc (Tuned.kern t : Kern K).native ^ axes.length ≤ 4 ^ axes.length := Nat.pow_le_pow_left (native_le t) _
      _ ≤ 4 ^ 3 := Nat.pow_le_pow_right (by norm_num) h3
      _ = 64 := by norm_num
  · intro a ha
    obtain ⟨abc, habc, hv⟩ := List.mem_filterMap.1 ha
    have habc := mem_ndindex.1 habc
    have k1 := write_value hR hε hε1 t axes pos h1 h3 hs w abc habc
    have k2 := vals_near hR hε hε1 t axes pos hs abc habc
    unfold tunedAccessR at hv
    obtain ⟨ind, -, rfl⟩ := Option.map_eq_some_iff.1 hv
    set P := (List.zipWith (fun (l : List K) a => l.getD a 0)
        (List.zipWith (fun (ax : PAxis K) x => (pieces t).map fun q => q.2 (ax.gridR R x - pieceBaseR R t (ax.gridR R x))) axes pos) abc) with hP
    have hPl : P.length ≤ 3 := by
      rw [hP]
      simp only [List.length_zipWith]
      omega
    have key : ∀ {l l' : List K}, List.Forall₂ (Near ε 24 (5 / 4)) l l' → |l'.prod| ≤ (5 / 4) ^ l'.length := by
      intro l l' h
      induction h with
      | nil => simp
      | cons h _ ih =>
        rw [List.prod_cons, List.length_cons, pow_succ, abs_mul, mul_comm]
        exact mul_le_mul ih h.size (abs_nonneg _) (by positivity)
    have k3 : |P.prod| ≤ 2 := by
      refine (key k2).trans ((pow_le_pow_right₀ (by norm_num) hPl).trans (by norm_num))
    have k4 : |w * P.prod| ≤ |w| * 2 := by rw [abs_mul]; exact mul_le_mul_of_nonneg_left k3 (abs_nonneg w)
    have k5 : |w| * (168 * ε) ≤ |w| * 3 := mul_le_mul_of_nonneg_left (by linarith) (abs_nonneg w)
    have k6 := (abs_sub_abs_le_abs_sub _ _).trans k1
    have k7 := abs_nonneg w
    exact (sub_le_iff_le_add.1 k6).trans (by linarith)

theorem addedAt_append (a b : List (ℤ × K)) (z : ℤ) : addedAt (a ++ b) z = addedAt a z + addedAt b z := by
  simp [addedAt, List.filter_append]

/-- What a list of particles adds to an element. -/
theorem addedAt_flatMap {α : Type*} (l : List α) (f : α → List (ℤ × K)) (z : ℤ) :
    addedAt (l.flatMap f) z = (l.map fun q => addedAt (f q) z).sum := by
  induction l with
  | nil => simp [addedAt]
  | cons a l ih => rw [List.flatMap_cons, addedAt_append, ih, List.map_cons, List.sum_cons]

/-- The writes of many particles at one element: how many, and their sizes. -/
theorem flatMap_small {α : Type*} (l : List α) (f : α → List (ℤ × K)) (w : α → K) (z : ℤ)
    (h : ∀ q ∈ l, (f q).length ≤ 64 ∧ ∀ a ∈ f q, |a.2| ≤ 8 * |w q|) :
    (((l.flatMap f).filter fun a => a.1 = z).map (·.2)).length ≤ 64 * l.length ∧
      ((((l.flatMap f).filter fun a => a.1 = z).map (·.2)).map (|·|)).sum ≤ 512 * (l.map fun q => |w q|).sum := by
  induction l with
  | nil => simp
  | cons q l ih =>
    obtain ⟨i1, i2⟩ := ih fun q hq => h q (by simp [hq])
    obtain ⟨b1, b2⟩ := h q (by simp)
    simp only [List.flatMap_cons, List.filter_append, List.map_append, List.length_append, List.sum_append, List.map_cons, List.sum_cons,
      List.length_cons]
    have n1 : (((f q).filter fun a => a.1 = z).map (·.2)).length ≤ 64 := by
      rw [List.length_map]
      exact (List.length_filter_le _ _).trans b1
    have n2 : ((((f q).filter fun a => a.1 = z).map (·.2)).map (|·|)).sum ≤ 64 * (8 * |w q|) := by
      have := List.sum_le_card_nsmul ((((f q).filter fun a => a.1 = z).map (·.2)).map (|·|)) (8 * |w q|) (by
        intro v hv
        obtain ⟨u, hu, rfl⟩ := List.mem_map.1 hv
        obtain ⟨a, ha, rfl⟩ := List.mem_map.1 hu
        exact b2 a (List.mem_of_mem_filter ha))
      rw [List.length_map, nsmul_eq_mul] at this
      refine this.trans (mul_le_mul_of_nonneg_right ?_ (by positivity))
      exact_mod_cast n1
    constructor
    · omega
    · linarith

/-- The particles of one rank that arrive at another, in the order of the particles. -/
theorem arriving_one {α : Type*} (ps : List α) (l : List ℕ) (hl : l.Pairwise (· < ·)) :
    (l.map some).filterMap (fun o => o.bind fun i => ps[i]?) = ((List.range ps.length).filter fun i => i ∈ l).filterMap fun i => ps[i]? := by
  have e : l.filter (fun i => i < ps.length) = (List.range ps.length).filter fun i => i ∈ l := by
    have p : (l.filter (fun i => i < ps.length)).Perm ((List.range ps.length).filter fun i => i ∈ l) := by
      rw [List.perm_ext_iff_of_nodup ((hl.imp fun h => h.ne).filter _) (List.nodup_range.filter _)]
      intro i
      simp [and_comm]
    refine p.eq_of_pairwise (le := (· < ·)) ?_ (hl.filter _) (List.pairwise_lt_range.filter _)
    intro a b _ _ h1 h2
    omega
  rw [← e, List.filterMap_filter, List.filterMap_map]
  apply List.filterMap_congr
  intro i _
  simp only [Function.comp, Option.bind_some, decide_eq_true_eq]
  split_ifs with h
  · rfl
  · exact List.getElem?_eq_none (by omega)

theorem filterMap_range_sum {α : Type*} (ps : List α) (p : ℕ → Bool) (f : α → K) :
    ((((List.range ps.length).filter p).filterMap fun i => ps[i]?).map f).sum =
      (ps.zipIdx.map fun q => if p q.2 then f q.1 else 0).sum := by
  induction ps using List.reverseRecOn with
  | nil => simp
  | append_singleton ps a ih =>
    have e : ((List.range ps.length).filter p).filterMap (fun i => (ps ++ [a])[i]?) =
        ((List.range ps.length).filter p).filterMap fun i => ps[i]? := by
      apply List.filterMap_congr
      intro i hi
      have := List.mem_range.1 (List.mem_of_mem_filter hi)
      rw [List.getElem?_append_left this]
    rw [List.length_append, List.length_singleton, List.range_succ, List.filter_append, List.filterMap_append, List.map_append, List.sum_append, e,
      ih, List.zipIdx_append, List.map_append, List.sum_append]
    congr 1
    by_cases h : p ps.length <;> simp [h]

theorem filterMap_range_sublist {α : Type*} (ps : List α) (p : ℕ → Bool) :
    (((List.range ps.length).filter p).filterMap fun i => ps[i]?).Sublist ps := by
  have : (List.range ps.length).filterMap (fun i => ps[i]?) = ps := by
    apply List.ext_getElem?
    intro i
    induction ps using List.reverseRecOn generalizing i with
    | nil => simp
    | append_singleton ps a ih =>
      have e : (List.range ps.length).filterMap (fun i => (ps ++ [a])[i]?) = (List.range ps.length).filterMap fun i => ps[i]? := by
        apply List.filterMap_congr
        intro i hi
        rw [List.getElem?_append_left (List.mem_range.1 hi)]
      have e2 := List.ext_getElem? ih
      rw [List.length_append, List.length_singleton, List.range_succ, List.filterMap_append, e, e2]
      simp
  conv_rhs => rw [← this]
  exact (List.filter_sublist).filterMap _

end
end Pmesh
