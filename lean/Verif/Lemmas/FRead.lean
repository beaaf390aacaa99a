import Verif.Lemmas.FField
import Verif.Lemmas.Force
import Verif.Model.FRead
import Verif.Spec.FRead

/-!
# Readout in floating point: the sums
-/

set_option linter.unusedSectionVars false

namespace Pmesh

section
variable {K : Type*} [Field K] [LinearOrder K] [IsStrictOrderedRing K] [FloorRing K]

theorem abs_sum_le_sum {α : Type*} (l : List α) (f g : α → K) (h : ∀ a ∈ l, |f a| ≤ g a) : |(l.map f).sum| ≤ (l.map g).sum := by
  induction l with
  | nil => simp
  | cons a l ih =>
    simp only [List.map_cons, List.sum_cons]
    exact (abs_add_le _ _).trans (add_le_add (h a (by simp)) (ih fun b hb => h b (by simp [hb])))

/-- There are at most 64 reads, with small weights, all inside the array. -/
theorem reads_small {R : Rounding K} {ε : K} (hR : RelativeError R ε) (hε : 0 ≤ ε) (hε1 : ε ≤ 1 / 64) (t : Tuned)
    (axes : List (PAxis K)) (pos : List K) (h1 : 1 ≤ axes.length) (h3 : axes.length ≤ 3) (hs : List.Forall₂ (AxisSmall R ε) axes pos) :
    (tunedReadsR R t axes pos).length ≤ 64 ∧ ∀ a ∈ tunedReadsR R t axes pos, |a.2| ≤ 8 ∧
      ∃ c, ValidIndex (shapeOf axes) c ∧ a.1 = elemAddr axes c := by
  have hl := hs.length_eq
  unfold tunedReadsR
  rw [readTable_eq t _ (by omega), native_rat (K := K)]
  constructor
  · refine (List.length_filterMap_le _ _).trans ?_
    rw [ndindex_length, List.prod_replicate]
    calc (Tuned.kern t : Kern K).native ^ axes.length ≤ 4 ^ axes.length := Nat.pow_le_pow_left (native_le t) _
      _ ≤ 4 ^ 3 := Nat.pow_le_pow_right (by norm_num) h3
      _ = 64 := by norm_num
  · intro a ha
    obtain ⟨abc, habc, hv⟩ := List.mem_filterMap.1 ha
    have habc := mem_ndindex.1 habc
    have hlen : abc.length = axes.length := by rw [(validIndex_iff.1 habc).1]; simp
    refine ⟨?_, tunedAccessR_mem R axes _ _ abc (by simp [tunedCellsR, hl]) hlen hv⟩
    have hn := vals_near hR hε hε1 t axes pos hs abc habc
    unfold tunedAccessR at hv
    obtain ⟨ind, -, rfl⟩ := Option.map_eq_some_iff.1 hv
    have k1 : |prodR R (List.zipWith (fun (l : List K) a => l.getD a 0) (tunedValsR R t axes pos) abc) - (List.zipWith (fun (l : List K) a => l.getD a 0)
        (List.zipWith (fun (ax : PAxis K) x => (pieces t).map fun q => q.2 (ax.gridR R x - pieceBaseR R t (ax.gridR R x))) axes pos) abc).prod| ≤ 168 * ε := by
      match axes, pos, abc, hs, h1, h3, habc, hn with
      | ax :: axs, x :: xs, a :: as, hs, h1, h3, habc, hn =>
        unfold tunedValsR at hn ⊢
        simp only [List.zipWith_cons_cons] at hn ⊢
        obtain ⟨n0, n1⟩ := List.forall₂_cons.1 hn
        have := prodR_near hR hε hε1 (zero_le_one (α := K)) (by
          rw [one_mul]
          exact n0.err.trans (mul_le_mul_of_nonneg_right (by norm_num) hε)) (by rw [one_mul]; exact n0.size) (by
            simp only [List.length_cons] at h3
            simp only [List.length_zipWith]
            omega) n1
        rw [one_mul] at this
        exact this
    have key : ∀ {l l' : List K}, List.Forall₂ (Near ε 24 (5 / 4)) l l' → |l'.prod| ≤ (5 / 4) ^ l'.length := by
      intro l l' h
      induction h with
      | nil => simp
      | cons h _ ih =>
        rw [List.prod_cons, List.length_cons, pow_succ, abs_mul, mul_comm]
        exact mul_le_mul ih h.size (abs_nonneg _) (by positivity)
    have k2 := key hn
    set P := (List.zipWith (fun (l : List K) a => l.getD a 0)
        (List.zipWith (fun (ax : PAxis K) x => (pieces t).map fun q => q.2 (ax.gridR R x - pieceBaseR R t (ax.gridR R x))) axes pos) abc) with hP
    have hPl : P.length ≤ 3 := by
      rw [hP]
      simp only [List.length_zipWith]
      omega
    have k3 : |P.prod| ≤ 2 := k2.trans ((pow_le_pow_right₀ (by norm_num) hPl).trans (by norm_num))
    have k6 := (abs_sub_abs_le_abs_sub _ _).trans k1
    exact (sub_le_iff_le_add.1 k6).trans (by linarith)

/-- The value that a rank reads out, against the sum without rounding. -/
theorem readR_near {R : Rounding K} {ε : K} (hR : RelativeError R ε) (hε : 0 ≤ ε) (mem : ℤ → K) (reads : List (ℤ × K)) (A : K)
    (hA : (reads.map fun q => |mem q.1 * q.2|).sum ≤ A) :
    |readR R mem reads - (reads.map fun q => mem q.1 * q.2).sum| ≤ ((1 + ε) ^ (reads.length + 1) - 1) * A := by
  have e1 : readR R mem reads = (reads.map fun q => R.rnd (mem q.1 * q.2)).foldl (fun s v => R.rnd (s + v)) 0 := by
    unfold readR
    rw [List.foldl_map]
  have h1 := foldl_store hε hR (reads.map fun q => R.rnd (mem q.1 * q.2)) 0
  rw [← e1, abs_zero, zero_add, zero_add, List.length_map, List.map_map] at h1
  have h2 : |(reads.map fun q => R.rnd (mem q.1 * q.2)).sum - (reads.map fun q => mem q.1 * q.2).sum| ≤
      (reads.map fun q => |mem q.1 * q.2|).sum * ε := by
    clear h1 e1 hA
    induction reads with
    | nil => simp
    | cons q l ih =>
      simp only [List.map_cons, List.sum_cons]
      rw [add_sub_add_comm, add_mul]
      exact (abs_add_le _ _).trans (add_le_add (hR _) ih)
  have h3 : (reads.map ((fun x => |x|) ∘ fun q => R.rnd (mem q.1 * q.2))).sum ≤ (reads.map fun q => |mem q.1 * q.2|).sum * (1 + ε) := by
    clear h1 h2 e1 hA
    induction reads with
    | nil => simp
    | cons q l ih =>
      simp only [List.map_cons, List.sum_cons, Function.comp] at ih ⊢
      rw [add_mul]
      refine add_le_add ?_ ih
      have := hR (mem q.1 * q.2)
      have := abs_sub_abs_le_abs_sub (R.rnd (mem q.1 * q.2)) (mem q.1 * q.2)
      linarith
  set S := (reads.map fun q => |mem q.1 * q.2|).sum
  have hp : 1 ≤ (1 + ε) ^ reads.length := one_le_pow₀ (by linarith)
  have h4 := mul_le_mul_of_nonneg_left h3 (by linarith : 0 ≤ (1 + ε) ^ reads.length - 1)
  have h5 := abs_sub_le (readR R mem reads) (reads.map fun q => R.rnd (mem q.1 * q.2)).sum (reads.map fun q => mem q.1 * q.2).sum
  have h6 : ((1 + ε) ^ (reads.length + 1) - 1) * S ≤ ((1 + ε) ^ (reads.length + 1) - 1) * A :=
    mul_le_mul_of_nonneg_left hA (by have : 1 ≤ (1 + ε) ^ (reads.length + 1) := one_le_pow₀ (by linarith); linarith)
  rw [pow_succ] at h6 ⊢
  nlinarith

/-- The reads, cell by cell. -/
theorem reads_by_cell (reads : List (ℤ × K)) (mem : ℤ → K) {α : Type*} (cells : List α) (hn : cells.Nodup) (addr : α → ℤ)
    (hinj : ∀ c ∈ cells, ∀ c' ∈ cells, addr c = addr c' → c = c') (hin : ∀ q ∈ reads, ∃ c ∈ cells, q.1 = addr c) :
    (reads.map fun q => mem q.1 * q.2).sum = (cells.map fun c => addedAt reads (addr c) * mem (addr c)).sum := by
  induction reads with
  | nil => simp [addedAt]
  | cons q l ih =>
    have ih' := ih fun q hq => hin q (by simp [hq])
    rw [List.map_cons, List.sum_cons, ih']
    have e : ∀ a, addedAt (q :: l) a = (if q.1 = a then q.2 else 0) + addedAt l a := by
      intro a
      unfold addedAt
      rw [List.filter_cons]
      by_cases h : q.1 = a <;> simp [h]
    simp only [e, add_mul]
    obtain ⟨c, hc, hqc⟩ := hin q (by simp)
    have e2 : (cells.map fun c => (if q.1 = addr c then q.2 else 0) * mem (addr c)).sum = mem q.1 * q.2 := by
      clear ih ih' e hin
      induction cells with
      | nil => simp at hc
      | cons a cells ih2 =>
        rw [List.map_cons, List.sum_cons]
        rw [List.nodup_cons] at hn
        rcases List.mem_cons.1 hc with rfl | hc'
        · have z : (cells.map fun c' => (if q.1 = addr c' then q.2 else 0) * mem (addr c')).sum = 0 := by
            apply List.sum_eq_zero
            intro y hy
            obtain ⟨c', hc', rfl⟩ := List.mem_map.1 hy
            rw [if_neg, zero_mul]
            intro h
            exact hn.1 (by rw [hinj c (by simp) c' (by simp [hc']) (hqc.symm.trans h)]; exact hc')
          rw [z, if_pos hqc, hqc, add_zero, mul_comm]
        · rw [if_neg, zero_mul, zero_add]
          · refine ih2 hn.2 (fun c h c' h' => hinj c (by simp [h]) c' (by simp [h'])) hc'
          · intro h
            exact hn.1 (by rw [hinj a (by simp) c (by simp [hc']) (h.symm.trans hqc)]; exact hc')
    have : ∀ (cs : List α) (f g : α → K), (cs.map fun c => f c + g c).sum = (cs.map f).sum + (cs.map g).sum := by
      intro cs f g
      induction cs with
      | nil => simp
      | cons c cs ih => simp only [List.map_cons, List.sum_cons, ih]; ring
    rw [this, e2]

/-- Cells that are read: not more than there are reads. -/
theorem cells_read (reads : List (ℤ × K)) {α : Type*} (cells : List α) (hn : cells.Nodup) (addr : α → ℤ)
    (hinj : ∀ c ∈ cells, ∀ c' ∈ cells, addr c = addr c' → c = c') :
    (cells.filter fun c => decide (addedAt reads (addr c) ≠ 0)).length ≤ reads.length := by
  have h1 : ((cells.filter fun c => decide (addedAt reads (addr c) ≠ 0)).map addr).Nodup := by
    refine List.Nodup.map_on ?_ (hn.filter _)
    intro c hc c' hc' h
    exact hinj c (List.mem_of_mem_filter hc) c' (List.mem_of_mem_filter hc') h
  have h2 : ((cells.filter fun c => decide (addedAt reads (addr c) ≠ 0)).map addr) ⊆ reads.map (·.1) := by
    intro a ha
    obtain ⟨c, hc, rfl⟩ := List.mem_map.1 ha
    have h := List.of_mem_filter hc
    rw [decide_eq_true_eq] at h
    by_contra hcon
    apply h
    unfold addedAt
    rw [List.filter_eq_nil_iff.2]
    · rfl
    · intro q hq hqa
      exact hcon (List.mem_map.2 ⟨q, hq, by simpa using hqa⟩)
  have := (List.subperm_of_subset h1 h2).length_le
  simpa using this

/-- The cells with all coordinates among given ones. -/
theorem count_near : ∀ (ns : List ℕ) (cands : ℕ → List ℤ) (b : ℕ), (∀ j, (cands j).length ≤ b) →
    ((ndindex ns).filter fun g => decide (∀ j < ns.length, ((g.getD j 0 : ℕ) : ℤ) ∈ cands j)).length ≤ b ^ ns.length
  | [], _, _, _ => by simp [ndindex]
  | n :: ns, cands, b, hb => by
    have ih := count_near ns (fun j => cands (j + 1)) b fun j => hb (j + 1)
    rw [ndindex, List.filter_flatMap, List.length_flatMap]
    have e : ∀ a, (((ndindex ns).map fun t => a :: t).filter fun g =>
        decide (∀ j < (n :: ns).length, ((g.getD j 0 : ℕ) : ℤ) ∈ cands j)).length ≤ if (a : ℤ) ∈ cands 0 then b ^ ns.length else 0 := by
      intro a
      rw [List.filter_map, List.length_map]
      split_ifs with h
      · refine le_trans (le_of_eq ?_) ih
        congr 1
        apply List.filter_congr
        intro g _
        simp only [Function.comp, decide_eq_decide, List.length_cons]
        constructor
        · intro hg j hj
          simpa using hg (j + 1) (by omega)
        · intro hg j hj
          cases j with
          | zero => simpa using h
          | succ j => simpa using hg j (by omega)
      · rw [Nat.le_zero, List.length_eq_zero_iff, List.filter_eq_nil_iff]
        intro g _ hg
        simp only [Function.comp, decide_eq_true_eq] at hg
        exact h (by simpa using hg 0 (by simp))
    have e2 : ∀ l : List ℕ, (l.map fun a : ℕ => (((ndindex ns).map fun t => a :: t).filter fun g =>
        decide (∀ j < (n :: ns).length, ((g.getD j 0 : ℕ) : ℤ) ∈ cands j)).length).sum ≤
        (l.filter fun a : ℕ => decide ((a : ℤ) ∈ cands 0)).length * b ^ ns.length := by
      intro l
      induction l with
      | nil => simp
      | cons a l ih2 =>
        rw [List.map_cons, List.sum_cons, List.filter_cons]
        have := e a
        by_cases h : (a : ℤ) ∈ cands 0
        · simp only [h, if_true, decide_true, List.length_cons, Nat.add_mul, one_mul] at this ⊢
          exact (Nat.add_le_add this ih2).trans (le_of_eq (Nat.add_comm _ _))
        · simp only [h, if_false, decide_false] at this ⊢
          simp only [Bool.false_eq_true, if_false]
          exact (Nat.add_le_add this ih2).trans (by rw [Nat.zero_add])
    refine (e2 _).trans ?_
    rw [List.length_cons, pow_succ, mul_comm (b ^ ns.length)]
    apply Nat.mul_le_mul_right
    have h1 : (((List.range n).filter fun a : ℕ => decide ((a : ℤ) ∈ cands 0)).map fun a : ℕ => (a : ℤ)).Nodup := by
      refine List.Nodup.map (fun a b h => ?_) (List.nodup_range.filter _)
      exact_mod_cast h
    have h2 : (((List.range n).filter fun a : ℕ => decide ((a : ℤ) ∈ cands 0)).map fun a : ℕ => (a : ℤ)) ⊆ cands 0 := by
      intro z hz
      obtain ⟨a, ha, rfl⟩ := List.mem_map.1 hz
      simpa using List.of_mem_filter ha
    have := (List.subperm_of_subset h1 h2).length_le
    rw [List.length_map] at this
    exact this.trans (hb 0)

end

section
variable {K : Type} [Field K] [LinearOrder K] [IsStrictOrderedRing K] [FloorRing K]

/-- A particle has weight in at most 64 cells of the whole mesh. -/
theorem exactWeight_support {m : PMesh K} (hm : m.OK) (hd : m.nmesh.length ≤ 3) (t : Tuned) (x : List K) :
    ((ndindex m.nmesh).filter fun g => decide (m.exactWeight t x g ≠ 0)).length ≤ 64 := by
  set z : ℕ → K := fun j => x.getD j 0 * (m.nmesh.getD j 0 : ℕ) / m.box.getD j 0 with hz
  set cands : ℕ → List ℤ := fun j => (pieces (K := K) t).map fun q => (pieceBase t (z j) + q.1) % (m.nmesh.getD j 0 : ℕ) with hc
  have h1 := count_near m.nmesh cands 4 (by intro j; rw [hc]; simpa using pieces_length_le (K := K) t)
  have h2 : ((ndindex m.nmesh).filter fun g => decide (m.exactWeight t x g ≠ 0)).length ≤
      ((ndindex m.nmesh).filter fun g => decide (∀ j < m.nmesh.length, ((g.getD j 0 : ℕ) : ℤ) ∈ cands j)).length := by
    apply List.Sublist.length_le
    apply List.monotone_filter_right
    intro g hg
    rw [decide_eq_true_eq] at hg ⊢
    intro j hj
    by_contra hcon
    apply hg
    unfold PMesh.exactWeight
    apply List.prod_eq_zero
    rw [List.mem_map]
    refine ⟨j, List.mem_range.2 hj, ?_⟩
    rw [periodicWeight_eq t _ (hm.nmesh_pos hj)]
    unfold pieceWeight
    apply List.sum_eq_zero
    intro y hy
    obtain ⟨q, hq, rfl⟩ := List.mem_map.1 hy
    rw [if_neg]
    intro h
    apply hcon
    rw [hc, List.mem_map]
    exact ⟨q, hq, h⟩
  calc _ ≤ _ := h2
    _ ≤ 4 ^ m.nmesh.length := h1
    _ ≤ 4 ^ 3 := Nat.pow_le_pow_right (by norm_num) hd
    _ = 64 := by norm_num

theorem entries_one (l : List ℕ) (hl : l.Nodup) (pos : List (List K)) (v : List K → K) (i : ℕ) (x : List K) (hi : pos[i]? = some x) :
    (((l.map some).filterMap fun o => o.bind fun k => (pos[k]?).map fun x => (k, v x)).filter fun q => decide (q.1 = i)) =
      if i ∈ l then [(i, v x)] else [] := by
  induction l with
  | nil => simp
  | cons a l ih =>
    rw [List.nodup_cons] at hl
    have ih' := ih hl.2
    rw [List.map_cons, List.filterMap_cons]
    by_cases ha : a = i
    · subst ha
      rw [if_neg hl.1] at ih'
      rw [if_pos (by simp)]
      simp only [Option.bind_some, hi, Option.map_some]
      rw [List.filter_cons_of_pos (by simp), ih']
    · have hm : (i ∈ a :: l) = (i ∈ l) := by simp [Ne.symm ha]
      simp only [Option.bind_some]
      cases hp : pos[a]? with
      | none =>
        simp only [Option.map_none]
        rw [ih']
        simp [Ne.symm ha]
      | some y =>
        simp only [Option.map_some]
        rw [List.filter_cons_of_neg (by simpa using ha), ih']
        simp [Ne.symm ha]

theorem flatMap_ite {α β : Type*} (l : List α) (p : α → Prop) [DecidablePred p] (f : α → β) :
    (l.flatMap fun a => if p a then [f a] else []) = (l.filter fun a => decide (p a)).map f := by
  induction l with
  | nil => rfl
  | cons a l ih =>
    rw [List.flatMap_cons, ih, List.filter_cons]
    by_cases h : p a <;> simp [h]

end
end Pmesh
