import Verif.Model.Domain
import Verif.Spec.Index
import Mathlib.Data.List.Forall2
import Mathlib.Tactic.Linarith
import Mathlib.Tactic.Ring
import Mathlib.Data.Int.ModEq
import Mathlib.Data.List.Nodup
import Mathlib.Algebra.BigOperators.Ring.List
import Mathlib.Algebra.Order.Ring.Int

namespace Pmesh

theorem wrapDown_eq {n : ℤ} (hn : 0 < n) (t : ℤ) :
    wrapDown t n = if t < 0 then t else t % n := by
  induction t using wrapDown.induct n with
  | case1 t h ih =>
    rw [wrapDown, dif_pos h, ih]
    have h1 : ¬ t < 0 := by omega
    have h2 : ¬ t - n < 0 := by omega
    simp [h1, h2]
  | case2 t h =>
    rw [wrapDown, dif_neg h]
    split
    · rfl
    · rw [Int.emod_eq_of_lt] <;> omega

theorem wrapUp_eq {n : ℤ} (hn : 0 < n) (t : ℤ) :
    wrapUp t n = if t < 0 then t % n else t := by
  induction t using wrapUp.induct n with
  | case1 t h ih =>
    rw [wrapUp, dif_pos h, ih]
    have h1 : t < 0 := by omega
    simp only [h1, if_true]
    split
    · simp
    · have : (t + n) % n = t + n := Int.emod_eq_of_lt (by omega) (by omega)
      rw [← this]; simp
  | case2 t h =>
    rw [wrapUp, dif_neg h]
    have h1 : ¬ t < 0 := by omega
    simp [h1]

theorem wrapLoop_eq {n : ℤ} (hn : 0 < n) (t : ℤ) : wrapLoop t n = t % n := by
  unfold wrapLoop
  rw [wrapUp_eq hn, wrapDown_eq hn]
  by_cases h : t < 0
  · simp [h]
  · have := Int.emod_nonneg t hn.ne'
    have h' : ¬ t % n < 0 := by omega
    simp [h, h']

/-! ### strides -/

theorem stridesOf_length (l : List ℕ) : (stridesOf l).length = l.length := by
  induction l with
  | nil => rfl
  | cons a l ih =>
    cases l with
    | nil => rfl
    | cons b l => simp [stridesOf, ih]

theorem stridesOf_cons (a : ℕ) (l : List ℕ) : stridesOf (a :: l) = l.prod :: stridesOf l := by
  induction l generalizing a with
  | nil => rfl
  | cons b l ih =>
    rw [stridesOf]
    simp only [ih b, List.headD_cons, List.prod_cons, mul_comm]

/-! ### C order -/

theorem cOrder_lt {shape D : List ℕ} (h : ValidIndex shape D) : cOrder shape D < shape.prod := by
  induction h with
  | nil => simp [cOrder]
  | @cons n d ns ds hd _ ih =>
    simp only [cOrder, List.prod_cons]
    calc d * ns.prod + cOrder ns ds < d * ns.prod + ns.prod := by omega
      _ = (d + 1) * ns.prod := by ring
      _ ≤ n * ns.prod := Nat.mul_le_mul_right _ hd

theorem cOrder_inj {shape D D' : List ℕ} (h : ValidIndex shape D) (h' : ValidIndex shape D')
    (e : cOrder shape D = cOrder shape D') : D = D' := by
  induction h generalizing D' with
  | nil => cases h'; rfl
  | @cons n d ns ds hd hds ih =>
    cases h' with
    | @cons _ d' _ ds' hd' hds' =>
      simp only [cOrder] at e
      have l1 := cOrder_lt hds
      have l2 := cOrder_lt hds'
      have hp : 0 < ns.prod := by omega
      have e1 : d = d' := by
        have a1 : (d * ns.prod + cOrder ns ds) / ns.prod = d := by
          rw [mul_comm, Nat.mul_add_div hp, Nat.div_eq_of_lt l1]; rfl
        have a2 : (d' * ns.prod + cOrder ns ds') / ns.prod = d' := by
          rw [mul_comm, Nat.mul_add_div hp, Nat.div_eq_of_lt l2]; rfl
        rw [← a1, e, a2]
      subst e1
      rw [ih hds' (by omega)]

theorem mem_ndindex {shape D : List ℕ} : D ∈ ndindex shape ↔ ValidIndex shape D := by
  induction shape generalizing D with
  | nil =>
    simp only [ndindex, List.mem_singleton, ValidIndex]
    constructor
    · rintro rfl; exact .nil
    · rintro ⟨⟩; rfl
  | cons n ns ih =>
    simp only [ndindex, List.mem_flatMap, List.mem_range, List.mem_map]
    constructor
    · rintro ⟨a, ha, t, ht, rfl⟩
      exact .cons ha (ih.1 ht)
    · intro h
      cases h with
      | cons hd ht => exact ⟨_, hd, _, ih.2 ht, rfl⟩

theorem ndindex_length (shape : List ℕ) : (ndindex shape).length = shape.prod := by
  induction shape with
  | nil => rfl
  | cons n ns ih => simp [ndindex, List.length_flatMap, ih]

theorem getElem?_flatMap_range {α : Type*} (f : ℕ → List α) (m : ℕ) (hf : ∀ a, (f a).length = m)
    (n a b : ℕ) (ha : a < n) (hb : b < m) :
    ((List.range n).flatMap f)[a * m + b]? = (f a)[b]? := by
  induction n generalizing a f with
  | zero => omega
  | succ n ih =>
    rw [List.range_succ_eq_map, List.flatMap_cons]
    cases a with
    | zero =>
      rw [List.getElem?_append_left (by rw [hf]; omega)]
      simp
    | succ a =>
      rw [List.getElem?_append_right (by rw [hf]; nlinarith), hf]
      rw [List.flatMap_map]
      have := ih (fun i => f (i + 1)) (fun i => hf _) a (by omega)
      simp only [Nat.succ_eq_add_one]
      rw [← this]
      congr 1
      rw [Nat.add_mul]; omega

theorem ndindex_getElem? {shape D : List ℕ} (h : ValidIndex shape D) :
    (ndindex shape)[cOrder shape D]? = some D := by
  induction h with
  | nil => rfl
  | @cons n d ns ds hd hds ih =>
    simp only [ndindex, cOrder]
    rw [getElem?_flatMap_range _ ns.prod (by intro a; simp [ndindex_length]) n d _ hd (cOrder_lt hds)]
    simp [ih]

theorem exists_cOrder_eq {shape : List ℕ} {k : ℕ} (hk : k < shape.prod) :
    ∃ D, ValidIndex shape D ∧ cOrder shape D = k := by
  have h1 : k < (ndindex shape).length := by rwa [ndindex_length]
  refine ⟨(ndindex shape)[k], mem_ndindex.1 (List.getElem_mem _), ?_⟩
  by_contra hne
  induction shape generalizing k with
  | nil => simp at hk; subst hk; simp [cOrder] at hne
  | cons n ns ih =>
    simp only [List.prod_cons] at hk
    have hp : 0 < ns.prod := by
      rcases Nat.eq_zero_or_pos ns.prod with h | h
      · simp [h] at hk
      · exact h
    have hq : k / ns.prod < n := by
      rw [Nat.div_lt_iff_lt_mul hp]; exact hk
    have hr : k % ns.prod < ns.prod := Nat.mod_lt _ hp
    have hk' : k = (k / ns.prod) * ns.prod + k % ns.prod := by
      rw [mul_comm]; exact (Nat.div_add_mod k ns.prod).symm
    have hr' : k % ns.prod < (ndindex ns).length := by rwa [ndindex_length]
    have key : (ndindex (n :: ns))[k] = (k / ns.prod) :: (ndindex ns)[k % ns.prod] := by
      have := getElem?_flatMap_range (fun a => (ndindex ns).map fun t => a :: t) ns.prod
        (by intro a; simp [ndindex_length]) n (k / ns.prod) (k % ns.prod) hq hr
      rw [← hk'] at this
      rw [← Option.some_inj, ← List.getElem?_eq_getElem h1]
      simp only [ndindex]
      rw [this]
      simp [List.getElem?_eq_getElem hr']
    rw [key] at hne
    simp only [cOrder] at hne
    by_cases hh : cOrder ns (ndindex ns)[k % ns.prod] = k % ns.prod
    · rw [hh] at hne; omega
    · exact ih hr hr' hh

theorem ndindex_nodup (shape : List ℕ) : (ndindex shape).Nodup := by
  induction shape with
  | nil => simp [ndindex]
  | cons n ns ih =>
    simp only [ndindex]
    rw [List.nodup_flatMap]
    refine ⟨fun a _ => ih.map (by intro x y h; simpa using h), ?_⟩
    refine List.Pairwise.imp_of_mem ?_ (List.nodup_range (n := n))
    intro a b _ _ hab
    simp only [Function.onFun]
    intro x hx hy
    simp only [List.mem_map] at hx hy
    obtain ⟨_, _, rfl⟩ := hx
    obtain ⟨_, _, h⟩ := hy
    exact hab (by simpa using (List.cons.inj h).1.symm)

/-! ### the patch odometer -/

/-- Mixed-radix digits, last axis first; the first axis (last in the list) is not reduced. -/
def digitsRev : List ℤ → List ℕ → ℕ → List ℤ
  | [], _, _ => []
  | [s], _, k => [s + k]
  | s :: s' :: ss, w :: ws, k => (s + (k % w : ℕ)) :: digitsRev (s' :: ss) ws (k / w)
  | s :: s' :: ss, [], k => (s + k) :: (s' :: ss)

theorem digitsRev_zero (sil : List ℤ) (w : List ℕ) : digitsRev sil w 0 = sil := by
  induction sil generalizing w with
  | nil => rfl
  | cons s ss ih =>
    cases ss with
    | nil => simp [digitsRev]
    | cons s' ss =>
      cases w with
      | nil => simp [digitsRev]
      | cons w ws => simp [digitsRev, ih]

theorem advanceRev_digits (sil : List ℤ) (w : List ℕ) (hl : w.length = sil.length)
    (hw : ∀ a ∈ w, 0 < a) (k : ℕ) :
    advanceRev sil (List.zipWith (fun s (a : ℕ) => s + (a : ℤ)) sil w) (digitsRev sil w k)
      = digitsRev sil w (k + 1) := by
  induction sil generalizing w k with
  | nil => cases w <;> simp [digitsRev, advanceRev]
  | cons s ss ih =>
    cases w with
    | nil => simp at hl
    | cons a ws =>
      cases ss with
      | nil =>
        simp only [List.length_cons, List.length_nil, Nat.zero_add, Nat.add_eq_right,
          List.length_eq_zero_iff] at hl
        subst hl
        simp [digitsRev, advanceRev, add_assoc]
      | cons s' ss =>
        have ha : 0 < a := hw a (by simp)
        have ih' := ih ws (by simpa using hl) (fun b hb => hw b (by simp [hb])) (k / a)
        simp only [digitsRev, List.zipWith_cons_cons, advanceRev]
        have hdm := Nat.div_add_mod k a
        by_cases h : k % a + 1 = a
        · have e1 : s + ((k % a : ℕ) : ℤ) + 1 = s + (a : ℤ) := by
            omega
          rw [if_pos e1]
          have hk1 : k + 1 = a * (k / a + 1) := by rw [Nat.mul_add]; omega
          have h1 : (k + 1) % a = 0 := by rw [hk1]; simp
          have h2 : (k + 1) / a = k / a + 1 := by rw [hk1]; simp [ha]
          rw [h1, h2]
          simp only [Nat.cast_zero, add_zero]
          congr 1
        · have hlt : k % a + 1 < a := by have := Nat.mod_lt k ha; omega
          have e1 : s + ((k % a : ℕ) : ℤ) + 1 ≠ s + (a : ℤ) := by omega
          rw [if_neg e1]
          have h1 : (k + 1) % a = k % a + 1 := by
            rw [show k + 1 = (k % a + 1) + a * (k / a) by omega, Nat.add_mul_mod_self_left,
              Nat.mod_eq_of_lt hlt]
          have h2 : (k + 1) / a = k / a := by
            rw [show k + 1 = (k % a + 1) + a * (k / a) by omega, Nat.add_mul_div_left _ _ ha,
              Nat.div_eq_of_lt hlt]; omega
          rw [h1, h2]
          push_cast
          rw [add_assoc]

theorem mem_digitsRev (sil : List ℤ) (w : List ℕ) (hl : w.length = sil.length)
    (hw : ∀ a ∈ w, 0 < a) (hne : sil ≠ []) (p : List ℤ) :
    (∃ k < w.prod, digitsRev sil w k = p) ↔
      List.Forall₂ (fun (sr : ℤ × ℕ) (q : ℤ) => sr.1 ≤ q ∧ q < sr.1 + sr.2) (sil.zip w) p := by
  induction sil generalizing w p with
  | nil => simp at hne
  | cons s ss ih =>
    cases w with
    | nil => simp at hl
    | cons a ws =>
      have ha : 0 < a := hw a (by simp)
      cases ss with
      | nil =>
        simp only [List.length_cons, List.length_nil, Nat.zero_add, Nat.add_eq_right,
          List.length_eq_zero_iff] at hl
        subst hl
        simp only [digitsRev, List.prod_cons, List.prod_nil, mul_one, List.zip_cons_cons,
          List.zip_nil_right, List.forall₂_cons_left_iff, List.forall₂_nil_left_iff]
        constructor
        · rintro ⟨k, hk, rfl⟩
          exact ⟨s + k, [], by omega, rfl, rfl⟩
        · rintro ⟨q, u, hq, rfl, rfl⟩
          exact ⟨(q - s).toNat, by omega, by
            rw [List.cons.injEq]; exact ⟨by omega, rfl⟩⟩
      | cons s' ss =>
        have ih' := ih ws (by simpa using hl) (fun b hb => hw b (by simp [hb])) (by simp)
        rw [List.zip_cons_cons, List.forall₂_cons_left_iff]
        constructor
        · rintro ⟨k, hk, rfl⟩
          refine ⟨s + (k % a : ℕ), digitsRev (s' :: ss) ws (k / a), ?_, ?_, rfl⟩
          · have := Nat.mod_lt k ha
            constructor
            · simp only; omega
            · simp only; omega
          · rw [← ih']
            refine ⟨k / a, ?_, rfl⟩
            rw [Nat.div_lt_iff_lt_mul ha, mul_comm]
            simpa using hk
        · rintro ⟨q, u, hq, hu, rfl⟩
          rw [← ih'] at hu
          obtain ⟨k, hk, rfl⟩ := hu
          simp only at hq
          obtain ⟨m, hm⟩ : ∃ m : ℕ, q = s + m := ⟨(q - s).toNat, by omega⟩
          subst hm
          have hma : m < a := by omega
          refine ⟨m + a * k, ?_, ?_⟩
          · simp only [List.prod_cons]
            calc m + a * k < a + a * k := by omega
              _ = a * (k + 1) := by ring
              _ ≤ a * ws.prod := Nat.mul_le_mul_left _ hk
          · simp only [digitsRev]
            rw [Nat.add_mul_mod_self_left, Nat.mod_eq_of_lt hma, Nat.add_mul_div_left _ _ ha,
              Nat.div_eq_of_lt hma, Nat.zero_add]

theorem patchPoints_eq (sil sir : List ℤ) (w : List ℕ) (hl : w.length = sil.length)
    (hw : ∀ a ∈ w, 0 < a)
    (hr : sir.reverse = List.zipWith (fun s (a : ℕ) => s + (a : ℤ)) sil.reverse w) (m k : ℕ) :
    patchPoints sil sir m (digitsRev sil.reverse w k).reverse
      = (List.range m).map fun i => (digitsRev sil.reverse w (k + i)).reverse := by
  induction m generalizing k with
  | zero => rfl
  | succ m ih =>
    rw [patchPoints]
    have : advance sil sir (digitsRev sil.reverse w k).reverse
        = (digitsRev sil.reverse w (k + 1)).reverse := by
      unfold advance
      rw [List.reverse_reverse, hr, advanceRev_digits _ _ (by simpa using hl) hw]
    rw [this, ih, List.range_succ_eq_map, List.map_cons, List.map_map]
    congr 1
    apply List.map_congr_left
    intro i _
    simp only [Function.comp]
    rw [show k + 1 + i = k + (i + 1) by omega]

/-- The patch loop visits exactly the points of the product of the ranges. -/
theorem mem_patchPoints (rg : List (ℤ × ℤ)) (hne : rg ≠ []) (hle : ∀ a ∈ rg, a.1 ≤ a.2)
    (p : List ℤ) :
    p ∈ patchPoints (rg.map (·.1)) (rg.map (·.2))
        (patchSize (rg.map (·.1)) (rg.map (·.2))).toNat (rg.map (·.1)) ↔
      List.Forall₂ (fun (sr : ℤ × ℤ) (q : ℤ) => sr.1 ≤ q ∧ q < sr.2) rg p := by
  set w : List ℕ := rg.reverse.map fun a => (a.2 - a.1).toNat with hwdef
  have hps : (patchSize (rg.map (·.1)) (rg.map (·.2))).toNat = w.prod := by
    have : patchSize (rg.map (·.1)) (rg.map (·.2)) = (w.prod : ℤ) := by
      unfold patchSize
      rw [hwdef, List.map_reverse, List.prod_reverse]
      clear hwdef hne
      induction rg with
      | nil => rfl
      | cons a l ih =>
        simp only [List.map_cons, List.zipWith_cons_cons, List.prod_cons]
        rw [ih (fun b hb => hle b (by simp [hb]))]
        have := hle a (by simp)
        push_cast
        rw [Int.toNat_of_nonneg (by omega)]
    rw [this]; simp
  by_cases hz : ∃ a ∈ rg, a.1 = a.2
  · have : w.prod = 0 := by
      rw [List.prod_eq_zero_iff, hwdef]
      obtain ⟨a, ha, e⟩ := hz
      simp only [List.mem_map, List.mem_reverse]
      exact ⟨a, ha, by omega⟩
    rw [hps, this]
    simp only [patchPoints, List.not_mem_nil, false_iff]
    intro hf
    obtain ⟨a, ha, e⟩ := hz
    obtain ⟨i, hi, rfl⟩ := List.getElem_of_mem ha
    have hlen := hf.length_eq
    have := hf.get hi (by omega)
    simp only [List.get_eq_getElem] at this
    omega
  · push Not at hz
    have hw : ∀ a ∈ w, 0 < a := by
      intro a ha
      simp only [hwdef, List.mem_map, List.mem_reverse] at ha
      obtain ⟨b, hb, rfl⟩ := ha
      have := hle b hb; have := hz b hb
      omega
    have hl : w.length = (rg.map (·.1)).length := by simp [hwdef]
    have hr : (rg.map (·.2)).reverse
        = List.zipWith (fun s (a : ℕ) => s + (a : ℤ)) (rg.map (·.1)).reverse w := by
      rw [hwdef, ← List.map_reverse, ← List.map_reverse]
      have hle' : ∀ a ∈ rg.reverse, a.1 ≤ a.2 := by simpa using hle
      revert hle'
      generalize rg.reverse = l
      intro hle'
      induction l with
      | nil => rfl
      | cons a l ih =>
        simp only [List.map_cons, List.zipWith_cons_cons]
        rw [ih (fun b hb => hle' b (by simp [hb]))]
        have := hle' a (by simp)
        congr 1; omega
    have h0 : (rg.map (·.1)) = (digitsRev (rg.map (·.1)).reverse w 0).reverse := by
      rw [digitsRev_zero, List.reverse_reverse]
    rw [hps]
    conv_lhs => rw [show ∀ m, patchPoints (rg.map (·.1)) (rg.map (·.2)) m (rg.map (·.1)) =
      patchPoints (rg.map (·.1)) (rg.map (·.2)) m (digitsRev (rg.map (·.1)).reverse w 0).reverse
      from fun m => by rw [← h0]]
    rw [patchPoints_eq _ _ w hl hw hr]
    have key := mem_digitsRev (rg.map (·.1)).reverse w (by simpa using hl) hw (by simpa using hne)
      p.reverse
    simp only [Nat.zero_add, List.mem_map, List.mem_range]
    have e1 : (∃ a < w.prod, (digitsRev (rg.map (·.1)).reverse w a).reverse = p) ↔
        (∃ k < w.prod, digitsRev (rg.map (·.1)).reverse w k = p.reverse) := by
      constructor
      · rintro ⟨k, hk, rfl⟩; exact ⟨k, hk, by simp⟩
      · rintro ⟨k, hk, e⟩; exact ⟨k, hk, by simp [e]⟩
    rw [e1, key]
    have e2 : ((rg.map (·.1)).reverse.zip w) = rg.reverse.map fun a => (a.1, (a.2 - a.1).toNat) := by
      rw [hwdef, ← List.map_reverse]
      generalize rg.reverse = l
      induction l with
      | nil => rfl
      | cons a l ih => simp [ih]
    rw [e2, List.forall₂_map_left_iff]
    rw [show (List.Forall₂ (fun (sr : ℤ × ℤ) (q : ℤ) => sr.1 ≤ q ∧ q < sr.2) rg p) ↔
      List.Forall₂ (fun (sr : ℤ × ℤ) (q : ℤ) => sr.1 ≤ q ∧ q < sr.2) rg.reverse p.reverse from
        List.forall₂_reverse_iff.symm]
    have hle' : ∀ a ∈ rg.reverse, a.1 ≤ a.2 := by simpa using hle
    revert hle'
    generalize rg.reverse = l
    generalize p.reverse = q
    intro hle'
    induction l generalizing q with
    | nil => simp
    | cons a l ih =>
      cases q with
      | nil => simp
      | cons b q =>
        have := hle' a (by simp)
        simp only [List.forall₂_cons]
        have ih' := ih q (fun b hb => hle' b (by simp [hb]))
        refine and_congr ?_ ih'
        constructor <;> rintro ⟨h1, h2⟩ <;> constructor <;> omega

end Pmesh
