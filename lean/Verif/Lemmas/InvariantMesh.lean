import Verif.Lemmas.Invariant
import Verif.Spec.Invariant
import Mathlib.Data.Fintype.BigOperators
import Mathlib.Data.Int.Interval
import Mathlib.Algebra.BigOperators.Fin
import Mathlib.Tactic.Linarith
import Mathlib.Order.Interval.Finset.Defs

namespace Pmesh

/-! ### Onto -/

theorem prod_boxVol (u v n cm : ℕ) : ∏ d : Fin n, (if cm.testBit d then v else u) = boxVol u v n cm := by
  induction n generalizing cm with
  | zero => simp [boxVol]
  | succ n ih =>
    rw [Fin.prod_univ_succ, boxVol, ← ih (cm / 2)]
    congr 1
    · simp [Nat.testBit_zero]
    · apply Finset.prod_congr rfl
      intro d _
      simp [Nat.testBit_succ]

theorem adm_ofFn {n cm : ℕ} (f : Fin n → ℤ) (h : ∀ d : Fin n, cm.testBit d → 0 ≤ f d) : Adm cm (List.ofFn f) := by
  induction n generalizing cm with
  | zero => simp [Adm]
  | succ n ih =>
    rw [List.ofFn_succ]
    refine ⟨fun hc => h 0 (by simp [Nat.testBit_zero, hc]), ih _ fun d hd => h d.succ (by simpa [Nat.testBit_succ] using hd)⟩

/-- Every number below the volume is the index of a point of the box. -/
theorem idx_surj (n cm h : ℕ) (A : Finset ℤ)
    (hlt : ∀ x : List ℤ, x.length = n → Adm cm x → (∀ d : Fin n, x.getD d 0 ∈ if cm.testBit d then Finset.Icc (0 : ℤ) h else A) →
      idx n x cm < boxVol A.card (h + 1) n cm) {i : ℕ} (hi : i < boxVol A.card (h + 1) n cm) :
    ∃ x : List ℤ, x.length = n ∧ Adm cm x ∧ (∀ d : Fin n, x.getD d 0 ∈ if cm.testBit d then Finset.Icc (0 : ℤ) h else A) ∧ idx n x cm = i := by
  let R : Fin n → Finset ℤ := fun d => if cm.testBit d then Finset.Icc (0 : ℤ) h else A
  let P := Fintype.piFinset R
  have hadm : ∀ f ∈ P, Adm cm (List.ofFn f) := fun f hf => adm_ofFn f fun d hd => by
    have := Fintype.mem_piFinset.1 hf d
    simp only [R, hd, if_true, Finset.mem_Icc] at this
    exact this.1
  have hget : ∀ f ∈ P, ∀ d : Fin n, (List.ofFn f).getD d 0 ∈ if cm.testBit d then Finset.Icc (0 : ℤ) h else A := fun f hf d => by
    have := Fintype.mem_piFinset.1 hf d
    rw [List.getD_eq_getElem _ _ (by simp)]
    simpa using this
  have hcard : P.card = boxVol A.card (h + 1) n cm := by
    rw [Fintype.card_piFinset, ← prod_boxVol]
    apply Finset.prod_congr rfl
    intro d _
    simp only [R]
    split_ifs <;> simp
  have himg : P.image (fun f => idx n (List.ofFn f) cm) = Finset.range (boxVol A.card (h + 1) n cm) := by
    apply Finset.eq_of_subset_of_card_le
    · intro j hj
      obtain ⟨f, hf, rfl⟩ := Finset.mem_image.1 hj
      exact Finset.mem_range.2 (hlt _ (by simp) (hadm f hf) (hget f hf))
    · rw [Finset.card_range, Finset.card_image_of_injOn, hcard]
      intro f hf g hg e
      have := idx_inj (by simp) (by simp) (hadm f hf) (hadm g hg) e
      exact List.ofFn_injective this
  have := Finset.mem_range.2 hi
  rw [← himg] at this
  obtain ⟨f, hf, e⟩ := Finset.mem_image.1 this
  exact ⟨List.ofFn f, by simp, hadm f hf, hget f hf, e⟩

/-! ### The Nyquist mode -/

/-- The positive name of the Nyquist mode. -/
def foldAxis (xd : ℤ) (n : ℕ) : ℤ := if xd = (-(n : ℤ)) / 2 then (n : ℤ) / 2 else xd

def foldMode (x : List ℤ) (nmesh : List ℕ) : List ℤ := List.zipWith foldAxis x nmesh

theorem foldAxis_range {xd : ℤ} {n : ℕ} (hn : 0 < n) (h : -(n : ℤ) - 1 ≤ 2 * xd ∧ 2 * xd ≤ n) :
    -(n : ℤ) < 2 * foldAxis xd n ∧ 2 * foldAxis xd n ≤ n := by
  unfold foldAxis
  split_ifs <;> omega

theorem foldAxis_modEq (xd : ℤ) (n : ℕ) : foldAxis xd n ≡ xd [ZMOD n] := by
  unfold foldAxis
  split_ifs with h
  · rw [h, Int.modEq_iff_dvd]
    exact ⟨-1, by omega⟩
  · rfl

theorem eq_of_modEq {a b : ℤ} {n : ℕ} (ha : -(n : ℤ) < 2 * a ∧ 2 * a ≤ n) (hb : -(n : ℤ) < 2 * b ∧ 2 * b ≤ n) (h : a ≡ b [ZMOD n]) : a = b := by
  obtain ⟨k, hk⟩ := Int.modEq_iff_dvd.1 h
  have h1 : (n : ℤ) * k < n := by omega
  have h2 : -(n : ℤ) < n * k := by omega
  have hn : (0 : ℤ) < n := by omega
  have h3 : k < 1 := by nlinarith
  have h4 : -1 < k := by nlinarith
  have : k = 0 := by omega
  subst this
  omega

theorem foldMode_length {x : List ℤ} {nmesh : List ℕ} (h : InMesh x nmesh) : (foldMode x nmesh).length = x.length := by
  have := h.length_eq
  simp [foldMode, this]

theorem foldMode_bad {x : List ℤ} {nmesh : List ℕ} (hl : x.length = nmesh.length) (hn : ∀ n ∈ nmesh, 0 < n) :
    ((List.zipWith (fun (xd : ℤ) (n : ℕ) => decide (xd > (n : ℤ) / 2) || decide (xd < (-(n : ℤ)) / 2)) (foldMode x nmesh) nmesh).any id) = true
      ↔ ¬ InMesh x nmesh := by
  induction x generalizing nmesh with
  | nil => cases nmesh <;> simp_all [InMesh, foldMode]
  | cons a x ih =>
    cases nmesh with
    | nil => simp at hl
    | cons n nmesh =>
      have h := ih (nmesh := nmesh) (by simpa using hl) fun m hm => hn m (by simp [hm])
      have h0 := hn n (by simp)
      simp only [foldMode, InMesh] at h ⊢
      simp only [List.zipWith_cons_cons, List.any_cons, Bool.or_eq_true, List.forall₂_cons, id, h, decide_eq_true_eq]
      have : (foldAxis a n > (n : ℤ) / 2 ∨ foldAxis a n < -(n : ℤ) / 2) ↔ ¬ (-(n : ℤ) - 1 ≤ 2 * a ∧ 2 * a ≤ n) := by
        unfold foldAxis
        split_ifs <;> omega
      rw [this]
      tauto

theorem getIndex_bad {x : List ℤ} {nmesh : List ℕ} (hl : x.length = nmesh.length) (hn : ∀ n ∈ nmesh, 0 < n) (h : ¬ InMesh x nmesh)
    (c : Bool) (ml : Option ℤ) : getIndex x nmesh c ml = -1 := by
  unfold getIndex
  simp only
  exact if_pos ((foldMode_bad hl hn).2 h)

/-- The compression mask. -/
def cmaskOf (n : ℕ) (c : Bool) : ℕ := if c then 2 ^ (n - 1) else 0

theorem getIndex_eq {x : List ℤ} {nmesh : List ℕ} (hn : ∀ n ∈ nmesh, 0 < n) (h : InMesh x nmesh)
    (c : Bool) (ml : Option ℤ) :
    getIndex x nmesh c ml = invariantIndex x.length (foldMode x nmesh) (cmaskOf x.length c) (ml.getD (-1)) := by
  unfold getIndex
  simp only
  exact if_neg (fun h' => (foldMode_bad h.length_eq hn).1 h' h)

theorem cmaskOf_lt {n : ℕ} (hn : n ≠ 0) (c : Bool) : cmaskOf n c < 2 ^ n := by
  unfold cmaskOf
  split_ifs
  · exact Nat.pow_lt_pow_right (by omega) (by omega)
  · positivity

theorem adm_zero (x : List ℤ) : Adm 0 x := by
  induction x with
  | nil => trivial
  | cons a x ih => exact ⟨by simp, by simpa using ih⟩

theorem adm_last (y : List ℤ) (k : ℤ) : Adm (2 ^ y.length) (y ++ [k]) ↔ 0 ≤ k := by
  induction y with
  | nil => simp [Adm]
  | cons a y ih =>
    simp only [List.cons_append, List.length_cons, Adm]
    have h1 : 2 ^ (y.length + 1) % 2 = 0 := by omega
    have h2 : 2 ^ (y.length + 1) / 2 = 2 ^ y.length := by omega
    rw [h1, h2, ih]
    simp

theorem mem_foldMode {x : List ℤ} {nmesh : List ℕ} {a : ℤ} (h : a ∈ foldMode x nmesh) (hm : InMesh x nmesh) (hn : ∀ n ∈ nmesh, 0 < n) :
    ∃ n ∈ nmesh, -(n : ℤ) < 2 * a ∧ 2 * a ≤ n := by
  induction hm with
  | nil => simp [foldMode] at h
  | @cons b n x nmesh h1 h2 ih =>
    simp only [foldMode, List.zipWith_cons_cons, List.mem_cons] at h
    rcases h with rfl | h
    · exact ⟨n, by simp, foldAxis_range (hn n (by simp)) h1⟩
    · obtain ⟨m, hm, h⟩ := ih h fun m hm => hn m (by simp [hm])
      exact ⟨m, by simp [hm], h⟩

theorem foldMode_eq_iff {x y : List ℤ} {nmesh : List ℕ} (hx : InMesh x nmesh) (hy : InMesh y nmesh) (hn : ∀ n ∈ nmesh, 0 < n) :
    foldMode x nmesh = foldMode y nmesh ↔ SameMode x y nmesh := by
  induction hx generalizing y with
  | nil =>
    cases hy
    simp [foldMode, SameMode]
  | @cons a n x nmesh h1 h2 ih =>
    cases hy with
    | @cons b _ y _ g1 g2 =>
      have h0 := hn n (by simp)
      have := ih g2 fun m hm => hn m (by simp [hm])
      simp only [foldMode] at this ⊢
      simp only [List.zipWith_cons_cons, List.cons.injEq, this]
      have e : foldAxis a n = foldAxis b n ↔ a ≡ b [ZMOD n] := by
        constructor
        · intro h
          exact ((foldAxis_modEq a n).symm.trans (h ▸ Int.ModEq.refl _)).trans (foldAxis_modEq b n)
        · intro h
          exact eq_of_modEq (foldAxis_range h0 h1) (foldAxis_range h0 g1) (((foldAxis_modEq a n).trans h).trans (foldAxis_modEq b n).symm)
      rw [e]
      constructor
      · rintro ⟨h, h'⟩ d hd
        cases d with
        | zero => simpa using h
        | succ d => simpa using h' d (by simpa using hd)
      · intro h
        refine ⟨by simpa using h 0 (by simp), fun d hd => ?_⟩
        simpa using h (d + 1) (by simpa using hd)

/-- The negative name of the Nyquist mode. -/
def unfoldAxis (a : ℤ) (N : ℕ) : ℤ := if 2 * a = N then a - N else a

theorem fold_unfold {a : ℤ} {N : ℕ} (hN : 0 < N) (h : -(N : ℤ) < 2 * a ∧ 2 * a ≤ N) : foldAxis (unfoldAxis a N) N = a := by
  unfold foldAxis unfoldAxis
  split_ifs <;> omega

theorem unfold_range {a : ℤ} {N : ℕ} (hN : 0 < N) (h : -(N : ℤ) < 2 * a ∧ 2 * a ≤ N) :
    -(N : ℤ) ≤ 2 * unfoldAxis a N ∧ 2 * unfoldAxis a N < N := by
  unfold unfoldAxis
  split_ifs <;> omega

theorem FFTMode.inMesh {x : List ℤ} {nmesh : List ℕ} (h : FFTMode x nmesh) : InMesh x nmesh :=
  List.Forall₂.imp (fun _ _ h => ⟨by omega, by omega⟩) h

theorem HalfMode.inMesh {x : List ℤ} {nmesh : List ℕ} (h : HalfMode x nmesh) : InMesh x nmesh := by
  obtain ⟨y, k, rfl, m, n, rfl, h1, h2, h3⟩ := h
  exact List.rel_append h1.inMesh (List.Forall₂.cons ⟨by omega, h3⟩ List.Forall₂.nil)

theorem fft_unique {x y : List ℤ} {nmesh : List ℕ} (hx : FFTMode x nmesh) (hy : FFTMode y nmesh) (h : SameMode x y nmesh) : x = y := by
  induction hx generalizing y with
  | nil => cases hy; rfl
  | @cons a n x nmesh h1 h2 ih =>
    cases hy with
    | @cons b _ y _ g1 g2 =>
      have e0 : a ≡ b [ZMOD n] := by simpa using h 0 (by simp)
      have e1 := ih g2 fun d hd => by simpa using h (d + 1) (by simpa using hd)
      obtain ⟨k, hk⟩ := Int.modEq_iff_dvd.1 e0
      have h3 : k < 1 := by nlinarith
      have h4 : -1 < k := by nlinarith
      have : k = 0 := by omega
      subst this
      rw [e1, show a = b by omega]

/-- The modes of a cubic mesh, each with the positive name of the Nyquist mode, have indices below the number of modes. -/
theorem idx_lt_cubic {x : List ℤ} {cm N : ℕ} (hN : 0 < N) (ha : Adm cm x) (hx : ∀ a ∈ x, -(N : ℤ) < 2 * a ∧ 2 * a ≤ N) :
    idx x.length x cm < boxVol N (N / 2 + 1) x.length cm := by
  rcases Nat.even_or_odd' N with ⟨h, hh | hh⟩
  · have := idx_half (le_refl x.length) ha (h := h) fun a ha => by have := hx a ha; omega
    rw [show N / 2 = h by omega, hh]
    exact this
  · have := idx_lt (le_refl x.length) ha (S := h) (absmax_le_iff.2 fun a ha => by have := hx a ha; omega)
    rw [show N / 2 = h by omega, hh]
    exact this

theorem idx_surj_cubic {n cm N : ℕ} (hN : 0 < N) {i : ℕ} (hi : i < boxVol N (N / 2 + 1) n cm) :
    ∃ x : List ℤ, x.length = n ∧ Adm cm x ∧ (∀ a ∈ x, -(N : ℤ) < 2 * a ∧ 2 * a ≤ N) ∧ idx n x cm = i := by
  have hc : (Finset.Icc (-(((N - 1) / 2 : ℕ) : ℤ)) ((N / 2 : ℕ) : ℤ)).card = N := by
    rw [Int.card_Icc]
    omega
  have key : ∀ x : List ℤ, x.length = n →
      (∀ d : Fin n, x.getD d 0 ∈ if cm.testBit d then Finset.Icc (0 : ℤ) (N / 2 : ℕ) else Finset.Icc (-(((N - 1) / 2 : ℕ) : ℤ)) ((N / 2 : ℕ) : ℤ)) →
      ∀ a ∈ x, -(N : ℤ) < 2 * a ∧ 2 * a ≤ N := by
    intro x hl hx a ha
    obtain ⟨d, hd, rfl⟩ := List.mem_iff_getElem.1 ha
    have := hx ⟨d, by omega⟩
    rw [List.getD_eq_getElem _ _ hd] at this
    split_ifs at this <;> simp only [Finset.mem_Icc] at this <;> omega
  obtain ⟨x, h1, h2, h3, h4⟩ := idx_surj n cm (N / 2) (Finset.Icc (-(((N - 1) / 2 : ℕ) : ℤ)) ((N / 2 : ℕ) : ℤ))
    (fun x hl ha hx => by
      have := idx_lt_cubic hN ha (key x hl hx)
      rw [hl] at this
      rwa [hc]) (by rwa [hc])
  exact ⟨x, h1, h2, key x h1 h3, h4⟩

end Pmesh
