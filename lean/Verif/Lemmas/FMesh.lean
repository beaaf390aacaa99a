import Verif.Lemmas.FSum
import Verif.Lemmas.NnbMesh

/-!
# Painting on a mesh with rounding
-/

set_option linter.unusedSectionVars false

namespace Pmesh

section
variable {K : Type*} [Field K] [LinearOrder K] [IsStrictOrderedRing K] [FloorRing K]

theorem RelativeError.nonneg {R : Rounding K} {ε : K} (h : RelativeError R ε) : 0 ≤ ε := by
  have := h 1
  rw [abs_one, one_mul] at this
  exact (abs_nonneg _).trans this

/-- The position in units of cells. -/
theorem gridCoord_near {R : Rounding K} {ε : K} (hR : RelativeError R ε) (hε1 : ε ≤ 1 / 64) {N : ℕ} {L x B : K} (hL : 0 < L) (hx : |x| ≤ B * L) :
    |R.rnd (R.rnd ((N : K) / L) * x) - x * N / L| ≤ 3 * (B * N * ε) := by
  have hε := hR.nonneg
  have hB : 0 ≤ B := by
    have : 0 ≤ B * L := (abs_nonneg _).trans hx
    exact nonneg_of_mul_nonneg_left this hL
  have hN : (0 : K) ≤ N := by positivity
  have e1 : x * N / L = (N : K) / L * x := by ring
  have hy : |(N : K) / L * x| ≤ B * N := by
    rw [abs_mul, abs_of_nonneg (by positivity), div_mul_eq_mul_div, div_le_iff₀ hL]
    calc (N : K) * |x| ≤ N * (B * L) := mul_le_mul_of_nonneg_left hx hN
      _ = _ := by ring
  have a1 : |R.rnd ((N : K) / L) * x - (N : K) / L * x| ≤ B * N * ε := by
    rw [← sub_mul, abs_mul]
    calc |R.rnd ((N : K) / L) - N / L| * |x| ≤ |(N : K) / L| * ε * |x| := mul_le_mul_of_nonneg_right (hR _) (abs_nonneg _)
      _ = |(N : K) / L * x| * ε := by rw [abs_mul]; ring
      _ ≤ _ := mul_le_mul_of_nonneg_right hy hε
  have a2 : |R.rnd ((N : K) / L) * x| ≤ B * N + B * N * ε := by
    have := abs_sub_abs_le_abs_sub (R.rnd ((N : K) / L) * x) ((N : K) / L * x)
    linarith
  have a3 := hR (R.rnd ((N : K) / L) * x)
  have a4 : |R.rnd ((N : K) / L) * x| * ε ≤ 2 * (B * N * ε) := by
    have h0 : 0 ≤ B * N * ε := by positivity
    have h1 : B * N * ε * ε ≤ B * N * ε * 1 := mul_le_mul_of_nonneg_left (by linarith) h0
    have := mul_le_mul_of_nonneg_right a2 hε
    linarith
  rw [e1]
  have := abs_sub_le (R.rnd (R.rnd ((N : K) / L) * x)) (R.rnd ((N : K) / L) * x) ((N : K) / L * x)
  linarith

/-- The position in the array of a rank, and the base cell there. -/
theorem gridLocal_near {R : Rounding K} {ε : K} (hR : RelativeError R ε) (hε1 : ε ≤ 1 / 64) {N s : ℕ} (hN : 0 < N) (hs : s ≤ N) {u y B : K}
    (hB : 1 ≤ B) (hy : |y| ≤ B * N) (hu : |u - y| ≤ 3 * (B * N * ε)) :
    |R.rnd (u + -(s : K)) + s - y| ≤ 6 * (B * N * ε) ∧ (|R.rnd (u + -(s : K))| + 1 / 2) * ε ≤ 3 * (B * N * ε) := by
  have hε := hR.nonneg
  have hN1 : (1 : K) ≤ N := by exact_mod_cast hN
  have hsN : (s : K) ≤ N := by exact_mod_cast hs
  have hs0 : (0 : K) ≤ s := by positivity
  have hBN : (N : K) ≤ B * N := le_mul_of_one_le_left (by linarith) hB
  have h0 : 0 ≤ B * N * ε := by positivity
  have h1 : B * N * ε ≤ B * N * (1 / 64) := mul_le_mul_of_nonneg_left hε1 (by linarith)
  have a := hR (u + -(s : K))
  have b : |u + -(s : K)| ≤ 2 * (B * N) + 3 * (B * N * ε) := by
    rw [abs_le] at hy hu ⊢
    constructor <;> linarith [hy.1, hy.2, hu.1, hu.2]
  have b2 : |u + -(s : K)| * ε ≤ 3 * (B * N * ε) := by
    have := mul_le_mul_of_nonneg_right (b.trans (show _ ≤ 3 * (B * N) by linarith)) hε
    linarith
  have c : |R.rnd (u + -(s : K)) + s - y| ≤ 6 * (B * N * ε) := by
    rw [abs_le] at a hu ⊢
    constructor <;> linarith [a.1, a.2, hu.1, hu.2]
  refine ⟨c, ?_⟩
  have d : |R.rnd (u + -(s : K))| + 1 / 2 ≤ 3 * (B * N) := by
    have d1 : |R.rnd (u + -(s : K))| ≤ 2 * (B * N) + 6 * (B * N * ε) := by
      rw [abs_le] at c hy ⊢
      constructor <;> linarith [c.1, c.2, hy.1, hy.2]
    linarith
  have := mul_le_mul_of_nonneg_right d hε
  linarith

/-- Products of numbers that are close to each other. -/
theorem prod_close {α : Type*} (l : List α) (f g : α → K) {τ : K} (hτ : 0 ≤ τ) (hg : ∀ a ∈ l, |g a| ≤ 1) (h : ∀ a ∈ l, |f a - g a| ≤ τ) :
    |(l.map f).prod - (l.map g).prod| ≤ (1 + τ) ^ l.length - 1 ∧ |(l.map g).prod| ≤ 1 := by
  induction l with
  | nil => simp
  | cons a l ih =>
    obtain ⟨i1, i2⟩ := ih (fun b hb => hg b (by simp [hb])) (fun b hb => h b (by simp [hb]))
    have h1 := hg a (by simp)
    have h2 := h a (by simp)
    simp only [List.map_cons, List.prod_cons, List.length_cons]
    set F := (l.map f).prod
    set G := (l.map g).prod
    constructor
    · have e : f a * F - g a * G = (f a - g a) * (F - G) + (f a - g a) * G + g a * (F - G) := by ring
      have p0 : 0 ≤ (1 + τ) ^ l.length - 1 := (abs_nonneg _).trans i1
      have t1 : |(f a - g a) * (F - G)| ≤ τ * ((1 + τ) ^ l.length - 1) := by rw [abs_mul]; exact mul_le_mul h2 i1 (abs_nonneg _) hτ
      have t2 : |(f a - g a) * G| ≤ τ * 1 := by rw [abs_mul]; exact mul_le_mul h2 i2 (abs_nonneg _) hτ
      have t3 : |g a * (F - G)| ≤ 1 * ((1 + τ) ^ l.length - 1) := by rw [abs_mul]; exact mul_le_mul h1 i1 (abs_nonneg _) (by norm_num)
      have := abs_add_le ((f a - g a) * (F - G) + (f a - g a) * G) (g a * (F - G))
      have := abs_add_le ((f a - g a) * (F - G)) ((f a - g a) * G)
      rw [e, pow_succ]
      linarith
    · rw [abs_mul]
      calc |g a| * |G| ≤ 1 * 1 := mul_le_mul h1 i2 (abs_nonneg _) (by norm_num)
        _ = 1 := one_mul 1

/-- One small factor makes a product of weights small. -/
theorem prod_small (l : List ℕ) (g : ℕ → K) {τ : K} (hg : ∀ a ∈ l, 0 ≤ g a ∧ g a ≤ 1) {j : ℕ} (hj : j ∈ l) (h : g j ≤ τ) :
    0 ≤ (l.map g).prod ∧ (l.map g).prod ≤ τ := by
  have key : ∀ l : List ℕ, (∀ a ∈ l, 0 ≤ g a ∧ g a ≤ 1) → 0 ≤ (l.map g).prod ∧ (l.map g).prod ≤ 1 := by
    intro l hl
    induction l with
    | nil => simp
    | cons a l ih =>
      obtain ⟨i1, i2⟩ := ih fun b hb => hl b (by simp [hb])
      obtain ⟨a1, a2⟩ := hl a (by simp)
      rw [List.map_cons, List.prod_cons]
      exact ⟨mul_nonneg a1 i1, mul_le_one₀ a2 i1 i2⟩
  refine ⟨(key l hg).1, ?_⟩
  induction l with
  | nil => simp at hj
  | cons a l ih =>
    obtain ⟨a1, a2⟩ := hg a (by simp)
    obtain ⟨k1, k2⟩ := key l fun b hb => hg b (by simp [hb])
    rw [List.map_cons, List.prod_cons]
    rcases List.mem_cons.1 hj with rfl | hj
    · exact (mul_le_of_le_one_right a1 k2).trans h
    · exact (mul_le_of_le_one_left k1 a2).trans (ih (fun b hb => hg b (by simp [hb])) hj)

end

section
variable {K : Type} [Field K] [LinearOrder K] [IsStrictOrderedRing K] [FloorRing K]

/-- The weights of the windows at the positions that the rank computes are close to the exact ones. -/
theorem rank_weights {R : Rounding K} {ε e B : K} (hR : RelativeError R ε) (he : e ≤ 1 / 128) (hB : 1 ≤ B) {m : PMesh K} (hm : m.OK)
    (hd : m.nmesh.length ≤ 3) (hN : ∀ j < m.nmesh.length, B * (m.nmesh.getD j 0 : ℕ) * ε ≤ e) (t : Tuned) (ht : t ≠ .nnb) {x : List K}
    (hx : x.length = m.nmesh.length) (hxb : ∀ j < m.nmesh.length, |x.getD j 0| ≤ B * m.box.getD j 0) {r : ℕ} (hr : r < m.nrank) :
    List.Forall₂ (AxisSmall R ε) (m.axesR R r) x ∧ ∀ c, ValidIndex (m.localShape r) c →
      |cwProd (List.zipWith (pieceStencil R t) (m.axesR R r) x) c - m.exactWeight t x (m.global r c)| ≤ 756 * e := by
  have hε := hR.nonneg
  have hpos : ∀ j < m.nmesh.length, (1 : K) ≤ (m.nmesh.getD j 0 : ℕ) := by
    intro j hj
    exact_mod_cast hm.nmesh_pos hj
  have hεe : ε ≤ e := by
    have h0 : 0 < m.nmesh.length := List.length_pos_iff.2 hm.dim
    have h1 := hN 0 h0
    have h2 : ε ≤ B * (m.nmesh.getD 0 0 : ℕ) * ε := le_mul_of_one_le_left hε (one_le_mul_of_one_le_of_one_le hB (hpos 0 h0))
    exact h2.trans h1
  have he0 : 0 ≤ e := hε.trans hεe
  have hε1 : ε ≤ 1 / 64 := by linarith
  have hLpos : ∀ j < m.nmesh.length, 0 < m.box.getD j 0 := by
    intro j hj
    apply hm.box_pos
    rw [List.getD_eq_getElem _ _ (by rw [hm.box_len]; exact hj)]; exact List.getElem_mem _
  -- the coordinates of the particle
  set y : ℕ → K := fun j => x.getD j 0 * (m.nmesh.getD j 0 : ℕ) / m.box.getD j 0 with hyd
  have hy : ∀ j < m.nmesh.length, |y j| ≤ B * (m.nmesh.getD j 0 : ℕ) := by
    intro j hj
    rw [hyd]
    simp only
    rw [abs_div, abs_mul, abs_of_pos (hLpos j hj), abs_of_nonneg (show (0 : K) ≤ (m.nmesh.getD j 0 : ℕ) by positivity), div_le_iff₀ (hLpos j hj)]
    calc |x.getD j 0| * (m.nmesh.getD j 0 : ℕ) ≤ B * m.box.getD j 0 * (m.nmesh.getD j 0 : ℕ) :=
          mul_le_mul_of_nonneg_right (hxb j hj) (by positivity)
      _ = _ := by ring
  set X : ℕ → K := fun j => R.rnd (R.rnd (R.rnd ((m.nmesh.getD j 0 : ℕ) / m.box.getD j 0) * x.getD j 0) + -(((m.start r).getD j 0 : ℕ) : K)) with hXd
  have hloc : ∀ j < m.nmesh.length, |X j + ((m.start r).getD j 0 : ℕ) - y j| ≤ 6 * e ∧ (|X j| + 1 / 2) * ε ≤ 3 * e := by
    intro j hj
    have hbl := hm.block_le hr hj
    obtain ⟨a, b⟩ := gridLocal_near hR hε1 (hm.nmesh_pos hj) (show (m.start r).getD j 0 ≤ m.nmesh.getD j 0 by omega) hB (hy j hj)
      (gridCoord_near hR hε1 (hLpos j hj) (hxb j hj))
    have := hN j hj
    exact ⟨by linarith, by linarith⟩
  have hgX : ∀ (j : ℕ) (h : j < (m.axesR R r).length) (h' : j < x.length), (m.axesR R r)[j].gridR R x[j] = X j := by
    intro j h h'
    have hj : j < m.nmesh.length := by omega
    rw [axesR_get, hXd]
    simp only [PAxis.gridR]
    rw [scaleR_getD R hm hj, List.getD_eq_getElem x _ h', mul_comm]
  constructor
  · rw [List.forall₂_iff_get]
    refine ⟨by rw [axesR_len, hx], fun j h1 h2 => ?_⟩
    have hj : j < m.nmesh.length := by omega
    simp only [List.get_eq_getElem]
    refine ⟨by rw [axesR_get], ?_, ?_⟩
    · rw [axesR_get]; exact hm.nmesh_pos hj
    · rw [hgX j h1 h2]
      have := (hloc j hj).2
      linarith
  · intro c hc
    have hcl : c.length = m.nmesh.length := by rw [(validIndex_iff.1 hc).1, hm.localShape_len hr]
    rw [cwProd_pieces R t _ _ _ (by rw [axesR_len, hx]) (by rw [axesR_len, hcl]), axesR_len]
    unfold PMesh.exactWeight
    obtain ⟨h, -⟩ := prod_close (List.range m.nmesh.length)
      (fun j => cw (pieceStencil R t ((m.axesR R r).getD j ⟨0, 0, 0, 0, 0, 0⟩) (x.getD j 0)) (c.getD j 0 : ℕ))
      (fun j => periodicWeight (Tuned.kern t) (m.nmesh.getD j 0) (y j) ((m.global r c).getD j 0 : ℕ)) (τ := 108 * e) (by positivity)
      (by
        intro j hj
        rw [periodicWeight_eq t _ (hm.nmesh_pos (List.mem_range.1 hj))]
        obtain ⟨b1, b2⟩ := pieceBase_mem t (y j)
        obtain ⟨w1, w2⟩ := pieceWeight_mem t (m.nmesh.getD j 0) (((m.global r c).getD j 0 : ℕ) : ℤ) (pieceBase t (y j)) b1 b2.le
        rw [abs_of_nonneg w1]
        exact w2)
      (by
        intro j hj
        have hj := List.mem_range.1 hj
        have hjl : j < (m.axesR R r).length := by rw [axesR_len]; exact hj
        rw [periodicWeight_eq t _ (hm.nmesh_pos hj), List.getD_eq_getElem _ _ hjl, cw_pieceStencil R t _ (by rw [axesR_get]; exact hm.nmesh_pos hj),
          List.getD_eq_getElem x _ (by omega), hgX j hjl (by omega), axesR_get]
        simp only
        have hcj := (validIndex_iff.1 hc).2 j (by rw [hm.localShape_len hr]; exact hj)
        have hbl := hm.block_le hr hj
        have e1 : (m.global r c).getD j 0 = (m.start r).getD j 0 + c.getD j 0 :=
          getD_zipWith _ _ _ 0 0 _ _ (by rw [hm.start_len hr]; exact hj) (by omega)
        rw [e1, ← pieceWeight_shift t (N := m.nmesh.getD j 0) (((m.start r).getD j 0 : ℕ) : ℤ) (c := ((c.getD j 0 : ℕ) : ℤ)) (by omega) (by omega)
          (by omega) (by omega)]
        obtain ⟨l1, l2⟩ := hloc j hj
        obtain ⟨b1, b2⟩ := pieceBase_mem t (y j)
        obtain ⟨b3, b4⟩ := pieceBaseR_mem hR hε t l2
        have := pieceWeight_near t ht (m.nmesh.getD j 0) (((m.start r).getD j 0 : ℕ) + (c.getD j 0 : ℕ) : ℤ) (i := pieceBase t (y j))
          (i' := pieceBaseR R t (X j) + (((m.start r).getD j 0 : ℕ) : ℤ)) (z := y j) (z' := X j + (((m.start r).getD j 0 : ℕ) : ℤ)) (η := 6 * e)
          (by linarith) b1 b2.le (by push_cast; linarith) (by push_cast; linarith) (by
            rw [abs_sub_comm]; push_cast; exact l1)
        rw [abs_sub_comm]
        push_cast at this ⊢
        linarith)
    refine h.trans ?_
    rw [List.length_range]
    have h4 : (1 + 108 * e) ^ m.nmesh.length ≤ (1 + 108 * e) ^ 3 := pow_le_pow_right₀ (by linarith) hd
    have h5 : 108 * e ≤ 1 := by linarith
    have h6 : 0 ≤ 108 * e := by positivity
    have h7 : (108 * e) ^ 2 ≤ 108 * e := by rw [sq]; exact mul_le_of_le_one_left h6 h5
    have h8 : (108 * e) ^ 3 ≤ 108 * e := by
      rw [pow_succ]
      exact mul_le_of_le_one_left h6 (h7.trans h5)
    have h9 : (1 + 108 * e) ^ 3 = 1 + 3 * (108 * e) + 3 * (108 * e) ^ 2 + (108 * e) ^ 3 := by ring
    linarith

/-- A rank that is out of reach of a particle has almost no weight for it. -/
theorem unreached_weight {ε e B : K} {R : Rounding K} (hR : RelativeError R ε) (he : e ≤ 1 / 128) (he0 : 0 ≤ e) {m : PMesh K} (hm : m.OK)
    (hN : ∀ j < m.nmesh.length, B * (m.nmesh.getD j 0 : ℕ) * ε ≤ e) (hε1 : ε ≤ 1 / 64) (t : Tuned) (ht : t ≠ .nnb) {x : List K}
    (hx : x.length = m.nmesh.length) (hxb : ∀ j < m.nmesh.length, |x.getD j 0| ≤ B * m.box.getD j 0) {g : List ℕ}
    {j : ℕ} (hj : j < m.nmesh.length)
    (hfar : ∀ k : ℤ, ((Tuned.kern t : Kern K).native : K) / 2 - 6 * e <
      |(m.toGridR R x).getD j 0 - (((g.getD j 0 : ℕ) : K) + k * (m.nmesh.getD j 0 : ℕ))|) :
    |m.exactWeight t x g| ≤ 54 * e := by
  have hLpos : ∀ j < m.nmesh.length, 0 < m.box.getD j 0 := by
    intro j hj
    apply hm.box_pos
    rw [List.getD_eq_getElem _ _ (by rw [hm.box_len]; exact hj)]; exact List.getElem_mem _
  have hmem : ∀ j ∈ List.range m.nmesh.length, 0 ≤ periodicWeight (Tuned.kern t) (m.nmesh.getD j 0)
      (x.getD j 0 * (m.nmesh.getD j 0 : ℕ) / m.box.getD j 0) ((g.getD j 0 : ℕ) : ℤ) ∧ periodicWeight (Tuned.kern t) (m.nmesh.getD j 0)
      (x.getD j 0 * (m.nmesh.getD j 0 : ℕ) / m.box.getD j 0) ((g.getD j 0 : ℕ) : ℤ) ≤ 1 := by
    intro j hj
    rw [periodicWeight_eq t _ (hm.nmesh_pos (List.mem_range.1 hj))]
    obtain ⟨b1, b2⟩ := pieceBase_mem t (x.getD j 0 * (m.nmesh.getD j 0 : ℕ) / m.box.getD j 0)
    exact pieceWeight_mem t _ _ _ b1 b2.le
  obtain ⟨p1, p2⟩ := prod_small (List.range m.nmesh.length) (fun j => periodicWeight (Tuned.kern t) (m.nmesh.getD j 0)
      (x.getD j 0 * (m.nmesh.getD j 0 : ℕ) / m.box.getD j 0) ((g.getD j 0 : ℕ) : ℤ)) (τ := 54 * e) hmem (List.mem_range.2 hj) (by
    rw [periodicWeight_eq t _ (hm.nmesh_pos hj)]
    obtain ⟨b1, b2⟩ := pieceBase_mem t (x.getD j 0 * (m.nmesh.getD j 0 : ℕ) / m.box.getD j 0)
    have := pieceWeight_far t ht (m.nmesh.getD j 0) ((g.getD j 0 : ℕ) : ℤ) (pieceBase t (x.getD j 0 * (m.nmesh.getD j 0 : ℕ) / m.box.getD j 0))
      (θ := 9 * e) (by positivity) (by linarith) b1 b2.le (by
        intro n hn
        have hk : n = (g.getD j 0 : ℕ) + n / (m.nmesh.getD j 0 : ℕ) * (m.nmesh.getD j 0 : ℕ) := by
          have := Int.emod_add_mul_ediv n (m.nmesh.getD j 0 : ℕ)
          rw [hn, mul_comm] at this
          exact this.symm
        have hf := hfar (n / (m.nmesh.getD j 0 : ℕ))
        have hc := congrArg (Int.cast : ℤ → K) hk
        push_cast at hc
        rw [← hc, toGridR_getD R hm hx hj, scaleR_getD R hm hj] at hf
        have hu := gridCoord_near hR hε1 (N := m.nmesh.getD j 0) (hLpos j hj) (hxb j hj)
        have hNj := hN j hj
        set u := R.rnd (R.rnd ((m.nmesh.getD j 0 : ℕ) / m.box.getD j 0) * x.getD j 0)
        have := abs_sub_le u (x.getD j 0 * (m.nmesh.getD j 0 : ℕ) / m.box.getD j 0) n
        linarith)
    linarith)
  unfold PMesh.exactWeight
  rw [abs_of_nonneg p1]
  exact p2

end
end Pmesh
