import Verif.Lemmas.Ravel
import Verif.Spec.Ravel

set_option linter.unusedSectionVars false

namespace Pmesh

/-- The table of `reindex` for an even destination. -/
def tableAt (n m j : ℕ) : ℤ :=
  if n / 2 + 1 ≤ j ∧ j + n / 2 < m + 1 then -1 else if j ≤ m / 2 then j else (n : ℤ) - m + j

theorem reindex_eq (n m : ℕ) (hm : m % 2 = 0) (hpos : 0 < m) :
    reindex n m = some ((List.range m).map fun (j : ℕ) => tableAt n m j) := by
  have hlen : (arange (n - ((m / 2 : ℕ) : ℤ) + 1) n).length = m / 2 - 1 := by
    unfold arange
    rw [List.length_map, List.length_range]
    omega
  have ha : sliceBound m ((m / 2 : ℕ) + 1) = m / 2 + 1 := by
    unfold sliceBound
    rw [if_neg (by omega)]
    omega
  unfold reindex
  simp only [ha, hlen]
  rw [if_pos (Or.inl (by omega))]
  congr 1
  apply List.map_congr_left
  intro j hj
  rw [List.mem_range] at hj
  have h1 : ((List.range m).map fun (j : ℕ) => if m / 2 + 1 ≤ j then
      (if m / 2 - 1 = m - (m / 2 + 1) then (arange (n - ((m / 2 : ℕ) : ℤ) + 1) n).getD (j - (m / 2 + 1)) 0
        else (arange (n - ((m / 2 : ℕ) : ℤ) + 1) n).getD 0 0) else (j : ℤ)).getD j 0 =
      if j ≤ m / 2 then (j : ℤ) else (n : ℤ) - m + j := by
    rw [List.getD_eq_getElem _ _ (by simpa using hj)]
    simp only [List.getElem_map, List.getElem_range]
    by_cases h : m / 2 + 1 ≤ j
    · rw [if_pos h, if_pos (show m / 2 - 1 = m - (m / 2 + 1) by omega), if_neg (show ¬ j ≤ m / 2 by omega),
        List.getD_eq_getElem _ _ (by rw [hlen]; omega)]
      unfold arange
      simp only [List.getElem_map, List.getElem_range]
      omega
    · rw [if_neg h, if_pos (by omega)]
  rw [h1]
  have h2 : (sliceBound m ((n / 2 : ℕ) + 1) ≤ j ∧ j < sliceBound m (m - ((n / 2 : ℕ) : ℤ) + 1)) ↔
      (n / 2 + 1 ≤ j ∧ j + n / 2 < m + 1) := by
    unfold sliceBound
    constructor
    · split_ifs <;> omega
    · split_ifs <;> omega
  unfold tableAt
  simp only [h2]

/-- The table along every axis. -/
def tablesAt : List ℕ → List ℕ → List ℕ → List ℤ
  | n :: ns, m :: ms, j :: js => tableAt n m j :: tablesAt ns ms js
  | _, _, _ => []

/-- The meshes and the shapes of the stored arrays fit together. -/
def AxesOK : List ℕ → List ℕ → List ℕ → List ℕ → Prop
  | c :: cs, n :: ns, d :: ds, m :: ms =>
    (((c = n ∧ d = m) ∨ (c = n / 2 + 1 ∧ d = m / 2 + 1)) ∧ n % 2 = 0 ∧ m % 2 = 0 ∧ 0 < n ∧ 0 < m) ∧ AxesOK cs ns ds ms
  | [], [], [], [] => True
  | _, _, _, _ => False

theorem tables_some : ∀ {cs ns ds ms : List ℕ}, AxesOK cs ns ds ms → ∃ tabs,
    ((List.zip ns ms).mapM fun p => reindex p.1 p.2) = some tabs ∧
    ∀ js, ValidIndex ds js → List.zipWith (fun (tab : List ℤ) (j : ℕ) => tab.getD j 0) tabs js = tablesAt ns ms js
  | [], [], [], [], _ => ⟨[], rfl, fun js hjs => by cases hjs; rfl⟩
  | c :: cs, n :: ns, d :: ds, m :: ms, h => by
    obtain ⟨⟨hcd, hn, hm, hn0, hm0⟩, h2⟩ := h
    obtain ⟨tabs, h3, h4⟩ := tables_some h2
    refine ⟨((List.range m).map fun (j : ℕ) => tableAt n m j) :: tabs, ?_, ?_⟩
    · rw [List.zip_cons_cons, List.mapM_cons, reindex_eq n m hm hm0, h3]
      rfl
    · intro js hjs
      cases hjs with
      | cons hj hjs =>
        rw [List.zipWith_cons_cons, h4 _ hjs, tablesAt]
        congr 1
        rw [List.getD_eq_getElem _ _ (by simp; omega)]
        simp
  | [], _ :: _, _, _, h => by simp [AxesOK] at h
  | _ :: _, [], _, _, h => by simp [AxesOK] at h
  | [], [], _ :: _, _, h => by simp [AxesOK] at h
  | _ :: _, _ :: _, [], _, h => by simp [AxesOK] at h
  | [], [], [], _ :: _, h => by simp [AxesOK] at h
  | _ :: _, _ :: _, _ :: _, [], h => by simp [AxesOK] at h

/-- An entry of the table is -1, or an index of the source. -/
theorem tables_valid : ∀ {cs ns ds ms : List ℕ}, AxesOK cs ns ds ms → ∀ {js}, ValidIndex ds js →
    (∃ x ∈ tablesAt ns ms js, x = -1) ∨ (ValidIndex cs ((tablesAt ns ms js).map Int.toNat) ∧ ∀ x ∈ tablesAt ns ms js, 0 ≤ x)
  | [], [], [], [], _, js, hjs => by
    cases hjs
    exact Or.inr ⟨List.Forall₂.nil, by simp [tablesAt]⟩
  | c :: cs, n :: ns, d :: ds, m :: ms, h, js, hjs => by
    obtain ⟨⟨hcd, hn, hm, hn0, hm0⟩, h2⟩ := h
    cases hjs with
    | @cons _ j _ js hj hjs =>
      rcases tables_valid h2 hjs with ⟨x, hx, h3⟩ | ⟨h3, h4⟩
      · exact Or.inl ⟨x, List.mem_cons_of_mem _ hx, h3⟩
      · by_cases h5 : tableAt n m j = -1
        · exact Or.inl ⟨_, List.mem_cons_self, h5⟩
        · right
          have h6 : 0 ≤ tableAt n m j ∧ (tableAt n m j).toNat < c := by
            unfold tableAt at h5 ⊢
            split_ifs at h5 ⊢ with h7 h8
            · exact absurd rfl h5
            · omega
            · omega
          refine ⟨List.Forall₂.cons h6.2 h3, ?_⟩
          intro x hx
          rcases List.mem_cons.1 hx with rfl | hx
          · exact h6.1
          · exact h4 x hx
  | [], _ :: _, _, _, h, _, _ => by simp [AxesOK] at h
  | _ :: _, [], _, _, h, _, _ => by simp [AxesOK] at h
  | [], [], _ :: _, _, h, _, _ => by simp [AxesOK] at h
  | _ :: _, _ :: _, [], _, h, _, _ => by simp [AxesOK] at h
  | [], [], [], _ :: _, h, _, _ => by simp [AxesOK] at h
  | _ :: _, _ :: _, _ :: _, [], h, _, _ => by simp [AxesOK] at h

/-- Some axis has the index `n / 2`. -/
def AtHalf (ns js : List ℕ) : Prop := (List.zipWith (fun (n j : ℕ) => j == n / 2) ns js).any id = true

instance (ns js : List ℕ) : Decidable (AtHalf ns js) := by unfold AtHalf; infer_instance

theorem atHalf_cons {n j : ℕ} {ns js : List ℕ} : AtHalf (n :: ns) (j :: js) ↔ j = n / 2 ∨ AtHalf ns js := by
  unfold AtHalf
  rw [List.zipWith_cons_cons, List.any_cons, Bool.or_eq_true]
  simp

theorem common_tables : ∀ {cs ns ds ms : List ℕ}, AxesOK cs ns ds ms → ∀ {js}, ValidIndex ds js → CommonMode ns ms js →
    (tablesAt ns ms js).map Int.toNat = sameFreq ns ms js ∧ (∀ x ∈ tablesAt ns ms js, x ≠ -1) ∧ ¬ AtHalf ms js
  | [], [], [], [], _, js, hjs, _ => by
    cases hjs
    exact ⟨rfl, by simp [tablesAt], by simp [AtHalf]⟩
  | c :: cs, n :: ns, d :: ds, m :: ms, h, js, hjs, hcm => by
    obtain ⟨⟨hcd, hn, hm, hn0, hm0⟩, h2⟩ := h
    cases hjs with
    | @cons _ j _ js hj hjs =>
      obtain ⟨hc, hcm⟩ := hcm
      obtain ⟨h3, h4, h5⟩ := common_tables h2 hjs hcm
      have hjm : j < m := by omega
      have h6 : tableAt n m j = freqOf m j % n ∧ tableAt n m j ≠ -1 ∧ j ≠ m / 2 := by
        unfold freqOf at hc ⊢
        unfold tableAt
        by_cases h7 : 2 * j < m
        · simp only [h7, if_true, Int.natAbs_natCast] at hc ⊢
          rw [if_neg (by omega), if_pos (by omega)]
          refine ⟨?_, by omega, by omega⟩
          rw [Int.emod_eq_of_lt (by omega) (by omega)]
        · simp only [h7, if_false] at hc ⊢
          have h8 : ((j : ℤ) - m).natAbs = m - j := by omega
          rw [h8] at hc
          rw [if_neg (by omega), if_neg (by omega)]
          refine ⟨?_, by omega, by omega⟩
          have h9 : ((j : ℤ) - m) % n = ((j : ℤ) - m + n) % n := by rw [Int.add_emod_right]
          rw [h9, Int.emod_eq_of_lt (by omega) (by omega)]
          ring
      refine ⟨?_, ?_, ?_⟩
      · rw [tablesAt, List.map_cons, h3, sameFreq, h6.1]
      · intro x hx
        rcases List.mem_cons.1 hx with rfl | hx
        · exact h6.2.1
        · exact h4 x hx
      · rw [atHalf_cons]
        exact fun e => e.elim h6.2.2 h5
  | [], _ :: _, _, _, h, _, _, _ => by simp [AxesOK] at h
  | _ :: _, [], _, _, h, _, _, _ => by simp [AxesOK] at h
  | [], [], _ :: _, _, h, _, _, _ => by simp [AxesOK] at h
  | _ :: _, _ :: _, [], _, h, _, _, _ => by simp [AxesOK] at h
  | [], [], [], _ :: _, h, _, _, _ => by simp [AxesOK] at h
  | _ :: _, _ :: _, _ :: _, [], h, _, _, _ => by simp [AxesOK] at h

theorem uncommon_half : ∀ {cs ns ds ms : List ℕ}, AxesOK cs ns ds ms → ∀ {js}, ValidIndex ds js → ¬ CommonMode ns ms js →
    (∀ x ∈ tablesAt ns ms js, x ≠ -1) → AtHalf ms js ∨ AtHalf ns js
  | [], [], [], [], _, js, hjs, h, _ => by
    cases hjs
    exact absurd trivial h
  | c :: cs, n :: ns, d :: ds, m :: ms, h, js, hjs, hcm, hx => by
    obtain ⟨⟨hcd, hn, hm, hn0, hm0⟩, h2⟩ := h
    cases hjs with
    | @cons _ j _ js hj hjs =>
      rw [atHalf_cons, atHalf_cons]
      by_cases hc : 2 * (freqOf m j).natAbs < n ∧ 2 * (freqOf m j).natAbs < m
      · have : ¬ CommonMode ns ms js := fun h => hcm ⟨hc, h⟩
        have := uncommon_half h2 hjs this fun x hx' => hx x (List.mem_cons_of_mem _ hx')
        tauto
      · have h4 := hx _ List.mem_cons_self
        have hjm : j < m := by omega
        have : j = m / 2 ∨ j = n / 2 := by
          unfold freqOf at hc
          unfold tableAt at h4
          by_cases h7 : 2 * j < m
          · rw [if_pos h7, Int.natAbs_natCast] at hc
            split_ifs at h4 with h8
            · exact absurd rfl h4
            · omega
            · omega
          · simp only [h7, if_false] at hc
            have h8 : ((j : ℤ) - m).natAbs = m - j := by omega
            rw [h8] at hc
            split_ifs at h4 with h8
            · exact absurd rfl h4
            · omega
            · omega
        tauto
  | [], _ :: _, _, _, h, _, _, _, _ => by simp [AxesOK] at h
  | _ :: _, [], _, _, h, _, _, _, _ => by simp [AxesOK] at h
  | [], [], _ :: _, _, h, _, _, _, _ => by simp [AxesOK] at h
  | _ :: _, _ :: _, [], _, h, _, _, _, _ => by simp [AxesOK] at h
  | [], [], [], _ :: _, h, _, _, _, _ => by simp [AxesOK] at h
  | _ :: _, _ :: _, _ :: _, [], h, _, _, _, _ => by simp [AxesOK] at h

/-- A common mode that is its own opposite is the zero mode. -/
theorem selfconj_zero : ∀ {cs ns ds ms : List ℕ}, AxesOK cs ns ds ms → ∀ {js}, ValidIndex ds js → CommonMode ns ms js →
    (List.zipWith (fun (n j : ℕ) => (n - j) % n == j) ms js).all id = true → sameFreq ns ms js = ns.map fun _ => 0
  | [], [], [], [], _, js, hjs, _, _ => by
    cases hjs
    rfl
  | c :: cs, n :: ns, d :: ds, m :: ms, h, js, hjs, hcm, hs => by
    obtain ⟨⟨hcd, hn, hm, hn0, hm0⟩, h2⟩ := h
    cases hjs with
    | @cons _ j _ js hj hjs =>
      obtain ⟨hc, hcm⟩ := hcm
      rw [List.zipWith_cons_cons, List.all_cons, Bool.and_eq_true] at hs
      rw [sameFreq, selfconj_zero h2 hjs hcm hs.2, List.map_cons]
      congr 1
      have hs1 := hs.1
      simp only [id_eq, beq_iff_eq] at hs1
      have hjm : j < m := by omega
      unfold freqOf at hc ⊢
      by_cases h0 : j = 0
      · subst h0
        rw [if_pos (by omega)]
        simp
      · rw [Nat.mod_eq_of_lt (by omega)] at hs1
        by_cases h7 : 2 * j < m
        · simp only [h7, if_true, Int.natAbs_natCast] at hc ⊢
          omega
        · simp only [h7, if_false] at hc ⊢
          omega
  | [], _ :: _, _, _, h, _, _, _, _ => by simp [AxesOK] at h
  | _ :: _, [], _, _, h, _, _, _, _ => by simp [AxesOK] at h
  | [], [], _ :: _, _, h, _, _, _, _ => by simp [AxesOK] at h
  | _ :: _, _ :: _, [], _, h, _, _, _, _ => by simp [AxesOK] at h
  | [], [], [], _ :: _, h, _, _, _, _ => by simp [AxesOK] at h
  | _ :: _, _ :: _, _ :: _, [], h, _, _, _, _ => by simp [AxesOK] at h

theorem build_aux : ∀ (shape : List ℕ) (i : List ℤ), i.length = shape.length → (∀ x ∈ i, 0 ≤ x) → ∀ acc : ℤ,
    (shape.zip i).foldl (fun acc p => acc * (p.1 : ℤ) + p.2) acc = acc * (shape.prod : ℕ) + (cOrder shape (i.map Int.toNat) : ℕ)
  | [], [], _, _, acc => by simp [cOrder]
  | n :: ns, i :: is, h, hp, acc => by
    rw [List.zip_cons_cons, List.foldl_cons, build_aux ns is (by simpa using h) (fun x hx => hp x (List.mem_cons_of_mem _ hx)),
      List.prod_cons, List.map_cons, cOrder]
    have : ((i.toNat : ℕ) : ℤ) = i := Int.toNat_of_nonneg (hp i List.mem_cons_self)
    push_cast
    rw [this]
    ring
  | [], _ :: _, h, _, _ => by simp at h
  | _ :: _, [], h, _, _ => by simp at h

theorem build_neg {i : List ℤ} (shape : List ℕ) (h : ∃ x ∈ i, x = -1) : buildIndex i shape = -1 := by
  obtain ⟨x, hx, rfl⟩ := h
  unfold buildIndex
  rw [if_pos]
  exact List.any_eq_true.2 ⟨_, hx, by simp⟩

theorem build_pos {i : List ℤ} {shape : List ℕ} (hl : i.length = shape.length) (h : ∀ x ∈ i, 0 ≤ x) :
    buildIndex i shape = (cOrder shape (i.map Int.toNat) : ℕ) := by
  unfold buildIndex
  rw [if_neg, build_aux _ _ hl h]
  · ring
  · rw [List.any_eq_true]
    rintro ⟨x, hx, hx'⟩
    have := h x hx
    simp only [beq_iff_eq] at hx'
    omega

section
variable {K : Type} [Field K]

theorem cleanMode_zero (ns ms js : List ℕ) : cleanMode ns ms js (0 : Cx K) = 0 := by
  unfold cleanMode
  dsimp only
  split_ifs <;> rfl

theorem cleanMode_half {ns ms js : List ℕ} (h : AtHalf ms js ∨ AtHalf ns js) (z : Cx K) : cleanMode ns ms js z = 0 := by
  unfold cleanMode
  dsimp only
  rcases h with h | h
  · unfold AtHalf at h
    rw [if_pos h]
    split_ifs <;> rfl
  · unfold AtHalf at h
    rw [if_pos h]

/-- The modes of the resampled field. -/
def resampledMode (ns ms : List ℕ) (S : List ℕ → Cx K) (j : List ℕ) : Cx K :=
  if CommonMode ns ms j ∧ ¬ AtHalf ns j then S (sameFreq ns ms j) else 0

theorem resample_return (ts td : Tiling) (hts : ts.OK) (htd : td.OK) (hrank : ts.nrank = td.nrank)
    (hax : AxesOK ts.cshape ts.nmesh td.cshape td.nmesh) (S : List ℕ → Cx K) (hzero : (S (ts.nmesh.map fun _ => 0)).2 = 0)
    (f : ℕ → List ℕ → Cx K) (hf : ts.Holds f S) :
    AllReturn td.nrank (fun r => resampleComplex ts td r (f r)) (fun r =>
      .ok ((ndindex (td.lshape r)).map fun c => some (resampledMode ts.nmesh td.nmesh S (td.global r c)))) := by
  obtain ⟨tabs, h1, h2⟩ := tables_some hax
  unfold resampleComplex
  have hrav := ravel_return hts hf
  rw [hrank] at hrav
  refine AllReturn.andThen hrav ?_
  simp only [h1]
  refine AllReturn.coll htd.rank_pos ?_
  refine AllReturn.congr (fun r hr => ?_) (fun _ _ => rfl) (AllReturn.ret _ _)
  -- the index of the source for each local element
  set ind : List ℕ → ℤ := fun c =>
    buildIndex (List.zipWith (fun (tab : List ℤ) (j : ℕ) => tab.getD j 0) tabs (td.global r c)) ts.cshape with hind
  set src : List ℕ → List ℕ := fun c => (tablesAt ts.nmesh td.nmesh (td.global r c)).map Int.toNat with hsrc
  have hcase : ∀ c, ValidIndex (td.lshape r) c →
      ((∃ x ∈ tablesAt ts.nmesh td.nmesh (td.global r c), x = -1) ∧ ind c = -1) ∨
      (ValidIndex ts.cshape (src c) ∧ (∀ x ∈ tablesAt ts.nmesh td.nmesh (td.global r c), 0 ≤ x) ∧
        ind c = (cOrder ts.cshape (src c) : ℕ)) := by
    intro c hc
    have hg := htd.inside r hr c hc
    rcases tables_valid hax hg with h | ⟨h3, h4⟩
    · left
      refine ⟨h, ?_⟩
      rw [hind]
      dsimp only
      rw [h2 _ hg]
      exact build_neg _ h
    · right
      refine ⟨h3, h4, ?_⟩
      rw [hind]
      dsimp only
      rw [h2 _ hg]
      refine build_pos ?_ h4
      have := h3.len
      rwa [List.length_map] at this
  set cells := (ndindex (td.lshape r)).filter fun c => decide (0 ≤ ind c) with hcells
  have hcell : ∀ c ∈ cells, ValidIndex ts.cshape (src c) ∧ ind c = (cOrder ts.cshape (src c) : ℕ) := by
    intro c hc
    rw [hcells, List.mem_filter, mem_ndindex, decide_eq_true_eq] at hc
    rcases hcase c hc.1 with ⟨_, h⟩ | ⟨h3, _, h4⟩
    · omega
    · exact ⟨h3, h4⟩
  have harg : (((ndindex (td.lshape r)).map ind).filter fun j => decide (0 ≤ j)).map Int.toNat =
      (cells.map src).map (cOrder ts.cshape) := by
    rw [List.filter_map, List.map_map, List.map_map]
    apply List.map_congr_left
    intro c hc
    have := (hcell c hc).2
    rw [Function.comp_apply, Function.comp_apply, this]
    exact Int.toNat_natCast _
  have htake := take_cOrder (G := S) (shape := ts.cshape)
    (vs := (List.range td.nrank).map fun r => (ravelOut ts S r).map fun v => ((0 : ℕ), v))
    (by rw [flatten_tagged, ← hrank, ravelOut_concat hts]) (cells.map src) (by
      intro g hg
      rw [List.mem_map] at hg
      obtain ⟨c, hc, rfl⟩ := hg
      exact (hcell c hc).1)
  rw [harg, htake]
  dsimp only
  congr 2
  apply List.map_congr_left
  intro c hc
  have hcv := mem_ndindex.1 hc
  have hg := htd.inside r hr c hcv
  rcases hcase c hcv with ⟨h3, h4⟩ | ⟨h3, h4, h5⟩
  · rw [if_neg (show ¬ 0 ≤ ind c by omega), cleanMode_zero]
    unfold resampledMode
    rw [if_neg]
    rintro ⟨hcm, _⟩
    obtain ⟨x, hx, hx'⟩ := h3
    exact (common_tables hax hg hcm).2.1 x hx hx'
  · have hmem : c ∈ cells := by
      rw [hcells, List.mem_filter]
      exact ⟨hc, by rw [decide_eq_true_eq]; omega⟩
    rw [if_pos (show 0 ≤ ind c by omega), List.map_map, List.getElem?_map, List.getElem?_idxOf hmem]
    show some _ = some _
    congr 1
    unfold resampledMode
    have hne : ∀ x ∈ tablesAt ts.nmesh td.nmesh (td.global r c), x ≠ -1 := fun x hx e => by
      have := h4 x hx
      omega
    by_cases hcm : CommonMode ts.nmesh td.nmesh (td.global r c)
    · obtain ⟨h6, h7, h8⟩ := common_tables hax hg hcm
      by_cases hh : AtHalf ts.nmesh (td.global r c)
      · rw [if_neg (fun h => h.2 hh)]
        exact cleanMode_half (Or.inr hh) _
      · rw [if_pos ⟨hcm, hh⟩, Function.comp_apply]
        have hs : src c = sameFreq ts.nmesh td.nmesh (td.global r c) := h6
        rw [hs]
        unfold cleanMode
        dsimp only
        unfold AtHalf at hh h8
        rw [if_neg hh, if_neg h8]
        split_ifs with h9
        · rw [selfconj_zero hax hg hcm h9]
          exact Prod.ext rfl hzero.symm
        · rfl
    · rw [if_neg (fun h => hcm h.1)]
      exact cleanMode_half (uncommon_half hax hg hcm hne) _

end
end Pmesh
