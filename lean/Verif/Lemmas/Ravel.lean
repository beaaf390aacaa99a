import Verif.Model.Ravel
import Verif.Lemmas.Field

set_option linter.unusedSectionVars false

namespace Pmesh

variable {V : Type}

theorem ravelMulti_aux : ∀ (shape index : List ℕ), index.length = shape.length → ∀ acc,
    (shape.zip index).foldl (fun acc p => acc * p.1 + p.2) acc = acc * shape.prod + cOrder shape index
  | [], [], _, acc => by simp [cOrder]
  | n :: ns, i :: is, h, acc => by
    rw [List.zip_cons_cons, List.foldl_cons, ravelMulti_aux ns is (by simpa using h), List.prod_cons, cOrder]
    ring
  | [], _ :: _, h, _ => by simp at h
  | _ :: _, [], h, _ => by simp at h

theorem ravelMulti_eq {shape index : List ℕ} (h : index.length = shape.length) :
    ravelMulti shape index = cOrder shape index := by
  unfold ravelMulti
  rw [ravelMulti_aux _ _ h]
  ring

/-- The elements of a box come in increasing C order of the global array. -/
theorem box_sorted : ∀ (shape start len : List ℕ), start.length = shape.length → len.length = shape.length →
    (∀ c, ValidIndex len c → ValidIndex shape (List.zipWith (· + ·) start c)) →
    (ndindex len).Pairwise fun c c' =>
      cOrder shape (List.zipWith (· + ·) start c) < cOrder shape (List.zipWith (· + ·) start c')
  | [], [], [], _, _, _ => by simp [ndindex]
  | n :: ns, s :: ss, l :: ls, h1, h2, hin => by
    have hin' : 0 < l → ∀ c, ValidIndex ls c → ValidIndex ns (List.zipWith (· + ·) ss c) := by
      intro h0 c hc
      have := hin (0 :: c) (List.Forall₂.cons h0 hc)
      rw [List.zipWith_cons_cons] at this
      exact (List.forall₂_cons.1 this).2
    rw [ndindex, List.pairwise_flatMap]
    constructor
    · intro a ha
      rw [List.mem_range] at ha
      rw [List.pairwise_map]
      refine (box_sorted ns ss ls (by simpa using h1) (by simpa using h2) (hin' (by omega))).imp ?_
      intro c c' h
      simp only [List.zipWith_cons_cons, cOrder]
      omega
    · refine List.pairwise_lt_range.imp_of_mem ?_
      intro a a' ha ha' hlt x hx y hy
      rw [List.mem_range] at ha ha'
      rw [List.mem_map] at hx hy
      obtain ⟨c, hc, rfl⟩ := hx
      obtain ⟨c', hc', rfl⟩ := hy
      have := cOrder_lt (hin' (by omega) c (mem_ndindex.1 hc))
      simp only [List.zipWith_cons_cons, cOrder]
      have h3 : (s + a) * ns.prod + ns.prod ≤ (s + a') * ns.prod := by
        have : (s + a + 1) * ns.prod ≤ (s + a') * ns.prod := Nat.mul_le_mul_right _ (by omega)
        rw [Nat.add_mul, Nat.one_mul] at this
        exact this
      omega
  | [], _ :: _, _, h, _, _ => by simp at h
  | _ :: _, [], _, h, _, _ => by simp at h
  | [], [], _ :: _, _, h, _ => by simp at h
  | _ :: _, _ :: _, [], _, h, _ => by simp at h

variable {t : Tiling}

/-- Any local arrays hold some global array. -/
theorem exists_holds (ht : t.OK) (f : ℕ → List ℕ → V) : ∃ G, t.Holds f G := by
  classical
  refine ⟨fun g => if h : ∃ p : ℕ × List ℕ, p.1 < t.nrank ∧ ValidIndex (t.lshape p.1) p.2 ∧ t.global p.1 p.2 = g then
      f h.choose.1 h.choose.2 else f 0 [], ?_⟩
  intro r hr c hc
  have h : ∃ p : ℕ × List ℕ, p.1 < t.nrank ∧ ValidIndex (t.lshape p.1) p.2 ∧ t.global p.1 p.2 = t.global r c :=
    ⟨(r, c), hr, hc, rfl⟩
  have hp : h.choose = (r, c) := by
    have e := h.choose_spec
    generalize h.choose = p at e
    obtain ⟨r', c'⟩ := p
    obtain ⟨e1, e2, e3⟩ := e
    have er : r' = r := ht.unique _ e1 _ hr _ _ e2 hc e3
    subst er
    exact congrArg (Prod.mk r') (global_inj ht hr e2 hc e3)
  simp only [dif_pos h]
  rw [hp]

theorem global_len (ht : t.OK) {r : ℕ} (hr : r < t.nrank) {c : List ℕ} (hc : ValidIndex (t.lshape r) c) :
    (t.global r c).length = t.cshape.length := (ht.inside r hr c hc).len

theorem ravelKeys_eq (ht : t.OK) {r : ℕ} (hr : r < t.nrank) :
    ravelKeys t r = (ndindex (t.lshape r)).map fun c => cOrder t.cshape (t.global r c) := by
  unfold ravelKeys
  apply List.map_congr_left
  intro c hc
  exact ravelMulti_eq (global_len ht hr (mem_ndindex.1 hc))

theorem ndindex_sorted (shape : List ℕ) : (ndindex shape).Pairwise fun c c' => cOrder shape c < cOrder shape c' := by
  have hz : ∀ c, ValidIndex shape c → List.zipWith (· + ·) (shape.map fun _ => 0) c = c := by
    intro c hc
    induction hc with
    | nil => rfl
    | cons h _ ih =>
      rw [List.map_cons, List.zipWith_cons_cons]
      simp only [ih, Nat.zero_add]
  have := box_sorted shape (shape.map fun _ => 0) shape (by simp) rfl (by intro c hc; rw [hz c hc]; exact hc)
  refine this.imp_of_mem ?_
  intro a b ha hb h
  rwa [hz a (mem_ndindex.1 ha), hz b (mem_ndindex.1 hb)] at h

/-- The pieces of the sorted data of all ranks, put together. -/
theorem pieces_concat {α : Type} : ∀ (n : ℕ) (lens : List ℕ) (l : List α), n ≤ lens.length →
    (List.range n).flatMap (fun r => pieceOf lens r l) = l.take (lens.take n).sum
  | 0, lens, l, _ => by simp
  | n + 1, lens, l, h => by
    rw [List.range_succ, List.flatMap_append, pieces_concat n lens l (by omega), List.flatMap_singleton]
    unfold pieceOf
    have h1 : lens.take (n + 1) = lens.take n ++ [lens[n]] := by
      rw [List.take_append_getElem]
    rw [h1, List.sum_append, List.sum_singleton, List.take_add, List.getD_eq_getElem _ _ (by omega)]

theorem zip_map_same {α β γ : Type} (l : List α) (f : α → β) (g : α → γ) : (l.map f).zip (l.map g) = l.map fun a => (f a, g a) := by
  induction l with
  | nil => rfl
  | cons a l ih => simp [ih]

/-- What all ranks give to the sort. -/
theorem contributions (ht : t.OK) {f : ℕ → List ℕ → V} {G : List ℕ → V} (hf : t.Holds f G) :
    (List.range t.nrank).map (fun r => (ravelKeys t r).zip (flatOf t r (f r))) =
      (List.range t.nrank).map fun r => ((ndindex (t.lshape r)).map (t.global r)).map fun g => (cOrder t.cshape g, G g) := by
  apply List.map_congr_left
  intro r hr
  rw [List.mem_range] at hr
  rw [ravelKeys_eq ht hr]
  unfold flatOf
  rw [zip_map_same, List.map_map]
  apply List.map_congr_left
  intro c hc
  show _ = (_, _)
  rw [hf r hr c (mem_ndindex.1 hc)]

theorem sorted_all (ht : t.OK) (G : List ℕ → V) :
    ((((List.range t.nrank).map fun r => ((ndindex (t.lshape r)).map (t.global r)).map fun g =>
      (cOrder t.cshape g, G g)).flatten).mergeSort fun a b => decide (a.1 ≤ b.1)) =
      (ndindex t.cshape).map fun g => (cOrder t.cshape g, G g) := by
  have hperm : List.Perm (((List.range t.nrank).map fun r => ((ndindex (t.lshape r)).map (t.global r)).map fun g =>
      (cOrder t.cshape g, G g)).flatten) ((ndindex t.cshape).map fun g => (cOrder t.cshape g, G g)) := by
    have := (tiles_perm ht).map fun g => (cOrder t.cshape g, G g)
    rw [List.map_flatMap, List.flatMap_def] at this
    exact this
  refine List.Perm.eq_of_pairwise (le := fun a b => decide (a.1 ≤ b.1) = true) ?_ (List.pairwise_mergeSort ?_ ?_ _) ?_
    ((List.mergeSort_perm _ _).trans hperm)
  · intro a b ha hb h1 h2
    have ha' := (hperm.mem_iff).1 ((List.mergeSort_perm _ _).mem_iff.1 ha)
    rw [List.mem_map] at ha' hb
    obtain ⟨g, hg, rfl⟩ := ha'
    obtain ⟨g', hg', rfl⟩ := hb
    rw [decide_eq_true_eq] at h1 h2
    have := cOrder_inj (mem_ndindex.1 hg) (mem_ndindex.1 hg') (by dsimp only at h1 h2; omega)
    rw [this]
  · intro a b c h1 h2
    rw [decide_eq_true_eq] at *
    omega
  · intro a b
    rw [Bool.or_eq_true, decide_eq_true_eq, decide_eq_true_eq]
    omega
  · rw [List.pairwise_map]
    refine (ndindex_sorted t.cshape).imp ?_
    intro a b h
    rw [decide_eq_true_eq]
    exact h.le

/-- The output of `ravel`. -/
def ravelOut (t : Tiling) (G : List ℕ → V) (r : ℕ) : List V :=
  pieceOf ((List.range t.nrank).map fun r => (t.lshape r).prod) r ((ndindex t.cshape).map G)

theorem lens_eq (G : List ℕ → V) : (List.range t.nrank).map (fun r => (((ndindex (t.lshape r)).map (t.global r)).map fun g =>
    (cOrder t.cshape g, G g)).length) = (List.range t.nrank).map fun r => (t.lshape r).prod := by
  apply List.map_congr_left
  intro r _
  rw [List.length_map, List.length_map, ndindex_length]

theorem lens_sum (ht : t.OK) : ((List.range t.nrank).map fun r => (t.lshape r).prod).sum = t.cshape.prod := by
  have := (tiles_perm ht).length_eq
  rw [ndindex_length, List.length_flatMap] at this
  rw [← this]
  congr 1
  apply List.map_congr_left
  intro r _
  rw [List.length_map, ndindex_length]

theorem ravel_return (ht : t.OK) {f : ℕ → List ℕ → V} {G : List ℕ → V} (hf : t.Holds f G) :
    AllReturn t.nrank (fun r => ravel t r (f r)) fun r => .ok (ravelOut t G r) := by
  have hsort : ∀ r, mpsortSort ((List.range t.nrank).map fun r => (ravelKeys t r).zip (flatOf t r (f r))) r = ravelOut t G r := by
    intro r
    unfold mpsortSort ravelOut
    rw [contributions ht hf, sorted_all ht, List.map_map, List.map_map]
    congr 1
    exact lens_eq G
  by_cases h1 : t.nrank > 1
  · have hp : ∀ r, ravel t r (f r) = .coll .mpsort ((ravelKeys t r).zip (flatOf t r (f r)))
        fun vs => .ret (.ok (mpsortSort vs r)) := fun r => if_pos h1
    refine AllReturn.congr (fun r _ => hp r) (fun _ _ => rfl) ?_
    refine AllReturn.coll ht.rank_pos ?_
    exact AllReturn.congr (fun r _ => rfl) (fun r _ => by rw [hsort r]) (AllReturn.ret _ _)
  · have hn : t.nrank = 1 := by have := ht.rank_pos; omega
    have hp : ∀ r, ravel t r (f r) = .ret (.ok (flatOf t r (f r))) := fun r => if_neg h1
    refine AllReturn.congr (fun r _ => hp r) (fun r hr => ?_) (AllReturn.ret _ _)
    have hr0 : r = 0 := by omega
    subst hr0
    rw [← hsort]
    unfold mpsortSort
    rw [contributions ht hf, hn]
    congr 1
    have hsorted : (((ndindex (t.lshape 0)).map (t.global 0)).map fun g => (cOrder t.cshape g, G g)).mergeSort
        (fun a b => decide (a.1 ≤ b.1)) = ((ndindex (t.lshape 0)).map (t.global 0)).map fun g => (cOrder t.cshape g, G g) := by
      apply List.mergeSort_of_pairwise
      rw [List.map_map, List.pairwise_map]
      refine (box_sorted t.cshape (t.start 0) (t.lshape 0) ?_ ?_ (ht.inside 0 hr)).imp ?_
      · rw [ht.start_len 0 hr, ht.cshape_len]
      · rw [ht.shape_len 0 hr, ht.cshape_len]
      · intro a b h
        rw [decide_eq_true_eq]
        exact h.le
    simp only [List.range_one, List.map_cons, List.map_nil, List.flatten_cons, List.flatten_nil, List.append_nil]
    rw [hsorted]
    unfold pieceOf flatOf
    simp only [List.take_zero, List.sum_nil, List.drop_zero, List.map_map, List.length_map, List.getD_cons_zero]
    rw [List.take_of_length_le (by simp)]
    apply List.map_congr_left
    intro c hc
    rw [hf 0 hr c (mem_ndindex.1 hc)]
    rfl

theorem ravelOut_concat (ht : t.OK) (G : List ℕ → V) :
    (List.range t.nrank).flatMap (ravelOut t G) = (ndindex t.cshape).map G := by
  unfold ravelOut
  have h1 : ((List.range t.nrank).map fun r => (t.lshape r).prod).take t.nrank =
      (List.range t.nrank).map fun r => (t.lshape r).prod := List.take_of_length_le (by simp)
  rw [pieces_concat _ _ _ (by simp), h1, lens_sum ht, List.take_of_length_le]
  rw [List.length_map, ndindex_length]

theorem ravelOut_length (ht : t.OK) (G : List ℕ → V) {r : ℕ} (hr : r < t.nrank) :
    (ravelOut t G r).length = (t.lshape r).prod := by
  unfold ravelOut pieceOf
  have h1 : ((List.range t.nrank).map fun r => (t.lshape r).prod).getD r 0 = (t.lshape r).prod := by
    rw [List.getD_eq_getElem _ _ (by simpa using hr)]; simp
  rw [h1, List.length_take, List.length_drop, List.length_map, ndindex_length, ← lens_sum ht]
  have h2 : (((List.range t.nrank).map fun r => (t.lshape r).prod).take (r + 1)).sum ≤
      ((List.range t.nrank).map fun r => (t.lshape r).prod).sum := by
    conv_rhs => rw [← List.take_append_drop (r + 1) ((List.range t.nrank).map fun r => (t.lshape r).prod)]
    rw [List.sum_append]
    omega
  have h3 : (((List.range t.nrank).map fun r => (t.lshape r).prod).take (r + 1)).sum =
      (((List.range t.nrank).map fun r => (t.lshape r).prod).take r).sum + (t.lshape r).prod := by
    rw [← List.take_append_getElem (by simpa using hr), List.sum_append, List.sum_singleton]
    simp
  omega

/-- Taking elements of the concatenated data by their C-order numbers. -/
theorem take_cOrder {G : List ℕ → V} {vs : List (List (ℕ × V))} {shape : List ℕ}
    (hvs : vs.flatten.map Prod.snd = (ndindex shape).map G) :
    ∀ (ind : List (List ℕ)), (∀ g ∈ ind, ValidIndex shape g) → mpsortTake vs (ind.map (cOrder shape)) = some (ind.map G)
  | [], _ => rfl
  | g :: gs, h => by
    have h1 := take_cOrder hvs gs fun g' hg' => h g' (List.mem_cons_of_mem _ hg')
    have h2 : (vs.flatten[cOrder shape g]?).map Prod.snd = some (G g) := by
      rw [← List.getElem?_map, hvs, List.getElem?_map, ndindex_getElem? (h g (by simp))]
      rfl
    unfold mpsortTake at h1 ⊢
    rw [List.map_cons, List.mapM_cons, h2, h1]
    rfl

theorem flatten_tagged (pieces : ℕ → List V) (n : ℕ) :
    (((List.range n).map fun r => (pieces r).map fun v => ((0 : ℕ), v)).flatten).map Prod.snd = (List.range n).flatMap pieces := by
  rw [List.map_flatten, List.map_map, List.flatMap_def]
  congr 1
  apply List.map_congr_left
  intro r _
  rw [Function.comp_apply, List.map_map]
  exact List.map_id _

end Pmesh
