import Verif.Model.Apply
import Verif.Lemmas.Preview

set_option linter.unusedSectionVars false

namespace Pmesh
section
variable {K V : Type} [Field K]

theorem writeAll_not_mem (ws : List (ℤ × V)) (mem : ℤ → V) (a : ℤ) (h : ∀ w ∈ ws, w.1 ≠ a) : writeAll mem ws a = mem a := by
  unfold writeAll
  induction ws generalizing mem with
  | nil => rfl
  | cons w ws ih =>
    rw [List.foldl_cons, ih _ fun w' hw' => h w' (by simp [hw'])]
    unfold writeOne
    rw [if_neg (Ne.symm (h w (by simp)))]

theorem writeAll_mem (ws : List (ℤ × V)) (mem : ℤ → V) (a : ℤ) (v : V) (hm : (a, v) ∈ ws)
    (h : ∀ w ∈ ws, w.1 = a → w.2 = v) : writeAll mem ws a = v := by
  unfold writeAll
  induction ws generalizing mem with
  | nil => simp at hm
  | cons w ws ih =>
    rw [List.foldl_cons]
    by_cases hin : (a, v) ∈ ws
    · exact ih _ hin fun w' hw' => h w' (by simp [hw'])
    · by_cases hin2 : ∃ w' ∈ ws, w'.1 = a
      · obtain ⟨w', hw', rfl⟩ := hin2
        have := h w' (by simp [hw']) rfl
        exact absurd (by rw [← this]; exact hw') hin
      · rcases List.mem_cons.1 hm with rfl | hm'
        · have := writeAll_not_mem ws (writeOne mem (a, v)) a fun w' hw' he => hin2 ⟨w', hw', he⟩
          unfold writeAll at this
          rw [this]
          simp [writeOne]
        · exact absurd hm' hin

/-- The index of an element in the slabs: slab number, then the position in the slab. -/
def slabPos (ndim : ℕ) (order c : List ℕ) : List ℕ := if ndim = 2 then 0 :: c else order.map fun d => c.getD d 0

def arrayAddr (str : List ℤ) (c : List ℕ) : ℤ := (List.zipWith (fun (i : ℕ) s => (i : ℤ) * s) c str).sum

theorem zipWith_getD_sum (str : List ℤ) (c : List ℕ) (h : c.length = str.length) :
    (List.zipWith (fun (i : ℕ) s => (i : ℤ) * s) c str).sum =
      ((List.range c.length).map fun d => ((c.getD d 0 : ℕ) : ℤ) * str.getD d 0).sum := by
  congr 1
  apply List.ext_getElem
  · simp [h]
  · intro j h1 h2
    simp only [List.length_zipWith] at h1
    simp only [List.getElem_zipWith, List.getElem_map, List.getElem_range]
    rw [List.getD_eq_getElem _ _ (by omega), List.getD_eq_getElem _ _ (by omega)]

theorem arrayAddr_perm {n : ℕ} {order : List ℕ} (h : AxisPerm n order) (str : List ℤ) (c : List ℕ) (hs : str.length = n)
    (hc : c.length = n) :
    arrayAddr (order.map fun d => str.getD d 0) (order.map fun d => c.getD d 0) = arrayAddr str c := by
  unfold arrayAddr
  rw [zipWith_getD_sum str c (by omega), List.zipWith_map]
  have hp : order.Perm (List.range n) := by
    apply List.Subperm.perm_of_length_le
    · exact List.subperm_of_subset h.nodup fun x hx => List.mem_range.2 (h.lt x hx)
    · rw [h.len]; simp
  rw [hc, ← (hp.map _).sum_eq]
  congr 1
  clear h hp
  induction order with
  | nil => rfl
  | cons d ds ih => simp [ih]

/-- The address of an element in its slab. -/
theorem row_addr (v : View) (i : ℕ) (p : List ℕ) (h : v.strides ≠ []) : (v.row i).addr p = v.offset + arrayAddr v.strides (i :: p) := by
  unfold View.addr View.row arrayAddr
  cases hs : v.strides with
  | nil => exact absurd hs h
  | cons s ss => simp; ring

theorem slab_addr {shape order : List ℕ} {str : List ℤ} (h : shape.length = 2 ∨ AxisPerm shape.length order) (h2 : 2 ≤ shape.length)
    (hs : str.length = shape.length) {c : List ℕ} (hc : c.length = shape.length) {i : ℕ} {p : List ℕ}
    (hp : slabPos shape.length order c = i :: p) :
    ((slabView shape.length order ⟨shape, str, 0⟩).row i).addr p = arrayAddr str c := by
  unfold slabPos at hp
  unfold slabView
  split at hp
  · rename_i h2'
    rw [if_pos h2']
    simp only [List.cons.injEq] at hp
    obtain ⟨rfl, rfl⟩ := hp
    rw [row_addr _ _ _ (by simp [View.newaxis])]
    simp [View.newaxis, arrayAddr]
  · rename_i h2'
    rw [if_neg h2']
    have ho : AxisPerm shape.length order := h.resolve_left h2'
    rw [row_addr _ _ _ (by
      intro h
      simp only [View.transpose, List.map_eq_nil_iff] at h
      have := ho.len
      rw [h] at this
      simp at this
      omega), ← hp]
    simp only [View.transpose, zero_add]
    exact arrayAddr_perm ho str c hs hc

/-- The position of an element in its slab is in the shape of the slab, and every position is that of an element. -/
theorem slab_shape {shape order : List ℕ} (h : shape.length = 2 ∨ AxisPerm shape.length order) (h2 : 2 ≤ shape.length)
    (str : List ℤ) {i : ℕ} {p : List ℕ} :
    (i < slabCount shape order ∧ ValidIndex ((slabView shape.length order ⟨shape, str, 0⟩).row i).shape p) ↔
      ∃ c, ValidIndex shape c ∧ slabPos shape.length order c = i :: p := by
  unfold slabCount slabView slabPos
  by_cases h2' : shape.length = 2
  · simp only [if_pos h2', View.newaxis, View.row, List.tail_cons]
    constructor
    · rintro ⟨hi, hp⟩
      obtain rfl : i = 0 := by omega
      exact ⟨p, hp, rfl⟩
    · rintro ⟨c, hc, he⟩
      simp only [List.cons.injEq] at he
      obtain ⟨rfl, rfl⟩ := he
      exact ⟨by omega, hc⟩
  · have ho : AxisPerm shape.length order := h.resolve_left h2'
    simp only [if_neg h2', View.transpose, View.row]
    have hne : order ≠ [] := by
      rintro rfl
      have := ho.len
      simp at this
      omega
    have key : (i < shape.getD (order.headD 0) 0 ∧ ValidIndex (order.map fun d => shape.getD d 0).tail p) ↔
        ValidIndex (order.map fun d => shape.getD d 0) (i :: p) := by
      cases order with
      | nil => exact absurd rfl hne
      | cons d ds =>
        simp only [List.headD_cons, List.map_cons, List.tail_cons]
        unfold ValidIndex
        rw [List.forall₂_cons]
    rw [key]
    constructor
    · intro hv
      have hl : (i :: p).length = shape.length := by rw [hv.len, List.length_map, ho.len]
      refine ⟨untranspose order (i :: p), ?_, map_untranspose ho hl⟩
      rw [← validIndex_pick ho rfl (by rw [untranspose_length, ho.len]), map_untranspose ho hl]
      exact hv
    · rintro ⟨c, hc, he⟩
      rw [← he]
      exact (validIndex_pick ho rfl hc.len).2 hc

theorem slabPos_inj {shape order : List ℕ} (h : shape.length = 2 ∨ AxisPerm shape.length order) {c c' : List ℕ}
    (hc : c.length = shape.length) (hc' : c'.length = shape.length)
    (he : slabPos shape.length order c = slabPos shape.length order c') : c = c' := by
  unfold slabPos at he
  split at he
  · simpa using he
  · rename_i h2
    have ho := h.resolve_left h2
    rw [← untranspose_map ho hc, he, untranspose_map ho hc']

theorem slabPos_cons {shape order : List ℕ} (h : shape.length = 2 ∨ AxisPerm shape.length order) (h2 : 2 ≤ shape.length)
    (c : List ℕ) : ∃ i p, slabPos shape.length order c = i :: p := by
  unfold slabPos
  split
  · exact ⟨_, _, rfl⟩
  · rename_i h2'
    have ho := h.resolve_left h2'
    cases order with
    | nil => have := ho.len; simp at this; omega
    | cons d ds => exact ⟨_, _, rfl⟩

theorem sum_indicator (n d : ℕ) (hd : d < n) (f : ℕ → ℤ) :
    ((List.range n).map fun k => f k * if k = d then 1 else 0).sum = f d := by
  induction n with
  | zero => omega
  | succ n ih =>
    rw [List.range_succ, List.map_append, List.sum_append]
    by_cases h : d = n
    · subst h
      have : ((List.range d).map fun k => f k * if k = d then (1 : ℤ) else 0) = (List.range d).map fun _ => (0 : ℤ) := by
        apply List.map_congr_left
        intro k hk
        have := List.mem_range.1 hk
        rw [if_neg (by omega), mul_zero]
      rw [this]
      simp
    · rw [ih (by omega)]
      simp [Ne.symm h]

/-- The coordinate that an element of a slab gets is its own. -/
theorem slab_coord {shape order : List ℕ} (h : shape.length = 2 ∨ AxisPerm shape.length order) (h2 : 2 ≤ shape.length)
    {c : List ℕ} (hc : ValidIndex shape c) {i : ℕ} {p : List ℕ} (hp : slabPos shape.length order c = i :: p) {d : ℕ}
    (hd : d < shape.length) : ((slabCoord shape order i d).bcast p).toNat = c.getD d 0 := by
  have hlt := (validIndex_iff.1 hc).2 d hd
  suffices hs : (slabCoord shape order i d).bcast p = ((c.getD d 0 : ℕ) : ℤ) by rw [hs]; simp
  have hsl : (sparseView shape d).strides.length = shape.length := by simp [sparseView]
  -- the index into the coordinate array, zero in all axes but `d`
  set b : List ℕ := (List.range shape.length).map fun k => if k = d then c.getD d 0 else 0 with hb
  have hbl : b.length = shape.length := by simp [hb]
  have hbd : ∀ k < shape.length, b.getD k 0 = if k = d then c.getD d 0 else 0 := by
    intro k hk
    rw [hb, getD_map_range _ _ _ _ hk]
  clear_value b
  have hsum : arrayAddr (sparseView shape d).strides b = ((c.getD d 0 : ℕ) : ℤ) := by
    unfold arrayAddr
    rw [zipWith_getD_sum _ _ (by rw [hsl, hbl]), hbl]
    have : ((List.range shape.length).map fun k => ((b.getD k 0 : ℕ) : ℤ) * (sparseView shape d).strides.getD k 0) =
        (List.range shape.length).map fun k => (fun k => ((b.getD k 0 : ℕ) : ℤ)) k * if k = d then 1 else 0 := by
      apply List.map_congr_left
      intro k hk
      have hk := List.mem_range.1 hk
      simp only [sparseView]
      congr 1
      exact getD_map_range _ _ _ _ hk
    rw [this, sum_indicator _ _ hd, hbd d hd, if_pos rfl]
  have hshape : ∀ k < shape.length, (sparseView shape d).shape.getD k 0 = if k = d then shape.getD d 0 else 1 := by
    intro k hk
    simp only [sparseView]
    rw [getD_map_range _ _ _ _ hk]
  have hpick : ∀ k < shape.length, (if (sparseView shape d).shape.getD k 0 = 1 then 0 else c.getD k 0) = b.getD k 0 := by
    intro k hk
    rw [hshape k hk, hbd k hk]
    by_cases hkd : k = d
    · subst hkd
      simp only [if_true]
      split
      · omega
      · rfl
    · simp [hkd]
  rw [← hsum]
  unfold View.bcast slabCoord slabView slabAxis
  unfold slabPos at hp
  by_cases h2' : shape.length = 2
  · rw [if_pos h2'] at hp
    rw [if_pos h2', if_pos h2', if_pos (by omega)]
    simp only [List.cons.injEq] at hp
    obtain ⟨rfl, rfl⟩ := hp
    rw [row_addr _ _ _ (by simp [View.newaxis])]
    have e : List.zipWith (fun n i => if n = 1 then 0 else i) ((sparseView shape d).newaxis.row 0).shape c = b := by
      apply List.ext_getElem
      · simp [View.newaxis, View.row, sparseView, hc.len, hb]
      · intro k h1 h3
        have hk : k < shape.length := by rw [← hbl]; exact h3
        simp only [List.getElem_zipWith, View.newaxis, View.row, List.tail_cons]
        have := hpick k hk
        have hck : k < c.length := by rw [hc.len]; exact hk
        have e1 := List.getD_eq_getElem (sparseView shape d).shape 0 (n := k) (by simpa [sparseView] using hk)
        have e2 := List.getD_eq_getElem c 0 hck
        have e3 := List.getD_eq_getElem b 0 h3
        rw [← e1, ← e2, ← e3]
        exact this
    rw [e]
    simp [View.newaxis, arrayAddr, sparseView]
  · have ho := h.resolve_left h2'
    rw [if_neg h2'] at hp
    rw [if_neg h2', if_neg h2']
    cases hor : order with
    | nil => have := ho.len; rw [hor] at this; simp at this; omega
    | cons d0 ds =>
      rw [hor] at hp
      simp only [List.map_cons, List.cons.injEq] at hp
      obtain ⟨hi, hpp⟩ := hp
      rw [row_addr _ _ _ (by simp [View.transpose])]
      rw [← arrayAddr_perm ho _ b hsl hbl]
      simp only [View.transpose, View.row, List.map_cons, List.tail_cons, List.headD_cons, sparseView, zero_add, hor]
      have hd0 : d0 < shape.length := ho.lt d0 (by rw [hor]; simp)
      congr 2
      · rw [hbd d0 hd0]
        by_cases hdd : d = d0
        · subst hdd
          simp only [ne_eq, not_true, if_false, if_true]
          rw [hi]
        · simp [hdd, Ne.symm hdd]
      · rw [← hpp]
        rw [List.zipWith_map]
        have : ∀ k ∈ ds, (if ((List.range shape.length).map fun k => if k = d then shape.getD d 0 else 1).getD k 0 = 1 then 0
            else c.getD k 0) = b.getD k 0 := fun k hk => hpick k (ho.lt k (by rw [hor]; simp [hk]))
        rw [← List.map_congr_left this]
        clear this hpp hor
        induction ds with
        | nil => rfl
        | cons k ks ih => simp only [List.zipWith_cons_cons, List.map_cons, ih]

end
end Pmesh

namespace Pmesh
section
variable {K V : Type} [Field K]

/-- What one slab does. -/
theorem applySlab_eq {shape order : List ℕ} (h : shape.length = 2 ∨ AxisPerm shape.length order) (h2 : 2 ≤ shape.length)
    (coord : ℕ → ℕ → K) (func : List K → V → V) {istr ostr : List ℤ} (hi : istr.length = shape.length)
    (ho : ostr.length = shape.length)
    (hd : ∀ c c', ValidIndex shape c → ValidIndex shape c' → arrayAddr ostr c = arrayAddr ostr c' → c = c')
    (irow : ℕ) (hrow : irow < slabCount shape order) (inp out : ℤ → V) :
    (∀ c, ValidIndex shape c → ∀ i p, slabPos shape.length order c = i :: p →
      applySlab shape order coord func istr ostr irow inp out (arrayAddr ostr c) =
        if i = irow then func ((List.range shape.length).map fun d => coord d (c.getD d 0)) (inp (arrayAddr istr c))
        else out (arrayAddr ostr c)) ∧
    ∀ a, (∀ c, ValidIndex shape c → arrayAddr ostr c ≠ a) →
      applySlab shape order coord func istr ostr irow inp out a = out a := by
  unfold applySlab
  -- every write belongs to one element
  have hw : ∀ p, ValidIndex ((slabView shape.length order ⟨shape, istr, 0⟩).row irow).shape p →
      ∃ c, ValidIndex shape c ∧ slabPos shape.length order c = irow :: p := fun p hp => (slab_shape h h2 istr).1 ⟨hrow, hp⟩
  constructor
  · intro c hc i p hp
    split
    · rename_i hie
      subst hie
      apply writeAll_mem
      · rw [List.mem_map]
        refine ⟨p, mem_ndindex.2 ((slab_shape h h2 istr).2 ⟨c, hc, hp⟩).2, ?_⟩
        rw [slab_addr h h2 ho hc.len hp, slab_addr h h2 hi hc.len hp]
        congr 2
        apply List.map_congr_left
        intro d hd'
        rw [slab_coord h h2 hc hp (List.mem_range.1 hd')]
      · intro w hwm he
        obtain ⟨p', hp', rfl⟩ := List.mem_map.1 hwm
        obtain ⟨c', hc', hpc'⟩ := hw p' (mem_ndindex.1 hp')
        dsimp only at he ⊢
        rw [slab_addr h h2 ho hc'.len hpc'] at he
        have := hd _ _ hc' hc he
        subst this
        rw [slab_addr h h2 hi hc'.len hpc']
        congr 1
        apply List.map_congr_left
        intro d hd'
        rw [slab_coord h h2 hc' hpc' (List.mem_range.1 hd')]
    · rename_i hie
      apply writeAll_not_mem
      intro w hwm he
      obtain ⟨p', hp', rfl⟩ := List.mem_map.1 hwm
      obtain ⟨c', hc', hpc'⟩ := hw p' (mem_ndindex.1 hp')
      dsimp only at he
      rw [slab_addr h h2 ho hc'.len hpc'] at he
      have := hd _ _ hc' hc he
      subst this
      rw [hp] at hpc'
      simp only [List.cons.injEq] at hpc'
      exact hie hpc'.1
  · intro a ha
    apply writeAll_not_mem
    intro w hwm he
    obtain ⟨p', hp', rfl⟩ := List.mem_map.1 hwm
    obtain ⟨c', hc', hpc'⟩ := hw p' (mem_ndindex.1 hp')
    dsimp only at he
    rw [slab_addr h h2 ho hc'.len hpc'] at he
    exact ha c' hc' he

/-- All slabs, with the input in a memory of its own or in the memory that is written. -/
theorem applySlabs_eq {shape order : List ℕ} (h : shape.length = 2 ∨ AxisPerm shape.length order) (h2 : 2 ≤ shape.length)
    (coord : ℕ → ℕ → K) (func : List K → V → V) {istr ostr : List ℤ} (hi : istr.length = shape.length)
    (ho : ostr.length = shape.length)
    (hd : ∀ c c', ValidIndex shape c → ValidIndex shape c' → arrayAddr ostr c = arrayAddr ostr c' → c = c')
    (inp : (ℤ → V) → ℤ → V) (out mem : ℤ → V)
    (hin : (∀ m, inp m = mem) ∨ ((∀ m, inp m = m) ∧ out = mem ∧ istr = ostr)) (n : ℕ) (hn : n ≤ slabCount shape order) :
    (∀ c, ValidIndex shape c → ∀ i p, slabPos shape.length order c = i :: p →
      (List.range n).foldl (fun m irow => applySlab shape order coord func istr ostr irow (inp m) m) out (arrayAddr ostr c) =
        if i < n then func ((List.range shape.length).map fun d => coord d (c.getD d 0)) (mem (arrayAddr istr c))
        else out (arrayAddr ostr c)) ∧
    ∀ a, (∀ c, ValidIndex shape c → arrayAddr ostr c ≠ a) →
      (List.range n).foldl (fun m irow => applySlab shape order coord func istr ostr irow (inp m) m) out a = out a := by
  induction n with
  | zero => exact ⟨fun c hc i p hp => by simp, fun a _ => rfl⟩
  | succ n ih =>
    obtain ⟨ih1, ih2⟩ := ih (by omega)
    rw [List.range_succ]
    simp only [List.foldl_append, List.foldl_cons, List.foldl_nil]
    set m := (List.range n).foldl (fun m irow => applySlab shape order coord func istr ostr irow (inp m) m) out with hm
    obtain ⟨h3, h4⟩ := applySlab_eq h h2 coord func hi ho hd n (by omega) (inp m) m
    constructor
    · intro c hc i p hp
      rw [h3 c hc i p hp]
      by_cases hie : i = n
      · rw [if_pos hie, if_pos (by omega)]
        congr 1
        rcases hin with hin | ⟨hin, hom, hst⟩
        · rw [hin]
        · rw [hin, hst, ih1 c hc i p hp, if_neg (by omega), hom]
      · rw [if_neg hie, ih1 c hc i p hp]
        by_cases hlt : i < n
        · rw [if_pos hlt, if_pos (by omega)]
        · rw [if_neg hlt, if_neg (by omega)]
    · intro a ha
      rw [h4 a ha, ih2 a ha]

end
end Pmesh
