import Verif.Lemmas.MeshPaint

set_option linter.unusedSectionVars false

namespace Pmesh
section
variable {K : Type} [Field K] [LinearOrder K] [IsStrictOrderedRing K] [FloorRing K]

theorem dot_range {n : ℕ} {a b : List K} (ha : a.length = n) (hb : b.length = n) :
    dot a b = ((List.range n).map fun i => a.getD i 0 * b.getD i 0).sum := by
  unfold dot
  congr 1
  apply List.ext_getElem
  · simp [ha, hb]
  · intro i h1 h2
    have hi : i < n := by simpa using h2
    simp [List.getElem?_eq_getElem (show i < a.length by omega), List.getElem?_eq_getElem (show i < b.length by omega)]

theorem sum_add_map {α : Type*} (l : List α) (f g : α → K) :
    (l.map fun a => f a + g a).sum = (l.map f).sum + (l.map g).sum := by
  induction l with
  | nil => simp
  | cons a l ih => simp only [List.map_cons, List.sum_cons, ih]; ring

theorem sum_mul_right_map {α : Type*} (l : List α) (f : α → K) (c : K) :
    (l.map fun a => f a * c).sum = (l.map f).sum * c := by
  induction l with
  | nil => simp
  | cons a l ih => simp only [List.map_cons, List.sum_cons, ih]; ring

theorem sum_mul_left_map {α : Type*} (l : List α) (f : α → K) (c : K) :
    (l.map fun a => c * f a).sum = c * (l.map f).sum := by
  induction l with
  | nil => simp
  | cons a l ih => simp only [List.map_cons, List.sum_cons, ih]; ring

theorem sum_congr_mem {α : Type*} (l : List α) {f g : α → K} (h : ∀ a ∈ l, f a = g a) : (l.map f).sum = (l.map g).sum := by
  rw [List.map_congr_left h]

theorem fieldDot_add (m : PMesh K) (u u' v : ℕ → ℤ → K) :
    m.fieldDot (fun r a => u r a + u' r a) v = m.fieldDot u v + m.fieldDot u' v := by
  unfold PMesh.fieldDot
  rw [← sum_add_map]
  apply sum_congr_mem
  intro r _
  rw [← sum_add_map]
  apply sum_congr_mem
  intro c _
  ring

theorem fieldDot_zero (m : PMesh K) (v : ℕ → ℤ → K) : m.fieldDot (fun _ _ => 0) v = 0 := by
  unfold PMesh.fieldDot
  apply List.sum_eq_zero
  intro x hx
  obtain ⟨r, _, rfl⟩ := List.mem_map.1 hx
  apply List.sum_eq_zero
  intro x hx
  obtain ⟨c, _, rfl⟩ := List.mem_map.1 hx
  ring

theorem unitDeposit_part (P : Painter K) (p p' : Particle K) (h1 : p.pos = p'.pos) (h2 : p.hsml = p'.hsml) :
    unitDeposit P p = unitDeposit P p' := by
  unfold unitDeposit
  rw [h1, h2]

/-- Painting with a layout is the adjoint of reading with it. -/
theorem adjoint_core {m : PMesh K} (hm : m.OK) (w : Resampler K) (g : Option ℕ)
    {lay : ℕ → Option Lay} {S : ℕ → ℕ → List ℕ} {pos : ℕ → List (List K)}
    (hlay : LayoutArg m.nrank (fun q => (pos q).length) lay S) (mass hsml : ℕ → Quant K) (v : ℕ → ℤ → K) (res : ℕ → List K)
    (hres : ∀ q < m.nrank, ∀ i < (pos q).length, (res q).getD i 0 = ((List.range m.nrank).map fun r =>
        ((S q r).map fun j => if j = i then readOn m w g (v r) r (partAt pos (fun _ => .none) hsml q j)
          else 0).sum).sum) :
    m.fieldDot (fun r a => (((List.range m.nrank).flatMap fun q => (S q r).map (partAt pos mass hsml q)).map fun p =>
        p.mass * unitDeposit (m.painter w g r) p a).sum) v =
      ((List.range m.nrank).map fun q => ((List.range (pos q).length).map fun i =>
        (mass q).at i * (res q).getD i 0).sum).sum := by
  have hL : m.fieldDot (fun r a => (((List.range m.nrank).flatMap fun q => (S q r).map (partAt pos mass hsml q)).map fun p =>
        p.mass * unitDeposit (m.painter w g r) p a).sum) v =
      ((List.range m.nrank).map fun r => ((List.range m.nrank).map fun q => ((S q r).map fun j => (mass q).at j *
        readOn m w g (v r) r (partAt pos (fun _ => .none) hsml q j)).sum).sum).sum := by
    unfold PMesh.fieldDot
    apply sum_congr_mem
    intro r hr
    rw [List.mem_range] at hr
    have hshl := hm.localShape_len hr
    have e1 : ∀ c ∈ ndindex (m.localShape r), (((List.range m.nrank).flatMap fun q =>
        (S q r).map (partAt pos mass hsml q)).map fun p => p.mass * unitDeposit (m.painter w g r) p (m.addr r c)).sum *
        v r (m.addr r c) = ((List.range m.nrank).map fun q => ((S q r).map fun j => (mass q).at j *
          (weightOn m w g r (partAt pos (fun _ => .none) hsml q j) c * v r (m.addr r c))).sum).sum := by
      intro c hc
      rw [mem_ndindex] at hc
      have hcl := (validIndex_iff.1 hc).1
      rw [sum_flatMap', ← sum_mul_right_map]
      apply sum_congr_mem
      intro q _
      rw [List.map_map, ← sum_mul_right_map]
      apply sum_congr_mem
      intro j _
      simp only [Function.comp]
      rw [← elemAddr_painter w g r (by omega), unitDeposit_elem _ (distinct_painter w g r hshl (hm.distinct r hr)) _ c
            (by rw [shapeOf_painter w g r hshl]; exact hc)]
      unfold weightOn partAt
      ring
    rw [sum_congr_mem _ e1, sum_comm']
    apply sum_congr_mem
    intro q _
    rw [sum_comm']
    apply sum_congr_mem
    intro j _
    rw [sum_mul_left_map]
    unfold readOn
    rw [shapeOf_painter w g r hshl]
    congr 1
    apply sum_congr_mem
    intro c hc
    rw [mem_ndindex] at hc
    have hcl := (validIndex_iff.1 hc).1
    rw [elemAddr_painter w g r (by omega)]
  rw [hL, sum_comm']
  apply sum_congr_mem
  intro q hq
  rw [List.mem_range] at hq
  have e2 : ∀ i ∈ List.range (pos q).length, (mass q).at i * (res q).getD i 0 =
      ((List.range m.nrank).map fun r => ((S q r).map fun j => if j = i then (mass q).at j *
        readOn m w g (v r) r (partAt pos (fun _ => .none) hsml q j) else 0).sum).sum := by
    intro i hi
    rw [List.mem_range] at hi
    rw [hres q hq i hi, ← sum_mul_left_map]
    apply sum_congr_mem
    intro r _
    rw [← sum_mul_left_map]
    apply sum_congr_mem
    intro j _
    by_cases h : j = i
    · rw [if_pos h, if_pos h, h]
    · rw [if_neg h, if_neg h, mul_zero]
  rw [sum_congr_mem _ e2, sum_comm']
  apply sum_congr_mem
  intro r _
  rw [sum_comm']
  apply sum_congr_mem
  intro j hj
  have hjl := sent_lt hlay hq hj
  have := sum_pick hjl (fun _ => (mass q).at j * readOn m w g (v r) r (partAt pos (fun _ => .none) hsml q j))
  simp only [eq_comm (a := j)]
  rw [this]

theorem mulQuant_eq {n : ℕ} {len : ℕ → ℕ} {q : ℕ → Quant K} (hq : QuantOK n len q) {r : ℕ} (hr : r < n) {a : List K}
    (ha : a.length = len r) :
    mulQuant a (q r) = some ((List.range (len r)).map fun i => a.getD i 0 * (q r).at i) := by
  unfold mulQuant
  rw [ha, toArray_own hq hr]
  simp only [Option.map_some, Option.some.injEq]
  apply List.ext_getElem
  · simp [ha]
  · intro i h1 h2
    have hi : i < a.length := by rw [ha]; simpa using h2
    simp [List.getElem?_eq_getElem hi]

/-- The columns of the gradient against the positions. -/
theorem pmGradColumns_return {m : PMesh K} (hm : m.OK) {w : Resampler K} (hw : w.Valid)
    {lay : ℕ → Option Lay} {S : ℕ → ℕ → List ℕ} {pos : ℕ → List (List K)}
    (hlay : LayoutArg m.nrank (fun q => (pos q).length) lay S)
    (hpos : ∀ r < m.nrank, ∀ x ∈ pos r, x.length = m.nmesh.length) {q : ℕ → Quant K}
    (hq : QuantOK m.nrank (fun r => (pos r).length) q) (field : ℕ → ℤ → K) (res : ℕ → ℕ → List K)
    (hres : ∀ d, AllReturn m.nrank (fun r => pmReadout m w (some d) r (lay r) (pos r) .none (field r))
      (fun r => .ok (res d r))) (hlen : ∀ d, ∀ r < m.nrank, (res d r).length = (pos r).length) :
    ∃ cols : ℕ → List (List K),
      AllReturn m.nrank (fun r => pmGradColumns m w r (lay r) (pos r) (q r) (field r)) (fun r => .ok (cols r)) ∧
      ∀ r < m.nrank, cols r = (List.range m.nmesh.length).map fun d =>
        (List.range (pos r).length).map fun i => (res d r).getD i 0 * (q r).at i := by
  unfold pmGradColumns
  have := AllReturn.forProg (n := m.nrank) (body := fun r d (out : List (List K)) =>
    (pmReadout m w (some d) r (lay r) (pos r) .none (field r)).andThen fun g =>
    match mulQuant g (q r) with
    | none => .ret (.error .value)
    | some a => .ret (.ok (out ++ [a])))
    (fun done s => ∀ r < m.nrank, s r = done.map fun d =>
        (List.range (pos r).length).map fun i => (res d r).getD i 0 * (q r).at i)
    (by
      intro done d s hs
      refine ⟨fun r => s r ++ [(List.range (pos r).length).map fun i => (res d r).getD i 0 * (q r).at i], ?_, ?_⟩
      · refine AllReturn.andThen (hres d) ?_
        refine AllReturn.congr (fun r hr => ?_) (fun _ _ => rfl) (AllReturn.ret m.nrank _)
        rw [mulQuant_eq hq hr (hlen d r hr)]
      · intro r hr
        simp only
        rw [hs r hr, List.map_append]; rfl)
    (List.range m.nmesh.length) [] (fun _ => []) (fun r _ => rfl)
  obtain ⟨cols, h1, h2⟩ := this
  exact ⟨cols, h1, fun r hr => by simpa using h2 r hr⟩

theorem column_length (v : List (List K)) (d : ℕ) : (column v d).length = v.length := by simp [column]

end
end Pmesh
