import Verif.Lemmas.Arith
import Mathlib.Algebra.Ring.Rat
import Mathlib.Tactic.NormNum

/-!
# C60: arithmetic on fields is arithmetic on arrays
-/

namespace Pmesh

variable {ι K : Type} [Zero K]

/-- Any program of expressions and in-place statements on fields sees the values that it would see with arrays, and fails when it would
fail with arrays, if it does not bind two names to one field, or has no in-place statements.  On real fields numbers and operations must
be real.  Missing: in-place statements on fields with two names, complex numbers with real fields. -/
theorem C60_partial (real : Bool) (s : ArithState ι K) (p : List (ArithStmt ι K)) (hb : s.Bound)
    (hreal : real = true → (∀ x v, s.see x = some v → RealValues v) ∧ ∀ c ∈ p, c.Real)
    (hshare : (s.Unshared ∧ ∀ c ∈ p, c.NotAlias) ∨ ∀ c ∈ p, c.NotInplace) :
    (fieldRun real s p).map ArithState.see = (arrayRun real s p).map ArithState.see := by
  have key : ∀ shared : Bool, Agree real shared s s → (∀ c ∈ p, if shared then c.NotInplace else c.NotAlias)
      → (fieldRun real s p).map ArithState.see = (arrayRun real s p).map ArithState.see := by
    intro shared h hc
    rcases agree_run p h (fun e => (hreal e).2) hc with ⟨e1, e2⟩ | ⟨s', t', e1, e2, h'⟩
    · rw [e1, e2]
    · rw [e1, e2]
      exact congrArg some (funext h'.see)
  rcases hshare with ⟨hu, hc⟩ | hc
  · exact key false ⟨fun _ => rfl, hb, hb, fun _ => hu, fun _ => hu, fun e => (hreal e).1⟩ hc
  · exact key true ⟨fun _ => rfl, hb, hb, by simp, by simp, fun e => (hreal e).1⟩ hc

/-- Addition and multiplication of complex numbers. -/
def cxAddQ (z w : Cx ℚ) : Cx ℚ := (z.1 + w.1, z.2 + w.2)

/-- One field, bound to the name 0, with the value 5 everywhere. -/
def oneField : ArithState Unit ℚ := ⟨fun x => if x = 0 then some 0 else none, fun _ _ => (5, 0), 1⟩

/-- A program that meets the hypotheses: `b = a + a; b *= a`. -/
example : oneField.Bound ∧ oneField.Unshared ∧ (∀ x v, oneField.see x = some v → RealValues v)
    ∧ ∀ c ∈ [ArithStmt.bin 1 cxAddQ (.name 0) (.name 0), .inplace 1 cxMul (.name 0)], c.NotAlias ∧ (c : ArithStmt Unit ℚ).Real := by
  refine ⟨?_, ?_, ?_, ?_⟩
  · intro x o h
    simp only [oneField] at h ⊢
    split_ifs at h
    simp_all
  · intro x y o hx hy
    simp only [oneField] at hx hy
    split_ifs at hx hy
    simp_all
  · intro x v h i
    simp only [oneField, ArithState.see] at h
    split_ifs at h
    · simp only [Option.map_some, Option.some.injEq] at h
      rw [← h]
    · simp at h
  · intro c hc
    simp only [List.mem_cons, List.not_mem_nil, or_false] at hc
    rcases hc with rfl | rfl
    · exact ⟨trivial, fun z w hz hw => by simp [cxAddQ, hz, hw], by simp, by simp⟩
    · exact ⟨trivial, fun z w hz hw => by simp [cxMul, hz, hw], by simp⟩

example : ((fieldRun true oneField [.bin 1 cxAddQ (.name 0) (.name 0), .inplace 1 cxMul (.name 0)]).bind fun s => (s.see 1).map fun v => v ()) = some (50, 0) := by
  decide +kernel

/-- `x op= b` does change the field that `x` was bound to: a second name for it sees the change. -/
theorem C60_inplace_once (real : Bool) (s : ArithState ι K) (hb : s.Bound) (x : ℕ) (op : Cx K → Cx K → Cx K) (b : ArithArg ι K) {s' : ArithState ι K}
    (h : fieldStep real s (.inplace x op b) = some s') :
    ∃ o v, s.env x = some o ∧ s.eval b = some v ∧ s'.see x = some (fun i => storeField real (op (s.val o i) (v i)))
      ∧ ∀ y, s.env y = some o → s'.see y = s'.see x := by
  simp only [fieldStep] at h
  cases hx : s.env x with
  | none => simp [hx] at h
  | some o =>
    cases hv : s.eval b with
    | none => simp [hx, hv] at h
    | some v =>
      simp only [hx, hv, Option.bind_eq_bind, Option.bind_some] at h
      split_ifs at h
      obtain rfl := Option.some.inj h
      have hb' : ({ s with val := Function.update s.val o fun i => storeField real (op (s.val o i) (v i)) } : ArithState ι K).Bound := hb
      refine ⟨o, v, rfl, rfl, ?_, fun y hy => ?_⟩
      · rw [see_bindNew _ hb', if_pos rfl]
      · rw [see_bindNew _ hb', see_bindNew _ hb', if_pos rfl]
        split_ifs
        · rfl
        · simp [ArithState.see, hy]

/-- But only once: after `b = a; a += 1; a += 1`, starting from 5, the name `b` sees 6 where with arrays it sees 7, as `a` does. -/
theorem C60_violated_alias :
    let p : List (ArithStmt Unit ℚ) := [.rebind 1 0, .inplace 0 cxAddQ (.lit false fun _ => (1, 0)), .inplace 0 cxAddQ (.lit false fun _ => (1, 0))]
    ((fieldRun true oneField p).bind fun s => (s.see 1).map fun v => v ()) = some (6, 0)
    ∧ ((fieldRun true oneField p).bind fun s => (s.see 0).map fun v => v ()) = some (7, 0)
    ∧ ((arrayRun true oneField p).bind fun s => (s.see 1).map fun v => v ()) = some (7, 0) := by
  refine ⟨?_, ?_, ?_⟩ <;> decide +kernel

/-- A real field times the imaginary unit is the zero field, without an error. -/
theorem C60_violated_complex :
    let p : List (ArithStmt Unit ℚ) := [.bin 1 cxMul (.name 0) (.lit true fun _ => (0, 1))]
    ((fieldRun true oneField p).bind fun s => (s.see 1).map fun v => v ()) = some (0, 0)
    ∧ ((arrayRun true oneField p).bind fun s => (s.see 1).map fun v => v ()) = some (0, 5) := by
  refine ⟨?_, ?_⟩ <;> decide +kernel

end Pmesh
