import Verif.Spec.Arith
import Mathlib.Tactic.NormNum

/-!
# Programs on fields and on arrays in step
-/

namespace Pmesh

variable {ι K : Type} [Zero K]

/-- The states of the two programs agree. -/
structure Agree (real shared : Bool) (s t : ArithState ι K) : Prop where
  see : ∀ x, s.see x = t.see x
  bs : s.Bound
  bt : t.Bound
  us : shared = false → s.Unshared
  ut : shared = false → t.Unshared
  realv : real = true → ∀ x v, s.see x = some v → RealValues v

theorem store_of_real {real : Bool} {z : Cx K} (h : real = true → z.2 = 0) : storeField real z = z := by
  cases real
  · rfl
  · simp only [storeField, if_true]
    exact Prod.ext rfl (h rfl).symm

theorem Agree.eval {real shared : Bool} {s t : ArithState ι K} (h : Agree real shared s t) (a : ArithArg ι K) : s.eval a = t.eval a := by
  cases a with
  | name x => exact h.see x
  | lit c v => rfl

theorem Agree.evalReal {real shared : Bool} {s t : ArithState ι K} (h : Agree real shared s t) (a : ArithArg ι K)
    (ha : ∀ c v, a = .lit c v → c = false ∧ RealValues v) (hr : real = true) {v : ι → Cx K} (hv : s.eval a = some v) : RealValues v := by
  cases a with
  | name x => exact h.realv hr x v hv
  | lit c w =>
    obtain rfl : w = v := by simpa [ArithState.eval] using hv
    exact (ha c w rfl).2

theorem see_bindNew (s : ArithState ι K) (hs : s.Bound) (x : ℕ) (v : ι → Cx K) (y : ℕ) :
    (s.bindNew x v).see y = if y = x then some v else s.see y := by
  by_cases hy : y = x
  · subst hy
    simp [ArithState.see, ArithState.bindNew]
  · simp only [ArithState.see, ArithState.bindNew, Function.update_of_ne hy, hy, if_false]
    cases ho : s.env y with
    | none => rfl
    | some o =>
      have := hs y o ho
      simp [Function.update_of_ne (Nat.ne_of_lt this)]

theorem bound_bindNew {s : ArithState ι K} (hs : s.Bound) (x : ℕ) (v : ι → Cx K) : (s.bindNew x v).Bound := by
  intro y o h
  by_cases hy : y = x
  · subst hy
    simp only [ArithState.bindNew, Function.update_self, Option.some.injEq] at h
    simp [ArithState.bindNew, ← h]
  · simp only [ArithState.bindNew, Function.update_of_ne hy] at h
    exact Nat.lt_succ_of_lt (hs y o h)

theorem unshared_bindNew {s : ArithState ι K} (hs : s.Bound) (hu : s.Unshared) (x : ℕ) (v : ι → Cx K) : (s.bindNew x v).Unshared := by
  intro y z o hy hz
  by_cases h1 : y = x <;> by_cases h2 : z = x
  · rw [h1, h2]
  · subst h1
    simp only [ArithState.bindNew, Function.update_self, Option.some.injEq, Function.update_of_ne h2] at hy hz
    exact absurd (hs z o hz) (by omega)
  · subst h2
    simp only [ArithState.bindNew, Function.update_self, Option.some.injEq, Function.update_of_ne h1] at hy hz
    exact absurd (hs y o hy) (by omega)
  · simp only [ArithState.bindNew, Function.update_of_ne h1, Function.update_of_ne h2] at hy hz
    exact hu y z o hy hz

/-- Writing an object that only `x` is bound to. -/
theorem see_write {s : ArithState ι K} (hu : s.Unshared) {x o : ℕ} (hx : s.env x = some o) (v : ι → Cx K) (y : ℕ) :
    ({ s with val := Function.update s.val o v } : ArithState ι K).see y = if y = x then some v else s.see y := by
  by_cases hy : y = x
  · subst hy
    simp [ArithState.see, hx]
  · simp only [ArithState.see, hy, if_false]
    cases ho : s.env y with
    | none => rfl
    | some o' =>
      have : o' ≠ o := by
        rintro rfl
        exact hy (hu y x o' ho hx)
      simp [Function.update_of_ne this]

theorem agree_step {real shared : Bool} {s t : ArithState ι K} (h : Agree real shared s t) (c : ArithStmt ι K)
    (hr : real = true → c.Real) (hc : if shared then c.NotInplace else c.NotAlias) :
    (fieldStep real s c = none ∧ arrayStep real t c = none)
    ∨ ∃ s' t', fieldStep real s c = some s' ∧ arrayStep real t c = some t' ∧ Agree real shared s' t' := by
  cases c with
  | bin x op a b =>
    simp only [fieldStep, arrayStep, h.eval a, h.eval b]
    cases ha : t.eval a with
    | none => exact Or.inl ⟨rfl, rfl⟩
    | some va =>
      cases hb : t.eval b with
      | none => exact Or.inl ⟨rfl, rfl⟩
      | some vb =>
        refine Or.inr ⟨_, _, rfl, rfl, ?_⟩
        have hreal : real = true → ∀ i, (op (va i) (vb i)).2 = 0 := fun hre i =>
          (hr hre).1 _ _ (h.evalReal a (hr hre).2.1 hre ((h.eval a).trans ha) i) (h.evalReal b (hr hre).2.2 hre ((h.eval b).trans hb) i)
        have hst : (fun i => storeField real (op (va i) (vb i))) = fun i => op (va i) (vb i) :=
          funext fun i => store_of_real fun hre => hreal hre i
        rw [hst]
        refine ⟨fun y => ?_, bound_bindNew h.bs _ _, bound_bindNew h.bt _ _, fun e => unshared_bindNew h.bs (h.us e) _ _,
          fun e => unshared_bindNew h.bt (h.ut e) _ _, fun hre y v hv => ?_⟩
        · rw [see_bindNew _ h.bs, see_bindNew _ h.bt, h.see]
        · rw [see_bindNew _ h.bs] at hv
          split_ifs at hv
          · obtain rfl := Option.some.inj hv
            exact fun i => hreal hre i
          · exact h.realv hre y v hv
  | inplace x op b =>
    cases shared with
    | true => exact absurd hc (by simp [ArithStmt.NotInplace])
    | false =>
      have hsee := h.see x
      simp only [fieldStep, arrayStep, h.eval b]
      simp only [ArithState.see] at hsee
      cases hxs : s.env x with
      | none =>
        cases hxt : t.env x with
        | none => exact Or.inl ⟨rfl, rfl⟩
        | some o => simp [hxs, hxt] at hsee
      | some o =>
        cases hxt : t.env x with
        | none => simp [hxs, hxt] at hsee
        | some o' =>
          simp only [hxs, hxt, Option.map_some, Option.some.injEq] at hsee
          cases hb : t.eval b with
          | none => exact Or.inl ⟨rfl, rfl⟩
          | some vb =>
            by_cases hcx : (real && b.isComplex) = true
            · left
              simp [hcx]
            · right
              refine ⟨_, _, by simp [hcx]; rfl, by simp [hcx]; rfl, ?_⟩
              have hreal : real = true → ∀ i, (op (s.val o i) (vb i)).2 = 0 := fun hre i =>
                (hr hre).1 _ _ (h.realv hre x _ (by simp [ArithState.see, hxs]) i) (h.evalReal b (hr hre).2 hre ((h.eval b).trans hb) i)
              have hst : (fun i => storeField real (op (s.val o i) (vb i))) = fun i => op (s.val o i) (vb i) :=
                funext fun i => store_of_real fun hre => hreal hre i
              rw [hst]
              have hb' : ({ s with val := Function.update s.val o fun i => op (s.val o i) (vb i) } : ArithState ι K).Bound := h.bs
              refine ⟨fun y => ?_, bound_bindNew hb' _ _, h.bt, fun e => unshared_bindNew hb' (h.us e) _ _, h.ut, fun hre y v hv => ?_⟩
              · rw [see_bindNew _ hb', see_write (h.us rfl) hxs, see_write (h.ut rfl) hxt, h.see, hsee]
                split_ifs <;> rfl
              · rw [see_bindNew _ hb', see_write (h.us rfl) hxs] at hv
                split_ifs at hv
                · obtain rfl := Option.some.inj hv
                  exact fun i => hreal hre i
                · exact h.realv hre y v hv
  | rebind x y =>
    cases shared with
    | false => exact absurd hc (by simp [ArithStmt.NotAlias])
    | true =>
      have hsee := h.see y
      simp only [ArithState.see] at hsee
      simp only [fieldStep, arrayStep]
      cases hxs : s.env y with
      | none =>
        cases hxt : t.env y with
        | none => exact Or.inl ⟨rfl, rfl⟩
        | some o => simp [hxs, hxt] at hsee
      | some o =>
        cases hxt : t.env y with
        | none => simp [hxs, hxt] at hsee
        | some o' =>
          simp only [hxs, hxt, Option.map_some, Option.some.injEq] at hsee
          refine Or.inr ⟨_, _, rfl, rfl, fun z => ?_, fun z p hz => ?_, fun z p hz => ?_, by simp, by simp, fun hre z v hv => ?_⟩
          · by_cases hz : z = x
            · subst hz
              simp [ArithState.see, hsee]
            · simpa [ArithState.see, Function.update_of_ne hz] using h.see z
          · by_cases hzx : z = x
            · subst hzx
              simp only [Function.update_self, Option.some.injEq] at hz
              exact hz ▸ h.bs y o hxs
            · simp only [Function.update_of_ne hzx] at hz
              exact h.bs z p hz
          · by_cases hzx : z = x
            · subst hzx
              simp only [Function.update_self, Option.some.injEq] at hz
              exact hz ▸ h.bt y o' hxt
            · simp only [Function.update_of_ne hzx] at hz
              exact h.bt z p hz
          · by_cases hzx : z = x
            · subst hzx
              exact h.realv hre y v (by simpa [ArithState.see, hxs] using hv)
            · exact h.realv hre z v (by simpa [ArithState.see, Function.update_of_ne hzx] using hv)

theorem agree_run {real shared : Bool} (p : List (ArithStmt ι K)) :
    ∀ {s t : ArithState ι K}, Agree real shared s t → (real = true → ∀ c ∈ p, c.Real)
      → (∀ c ∈ p, if shared then c.NotInplace else c.NotAlias)
      → (fieldRun real s p = none ∧ arrayRun real t p = none)
        ∨ ∃ s' t', fieldRun real s p = some s' ∧ arrayRun real t p = some t' ∧ Agree real shared s' t' := by
  induction p with
  | nil => exact fun h _ _ => Or.inr ⟨_, _, rfl, rfl, h⟩
  | cons c p ih =>
    intro s t h hr hc
    simp only [fieldRun, arrayRun, List.foldlM_cons]
    rcases agree_step h c (fun e => hr e c (by simp)) (hc c (by simp)) with ⟨e1, e2⟩ | ⟨s', t', e1, e2, h'⟩
    · exact Or.inl ⟨by rw [e1]; rfl, by rw [e2]; rfl⟩
    · rw [e1, e2]
      exact ih h' (fun e c hc' => hr e c (by simp [hc'])) (fun c hc' => hc c (by simp [hc']))

end Pmesh
