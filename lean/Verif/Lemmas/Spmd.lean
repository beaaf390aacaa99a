import Verif.Model.Spmd
import Verif.Spec.Layout
import Mathlib.Data.List.GetD

namespace Pmesh

section
variable {V R : Type}

theorem AllReturn.ret (n : ℕ) (f : ℕ → R) : AllReturn (V := V) n (fun r => .ret (f r)) f := by
  unfold AllReturn
  have := Runs.done (V := V) ((List.range n).map f)
  rw [List.map_map] at this
  exact this

theorem AllReturn.coll {n : ℕ} (hn : 0 < n) {op : Coll} {v : ℕ → V} {k : ℕ → List V → Prog V R} {f : ℕ → R}
    (h : AllReturn n (fun r => k r ((List.range n).map v)) f) :
    AllReturn n (fun r => .coll op (v r) (k r)) f := by
  unfold AllReturn at *
  have := Runs.step op ((List.range n).map v) ((List.range n).map k) _ (by simp)
    (by simp; omega) (by rw [List.map_map]; exact h)
  rw [List.zipWith_map, List.zipWith_self] at this
  exact this

theorem AllReturn.congr {n : ℕ} {p p' : ℕ → Prog V R} {f f' : ℕ → R} (hp : ∀ r < n, p r = p' r)
    (hf : ∀ r < n, f r = f' r) (h : AllReturn n p' f') : AllReturn n p f := by
  unfold AllReturn at *
  have h1 : (List.range n).map p = (List.range n).map p' :=
    List.map_congr_left fun r hr => hp r (List.mem_range.1 hr)
  have h2 : (List.range n).map f = (List.range n).map f' :=
    List.map_congr_left fun r hr => hf r (List.mem_range.1 hr)
  rw [h1, h2]; exact h

theorem Runs.andThen {E A B : Type} {k : List (A → Prog V (Except E B))} {g : List (Except E B)} {ps : List (Prog V (Except E A))}
    {rs : List (Except E A)} (h : Runs ps rs) : ∀ as : List A, rs = as.map .ok → k.length = as.length →
    Runs (List.zipWith (fun k a => k a) k as) g → Runs (List.zipWith (fun p k => Prog.andThen p k) ps k) g := by
  induction h with
  | done rs =>
    intro as hrs hl hk
    subst hrs
    convert hk using 1
    clear hk
    induction as generalizing k with
    | nil => simp at hl; subst hl; rfl
    | cons a as ih =>
      rcases k with _ | ⟨k, ks⟩
      · simp at hl
      · simp only [List.map_cons, List.zipWith_cons_cons, Prog.andThen, ih (k := ks) (by simpa using hl)]
  | step op vs ks rs hlen hne h ih =>
    intro as hrs hl hk
    have hlen2 : rs.length = ks.length := by
      have : ∀ {ps : List (Prog V (Except E A))} {rs}, Runs ps rs → rs.length = ps.length := by
        intro ps rs h
        induction h with
        | done rs => simp
        | step op vs ks rs hlen hne h ih => simp [ih, hlen]
      simpa using this h
    have h2 := ih as hrs hl hk
    have e : List.zipWith (fun p k => Prog.andThen p k) (List.zipWith (Prog.coll op) vs ks) k =
        List.zipWith (Prog.coll op) vs (List.zipWith (fun k' k => fun ws => (k' ws).andThen k) ks k) := by
      clear h2 ih h hk hrs hl hne hlen2
      induction vs generalizing ks k with
      | nil => simp
      | cons v vs ih =>
        rcases ks with _ | ⟨k', ks⟩
        · simp
        · rcases k with _ | ⟨k, kk⟩
          · simp
          · simp only [List.zipWith_cons_cons, Prog.andThen]
            rw [ih (ks := ks) (k := kk) (by simpa using hlen)]
    rw [e]
    refine .step op vs _ g ?_ hne ?_
    · rw [hrs] at hlen2
      simp at hlen2
      simp; omega
    · convert h2 using 1
      rw [List.map_zipWith, List.zipWith_map_left]

theorem AllReturn.andThen {E A B : Type} {n : ℕ} {p : ℕ → Prog V (Except E A)} {f : ℕ → A}
    {k : ℕ → A → Prog V (Except E B)} {g : ℕ → Except E B} (hp : AllReturn n p (fun r => .ok (f r)))
    (hk : AllReturn n (fun r => k r (f r)) g) : AllReturn n (fun r => (p r).andThen (k r)) g := by
  unfold AllReturn at *
  have := Runs.andThen (k := (List.range n).map k) hp ((List.range n).map f) (by simp) (by simp)
    (g := (List.range n).map g) (by rw [List.zipWith_map, List.zipWith_self]; exact hk)
  rw [List.zipWith_map, List.zipWith_self] at this
  exact this

theorem AllReturn.forProg {E S I : Type} {n : ℕ} {body : ℕ → I → S → Prog V (Except E S)} (Inv : List I → (ℕ → S) → Prop)
    (hstep : ∀ done i s, Inv done s → ∃ s', AllReturn n (fun r => body r i (s r)) (fun r => .ok (s' r)) ∧ Inv (done ++ [i]) s') :
    ∀ (is done : List I) (s : ℕ → S), Inv done s →
      ∃ s', AllReturn n (fun r => Pmesh.forProg (body r) is (s r)) (fun r => .ok (s' r)) ∧ Inv (done ++ is) s'
  | [], done, s, h => ⟨s, AllReturn.ret n _, by simpa using h⟩
  | i :: is, done, s, h => by
    obtain ⟨s1, h1, h2⟩ := hstep done i s h
    obtain ⟨s2, h3, h4⟩ := AllReturn.forProg Inv hstep is _ s1 h2
    exact ⟨s2, AllReturn.andThen h1 h3, by simpa using h4⟩

theorem Runs.embed {W : Type} {f : V → W} {g : W → V} (hgf : ∀ v, g (f v) = v) {ps : List (Prog V R)} {rs : List R}
    (h : Runs ps rs) : Runs (ps.map (Prog.embed f g)) rs := by
  induction h with
  | done rs =>
    rw [List.map_map]
    exact .done rs
  | step op vs ks rs hlen hne h ih =>
    have e : (List.zipWith (Prog.coll op) vs ks).map (Prog.embed f g) = List.zipWith (Prog.coll op) (vs.map f)
        (ks.map fun k ws => (k (ws.map g)).embed f g) := by
      rw [List.map_zipWith, List.zipWith_map]
      rfl
    rw [e]
    refine .step op _ _ rs (by simpa using hlen) (by simpa using hne) ?_
    rw [List.map_map] at ih ⊢
    have : (vs.map f).map g = vs := by
      have h0 : g ∘ f = id := funext hgf
      rw [List.map_map, h0, List.map_id]
    rw [← this] at ih
    exact ih

theorem AllReturn.embed {W : Type} {f : V → W} {g : W → V} (hgf : ∀ v, g (f v) = v) {n : ℕ} {p : ℕ → Prog V R} {h : ℕ → R}
    (hp : AllReturn n p h) : AllReturn n (fun r => (p r).embed f g) h := by
  unfold AllReturn at *
  have := Runs.embed hgf hp
  rwa [List.map_map] at this

/-- Runs are deterministic. -/
theorem Runs.unique {ps : List (Prog V R)} {rs rs' : List R} (h : Runs ps rs) (h' : Runs ps rs') :
    rs = rs' := by
  induction h generalizing rs' with
  | done rs =>
    generalize hp : rs.map Prog.ret = ps at h'
    cases h' with
    | done rs' =>
      have hinj : Function.Injective (Prog.ret : R → Prog V R) := fun a b h => by injection h
      exact List.map_injective_iff.2 hinj hp
    | step op vs ks _ hlen hne h =>
      exfalso
      rcases vs with _ | ⟨v, vs⟩
      · simp at hne
      · rcases ks with _ | ⟨k, ks⟩
        · simp at hlen
        · rcases rs with _ | ⟨r, rs⟩
          · simp at hp
          · simp at hp
  | step op vs ks rs hlen hne h ih =>
    generalize hp : List.zipWith (Prog.coll op) vs ks = ps at h'
    cases h' with
    | done rs' =>
      exfalso
      rcases vs with _ | ⟨v, vs⟩
      · simp at hne
      · rcases ks with _ | ⟨k, ks⟩
        · simp at hlen
        · rcases rs' with _ | ⟨r, rs⟩
          · simp at hp
          · simp at hp
    | step op' vs' ks' _ hlen' hne' h' =>
      have key : ∀ (vs : List V) (ks : List (List V → Prog V R)) (vs' : List V)
          (ks' : List (List V → Prog V R)), ks.length = vs.length → ks'.length = vs'.length →
          List.zipWith (Prog.coll op) vs ks = List.zipWith (Prog.coll op') vs' ks' →
          vs = vs' ∧ ks = ks' := by
        intro vs
        induction vs with
        | nil =>
          intro ks vs' ks' h1 h2 h3
          have hk : ks = [] := by simpa using h1
          subst hk
          rcases vs' with _ | ⟨v', vs'⟩
          · have : ks' = [] := by simpa using h2
            exact ⟨rfl, this.symm⟩
          · rcases ks' with _ | ⟨k', ks'⟩
            · simp at h2
            · simp at h3
        | cons v vs ih =>
          intro ks vs' ks' h1 h2 h3
          rcases ks with _ | ⟨k, ks⟩
          · simp at h1
          rcases vs' with _ | ⟨v', vs'⟩
          · simp at h3
          rcases ks' with _ | ⟨k', ks'⟩
          · simp at h2
          simp only [List.zipWith_cons_cons, List.cons.injEq, Prog.coll.injEq] at h3
          obtain ⟨⟨_, rfl, rfl⟩, h4⟩ := h3
          obtain ⟨rfl, rfl⟩ := ih ks vs' ks' (by simpa using h1) (by simpa using h2) h4
          exact ⟨rfl, rfl⟩
      obtain ⟨rfl, rfl⟩ := key vs ks vs' ks' hlen hlen' hp
      exact ih h'

/-- Ranks where one has ended and another waits never end together. -/
theorem Deadlocks.of_mixed {n : ℕ} {p : ℕ → Prog V R} {a b : ℕ} (ha : a < n) (hb : b < n)
    {r : R} (hpa : p a = .ret r) {op : Coll} {v : V} {k : List V → Prog V R} (hpb : p b = .coll op v k) :
    Deadlocks n p := by
  intro rs h
  have hga : ((List.range n).map p)[a]? = some (.ret r) := by simp [ha, hpa]
  have hgb : ((List.range n).map p)[b]? = some (.coll op v k) := by simp [hb, hpb]
  generalize (List.range n).map p = ps at *
  cases h with
  | done rs =>
    rw [List.getElem?_map] at hgb
    rcases h : rs[b]? with _ | x
    · simp [h] at hgb
    · simp [h] at hgb
  | step op' vs ks rs hlen hne h =>
    rw [List.getElem?_zipWith] at hga
    rcases h1 : vs[a]? with _ | x <;> rcases h2 : ks[a]? with _ | y <;> simp [h1, h2] at hga

theorem Deadlocks.coll {n : ℕ} {op : Coll} {v : ℕ → V} {k : ℕ → List V → Prog V R} (hn : 0 < n)
    (h : Deadlocks n (fun r => k r ((List.range n).map v))) :
    Deadlocks n (fun r => .coll op (v r) (k r)) := by
  intro rs hr
  generalize hps : (List.range n).map (fun r => Prog.coll op (v r) (k r)) = ps at hr
  have hz : (List.range n).map (fun r => Prog.coll op (v r) (k r)) =
      List.zipWith (Prog.coll op) ((List.range n).map v) ((List.range n).map k) := by
    rw [List.zipWith_map, List.zipWith_self]
  cases hr with
  | done rs =>
    obtain ⟨m, rfl⟩ : ∃ m, n = m + 1 := ⟨n - 1, by omega⟩
    rw [List.range_succ_eq_map] at hps
    rcases rs with _ | ⟨a, rs⟩ <;> simp at hps
  | step op' vs ks rs hlen hne h' =>
    have e1 : vs = (List.range n).map v := by
      apply List.ext_getElem?
      intro i
      have := congrArg (·[i]?) hps
      simp only [List.getElem?_zipWith, List.getElem?_map] at this ⊢
      have hl := congrArg List.length hps
      simp only [List.length_map, List.length_range, List.length_zipWith] at hl
      rcases Nat.lt_or_ge i n with hi | hi
      · rw [List.getElem?_range hi, List.getElem?_eq_getElem (l := vs) (by omega),
          List.getElem?_eq_getElem (l := ks) (by omega)] at this
        rw [List.getElem?_range hi, List.getElem?_eq_getElem (l := vs) (by omega)]
        simp only [Option.map_some, Option.some.injEq, Prog.coll.injEq] at this ⊢
        exact this.2.1.symm
      · rw [List.getElem?_eq_none (l := vs) (by omega), List.getElem?_eq_none (by simpa using hi)]
        rfl
    have e2 : ks = (List.range n).map k := by
      apply List.ext_getElem?
      intro i
      have := congrArg (·[i]?) hps
      simp only [List.getElem?_zipWith, List.getElem?_map] at this ⊢
      have hl := congrArg List.length hps
      simp only [List.length_map, List.length_range, List.length_zipWith] at hl
      rcases Nat.lt_or_ge i n with hi | hi
      · rw [List.getElem?_range hi, List.getElem?_eq_getElem (l := vs) (by omega),
          List.getElem?_eq_getElem (l := ks) (by omega)] at this
        rw [List.getElem?_range hi, List.getElem?_eq_getElem (l := ks) (by omega)]
        simp only [Option.map_some, Option.some.injEq, Prog.coll.injEq] at this ⊢
        exact this.2.2.symm
      · rw [List.getElem?_eq_none (l := ks) (by omega), List.getElem?_eq_none (by simpa using hi)]
        rfl
    subst e1 e2
    rw [List.map_map] at h'
    exact h rs h'

end
end Pmesh
