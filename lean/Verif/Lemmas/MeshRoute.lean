import Verif.Lemmas.MeshDomain

set_option linter.unusedSectionVars false

namespace Pmesh
open Classical
section
variable {K : Type} [Field K] [LinearOrder K] [IsStrictOrderedRing K] [FloorRing K]

theorem flagsAgree_of_plain {m : PMesh K} (hm : m.OK) (hp : m.PlainRanks) {a : List ℕ} (hal : a.length = m.shape.prod)
    (ho : ∀ r < m.nrank, a[cOrder m.shape (m.coord r)]? = some r) (har : ∀ r ∈ a, r < m.nrank) :
    (m.gridWith a).FlagsAgree := by
  rcases hp with hp | hp
  · apply flagsAgree_nonempty (m.gridWith a) (grid_of_mesh_ok hm hal har)
    · rintro D hD ⟨j, hj, he⟩
      rw [gridWith_ndim hm] at hj
      unfold Grid.IsDomain at hD
      rw [gridWith_shape, validIndex_iff] at hD
      have h1 := hD.2 j (by simpa [PMesh.shape, hm.edges_len] using hj)
      rw [PMesh.shape, getD_map' _ _ [] _ _ (by rw [hm.edges_len]; exact hj)] at h1
      unfold Grid.hi Grid.lo at he
      rw [gridWith_edge hm a hj (by omega), gridWith_edge hm a hj (by omega)] at he
      have he' : (m.edges.getD j []).getD (D.getD j 0 + 1) 0 = (m.edges.getD j []).getD (D.getD j 0) 0 := by
        exact_mod_cast he
      have hmem : m.edges.getD j [] ∈ m.edges := by
        rw [List.getD_eq_getElem _ _ (by rw [hm.edges_len]; exact hj)]; exact List.getElem_mem _
      have := List.pairwise_iff_getElem.1 (hp _ hmem) (D.getD j 0) (D.getD j 0 + 1) (by omega) (by omega) (by omega)
      have e1 : ∀ (e : List ℕ) (i : ℕ) (hi : i < e.length), e.getD i 0 = e[i] := fun e i hi => List.getD_eq_getElem _ _ hi
      rw [e1 _ (D.getD j 0 + 1) (by omega), e1 _ (D.getD j 0) (by omega)] at he'
      omega
    · change m.nrank ≤ _
      rw [gridWith_shape]
      exact hm.ranks.le
  · apply flagsAgree_identity
    change a = List.range a.length
    apply List.ext_getElem
    · simp
    · intro k h1 h2
      have hk : k < m.nrank := by rw [hm.ranks, ← hal]; exact h1
      have := ho k hk
      rw [hp k hk] at this
      rw [(List.getElem?_eq_some_iff.1 this).2]; simp

theorem smoothingFits_of_halo {m : PMesh K} (hm : m.OK) {sm : List K} (hh : m.HaloFits sm) (a : List ℕ) :
    (m.gridWith a).SmoothingFits sm := by
  intro j hj d hd
  rw [gridWith_ndim hm] at hj
  rw [gridWith_axis hm a hj] at hd
  simp only [List.length_map] at hd
  rw [gridWith_edge hm a hj (by omega), gridWith_edge hm a hj (by omega), gridWith_box hm a hj]
  have hle := (hm.slab hj).mono (a := d) (b := d + 1) (by omega) (by omega)
  rcases hh j hj d hd with h | h
  · left
    push_cast [Nat.cast_sub hle] at h
    linarith
  · right
    have h' : (((m.edges.getD j []).getD (d + 1) 0 - (m.edges.getD j []).getD d 0 : ℕ) : K) =
      ((m.nmesh.getD j 0 : ℕ) : K) := by exact_mod_cast h
    rwa [Nat.cast_sub hle] at h'

/-- Particle `i` of rank `q`. -/
def partAt (pos : ℕ → List (List K)) (mass hsml : ℕ → Quant K) (q i : ℕ) : Particle K :=
  ⟨(pos q).getD i [], (mass q).at i, (hsml q).at i⟩

theorem exchangeRows_return {R : Type} {n : ℕ} (hn : 0 < n) {L : ℕ → Lay} (hL : LayOK n L) (shp : List ℕ)
    {data : ℕ → List (List K)} (hd : ∀ r < n, (data r).length = (L r).sendlength)
    {k : ℕ → Except MeshErr (List (List K)) → Prog (Msg (List K)) R} {f : ℕ → R}
    (h : AllReturn n (fun r => k r (.ok ((List.range n).flatMap fun q =>
      ((L q).sentIdx r).map fun i => (data q).getD i []))) f) :
    AllReturn n (fun r => exchangeRows r (L r) shp (data r) (k r)) f := by
  unfold exchangeRows
  refine exchangeOne_return hn hL shp hd (k := fun r e => match e with
    | .error e => k r (.error (.lay e))
    | .ok out =>
      match defined out with
      | none => k r (.error (.lay .mpi))
      | some l => k r (.ok l)) ?_
  refine AllReturn.congr (fun r hr => ?_) (fun _ _ => rfl) h
  have e : ((List.range n).flatMap fun q => ((L q).sentIdx r).map fun i => (data q)[i]?) =
      ((List.range n).flatMap fun q => ((L q).sentIdx r).map fun i => (data q).getD i []).map some := by
    rw [List.map_flatMap]
    unfold List.flatMap
    congr 1
    apply List.map_congr_left
    intro q hq
    rw [List.map_map]
    apply List.map_congr_left
    intro i hi
    have hqn := List.mem_range.1 hq
    have : i ∈ (L q).indices := by
      unfold Lay.sentIdx at hi
      exact List.mem_of_mem_drop (List.mem_of_mem_take hi)
    have hi' := hL.indices_lt q hqn i this
    have hd' := hd q hqn
    rw [List.getElem?_eq_getElem (by omega)]
    simp only [Function.comp]
    rw [List.getD_eq_getElem _ _ (by omega)]
  simp only [e, defined_map_some]

theorem replicate_flatMap {α : Type*} (l : List ℕ) (s : ℕ → List ℕ) (a : α) (g : ℕ → ℕ → α)
    (hg : ∀ p ∈ l, ∀ i ∈ s p, g p i = a) :
    List.replicate (l.flatMap s).length a = l.flatMap fun p => (s p).map (g p) := by
  symm
  rw [List.eq_replicate_iff]
  refine ⟨by simp [List.length_flatMap], fun b hb => ?_⟩
  obtain ⟨p, hp, hb⟩ := List.mem_flatMap.1 hb
  obtain ⟨i, hi, rfl⟩ := List.mem_map.1 hb
  exact hg p hp i hi

/-- What an argument is after the exchange. -/
theorem exchangeQuant_return {R : Type} {n : ℕ} (hn : 0 < n) {L : ℕ → Lay} (hL : LayOK n L)
    {q : ℕ → Quant K} (hq : QuantOK n (fun r => (L r).sendlength) q)
    {k : ℕ → Except MeshErr (Quant K) → Prog (Msg (List K)) R} {f : ℕ → R}
    (h : ∀ q' : ℕ → Quant K, (∀ r < n, (q' r).toArray ((List.range n).flatMap fun p => (L p).sentIdx r).length =
        some ((List.range n).flatMap fun p => ((L p).sentIdx r).map fun i => (q p).at i)) →
      AllReturn n (fun r => k r (.ok (q' r))) f) :
    AllReturn n (fun r => exchangeQuant r (L r) (q r) (k r)) f := by
  rcases hq with hq | ⟨a, hq⟩ | hq
  · have h1 := h (fun _ => .none) (fun r hr => by
      simp only [Quant.toArray, Option.some.injEq]
      exact replicate_flatMap _ _ _ _ fun p hp i _ => by rw [hq p (List.mem_range.1 hp)]; rfl)
    refine AllReturn.congr (fun r hr => ?_) (fun _ _ => rfl) h1
    rw [hq r hr]; rfl
  · have h1 := h (fun _ => .scalar a) (fun r hr => by
      simp only [Quant.toArray, Option.some.injEq]
      exact replicate_flatMap _ _ _ _ fun p hp i _ => by rw [hq p (List.mem_range.1 hp)]; rfl)
    refine AllReturn.congr (fun r hr => ?_) (fun _ _ => rfl) h1
    rw [hq r hr]; rfl
  · set l : ℕ → List K := fun r => match q r with
      | .array l => l
      | _ => [] with hl
    have hql : ∀ r < n, q r = .array (l r) ∧ (l r).length = (L r).sendlength := by
      intro r hr
      obtain ⟨l', h1, h2⟩ := hq r hr
      simp only [hl, h1, h2, and_self]
    refine AllReturn.congr (p' := fun r => exchangeRows r (L r) [] ((l r).map fun a => [a]) fun
      | .error e => k r (.error e)
      | .ok rows => k r (.ok (.array (rows.map fun row => row.headD 0)))) (fun r hr => ?_) (fun _ _ => rfl) ?_
    · rw [(hql r hr).1]; rfl
    refine exchangeRows_return hn hL [] (data := fun r => (l r).map fun a => [a])
      (fun r hr => by simpa using (hql r hr).2) (k := fun r e => match e with
        | .error e => k r (.error e)
        | .ok rows => k r (.ok (.array (rows.map fun row => row.headD 0)))) ?_
    apply h (fun r => .array (((List.range n).flatMap fun p =>
      ((L p).sentIdx r).map fun i => ((l p).map fun a => [a]).getD i []).map fun row => row.headD 0))
    intro r hr
    simp only [Quant.toArray]
    rw [if_pos (by simp [List.length_flatMap])]
    congr 1
    rw [List.map_flatMap]
    unfold List.flatMap
    congr 1
    apply List.map_congr_left
    intro p hp
    rw [List.map_map]
    apply List.map_congr_left
    intro i hi
    have hpn := List.mem_range.1 hp
    have : i ∈ (L p).indices := by
      unfold Lay.sentIdx at hi
      exact List.mem_of_mem_drop (List.mem_of_mem_take hi)
    have hi' := hL.indices_lt p hpn i this
    rw [(hql p hpn).1]
    simp only [Function.comp, Quant.at]
    rw [getD_map' _ _ 0 _ _ (by rw [(hql p hpn).2]; exact hi')]
    rfl

theorem mkParticles_eq {n : ℕ} (s : ℕ → List ℕ) (pos : ℕ → List (List K)) (mass hsml : ℕ → Quant K) (m' h' : Quant K)
    (hm : m'.toArray ((List.range n).flatMap s).length =
      some ((List.range n).flatMap fun p => (s p).map fun i => (mass p).at i))
    (hh : h'.toArray ((List.range n).flatMap s).length =
      some ((List.range n).flatMap fun p => (s p).map fun i => (hsml p).at i)) :
    mkParticles ((List.range n).flatMap fun q => (s q).map fun i => (pos q).getD i []) m' h' =
      some ((List.range n).flatMap fun q => (s q).map (partAt pos mass hsml q)) := by
  unfold mkParticles
  have hl : ((List.range n).flatMap fun q => (s q).map fun i => (pos q).getD i []).length =
      ((List.range n).flatMap s).length := by simp [List.length_flatMap]
  rw [hl, hm, hh]
  simp only [Option.bind_eq_bind, Option.bind_some, Option.pure_def, Option.some.injEq]
  have key : ∀ (α β : Type) (f : ℕ → ℕ → α) (g : ℕ → ℕ → β) (l : List ℕ),
      (l.flatMap fun q => (s q).map (f q)).zip (l.flatMap fun q => (s q).map (g q)) =
      l.flatMap fun q => (s q).map fun i => (f q i, g q i) := by
    intro α β f g l
    induction l with
    | nil => rfl
    | cons a l ih =>
      rw [List.flatMap_cons, List.flatMap_cons, List.flatMap_cons, List.zip_append (by simp), ih]
      congr 1
      rw [List.zip_map']
  rw [key]
  have e : ∀ (α β γ : Type) (h : α → β → γ) (l : List α) (l' : List β), List.zipWith h l l' =
      (l.zip l').map fun p => h p.1 p.2 := by
    intro α β γ h l l'
    rw [List.zip_eq_zipWith, List.map_zipWith]
  rw [e, key, List.map_flatMap]
  unfold List.flatMap
  congr 1
  apply List.map_congr_left
  intro q _
  rw [List.map_map]
  rfl

/-- What `decompose` returns, with a smoothing that may differ between the ranks. -/
theorem pmDecompose_return_ranks {m : PMesh K} (hm : m.OK) (hn : 0 < m.nrank) (hp : m.PlainRanks) {sm : ℕ → List K}
    (hsm : ∀ r < m.nrank, m.SmoothingOK (sm r)) (hh : ∀ r < m.nrank, m.HaloFits (sm r)) {pos : ℕ → List (List K)}
    (hpos : ∀ r < m.nrank, ∀ x ∈ pos r, x.length = m.nmesh.length) :
    ∃ (a : List ℕ) (L : ℕ → Lay), (∀ r < m.nrank, a[cOrder m.shape (m.coord r)]? = some r) ∧ LayOK m.nrank L ∧
      (∀ q < m.nrank, (L q).sendlength = (pos q).length ∧ ∀ r < m.nrank, (L q).sentIdx r =
        (List.range (pos q).length).filter fun i =>
          decide ((m.gridWith a).Reaches (sm q) (m.toGrid ((pos q).getD i [])) r)) ∧
      AllReturn m.nrank (fun r => pmDecompose m (sm r) r (pos r)) (fun r => .ok (L r)) := by
  obtain ⟨a, hdom, hal, ho, har⟩ := domain_eq hm hn
  set g := m.gridWith a with hg
  have hdom' : m.domain = some g := hdom
  have hgok : GridOK g := grid_of_mesh_ok hm hal har
  have hflag : g.FlagsAgree := flagsAgree_of_plain hm hp hal ho har
  set send : ℕ → ℕ → List ℕ := fun q r => (List.range (pos q).length).filter fun i =>
    decide (g.Reaches (sm q) (m.toGrid ((pos q).getD i [])) r) with hsend
  have hdec : ∀ q < m.nrank, decompose g (sm q) ((pos q).map m.toGrid) = .ok ⟨(pos q).length,
      (List.range m.nrank).map fun r => (send q r).length, ((List.range m.nrank).flatMap (send q)).map some⟩ := by
    intro q hq
    rw [C04_decompose g hgok rfl hflag (sm q) (by rw [gridWith_ndim hm]; exact (hsm q hq).len)
      (hsm q hq).nonneg
      (smoothingFits_of_halo hm (hh q hq) a)]
    · simp only [List.length_map]
      have e : ∀ r, ((List.range (pos q).length).filter fun i =>
          decide (g.Reaches (sm q) (((pos q).map m.toGrid).getD i []) r)) = send q r := by
        intro r
        apply List.filter_congr
        intro i hi
        rw [getD_map' _ _ [] _ _ (List.mem_range.1 hi)]
      simp only [e]
      rfl
    · intro x hx
      obtain ⟨x', hx', rfl⟩ := List.mem_map.1 hx
      rw [gridWith_ndim hm]
      simp [PMesh.toGrid, PMesh.scale, hm.box_len, hpos q hq x' hx']
  set L : ℕ → Lay := fun r => ⟨(pos r).length, (List.range m.nrank).map fun t => (send r t).length,
    (List.range m.nrank).map (fun q => ((List.range m.nrank).map fun t => (send q t).length).getD r 0),
    offsetsOf ((List.range m.nrank).map fun t => (send r t).length),
    offsetsOf ((List.range m.nrank).map (fun q => ((List.range m.nrank).map fun t => (send q t).length).getD r 0)),
    ((List.range m.nrank).map (fun q => ((List.range m.nrank).map fun t => (send q t).length).getD r 0)).sum,
    (List.range m.nrank).flatMap (send r)⟩ with hLdef
  have hL : LayOK m.nrank L := {
    counts_length := fun r _ => by simp [hLdef]
    recvcounts := fun r _ => rfl
    sendoffsets := fun r _ => rfl
    recvoffsets := fun r _ => rfl
    recvlength := fun r _ => rfl
    indices_length := fun r _ => by simp [hLdef, List.length_flatMap]
    indices_lt := fun r hr i hi => by
      obtain ⟨t, ht, hi⟩ := List.mem_flatMap.1 hi
      exact List.mem_range.1 (List.mem_filter.1 hi).1 }
  have hsent : ∀ q < m.nrank, ∀ r < m.nrank, (L q).sentIdx r = send q r := by
    intro q hq r hr
    exact sentIdx_blocks m.nrank (send q) rfl rfl hr
  refine ⟨a, L, ho, hL, fun q hq => ⟨rfl, hsent q hq⟩, ?_⟩
  unfold pmDecompose
  simp only [hdom']
  refine AllReturn.congr (p' := fun r => layoutInit m.nrank r (pos r).length
    ((List.range m.nrank).map fun t => (send r t).length) ((List.range m.nrank).flatMap (send r)) fun
      | .error e => .ret (.error (.lay e))
      | .ok lay => .ret (.ok lay)) (fun r hr => ?_) (fun _ _ => rfl) ?_
  · simp only [hdec r hr, defined_map_some]
    rfl
  apply layoutInit_return hn
  · intro r _; simp
  exact AllReturn.ret m.nrank _

/-- What `decompose` returns. -/
theorem pmDecompose_return {m : PMesh K} (hm : m.OK) (hn : 0 < m.nrank) (hp : m.PlainRanks) {sm : List K}
    (hsm : m.SmoothingOK sm) (hh : m.HaloFits sm) {pos : ℕ → List (List K)}
    (hpos : ∀ r < m.nrank, ∀ x ∈ pos r, x.length = m.nmesh.length) :
    ∃ (a : List ℕ) (L : ℕ → Lay), (∀ r < m.nrank, a[cOrder m.shape (m.coord r)]? = some r) ∧ LayOK m.nrank L ∧
      (∀ q < m.nrank, (L q).sendlength = (pos q).length ∧ ∀ r < m.nrank, (L q).sentIdx r =
        (List.range (pos q).length).filter fun i =>
          decide ((m.gridWith a).Reaches sm (m.toGrid ((pos q).getD i [])) r)) ∧
      AllReturn m.nrank (fun r => pmDecompose m sm r (pos r)) (fun r => .ok (L r)) :=
  pmDecompose_return_ranks hm hn hp (fun _ _ => hsm) (fun _ _ => hh) hpos

theorem sum_own {α : Type*} {n r : ℕ} (hr : r < n) (f : ℕ → List α) :
    ((List.range n).flatMap fun q => if q = r then f q else []) = f r := by
  induction n with
  | zero => omega
  | succ n ih =>
    rw [List.range_succ, List.flatMap_append, List.flatMap_singleton]
    by_cases h : n = r
    · subst h
      have : ((List.range n).flatMap fun q => if q = n then f q else []) = [] := by
        rw [List.flatMap_eq_nil_iff]
        intro q hq
        rw [if_neg (by have := List.mem_range.1 hq; omega)]
      rw [this]; simp
    · rw [ih (by omega), if_neg h, List.append_nil]

theorem toArray_own {n : ℕ} {len : ℕ → ℕ} {q : ℕ → Quant K} (hq : QuantOK n len q) {r : ℕ} (hr : r < n) :
    (q r).toArray (len r) = some ((List.range (len r)).map fun i => (q r).at i) := by
  rcases hq with hq | ⟨a, hq⟩ | hq
  · rw [hq r hr]
    simp only [Quant.toArray, Quant.at, List.map_const', List.length_range]
  · rw [hq r hr]
    simp only [Quant.toArray, Quant.at, List.map_const', List.length_range]
  · obtain ⟨l, h1, h2⟩ := hq r hr
    rw [h1]
    simp only [Quant.toArray, h2, if_true, Option.some.injEq, Quant.at]
    apply List.ext_getElem
    · simp [h2]
    · intro i a b
      simp [List.getElem?_eq_getElem a]

/-- What arrives where. -/
theorem pmRoute_return (m : PMesh K) {n : ℕ} (hn : 0 < n) {lay : ℕ → Option Lay} {S : ℕ → ℕ → List ℕ}
    {pos : ℕ → List (List K)} (hlay : LayoutArg n (fun q => (pos q).length) lay S)
    {mass hsml : ℕ → Quant K} (hmass : QuantOK n (fun r => (pos r).length) mass)
    (hhsml : QuantOK n (fun r => (pos r).length) hsml)
    {R : Type} {k : ℕ → Except MeshErr (List (Particle K)) → Prog (Msg (List K)) R} {f : ℕ → R}
    (hk : AllReturn n (fun r => k r (.ok ((List.range n).flatMap fun q =>
          (S q r).map (partAt pos mass hsml q)))) f) :
    AllReturn n (fun r => pmRoute m r (lay r) (pos r) (mass r) (hsml r) (k r)) f := by
  cases hlay with
  | none =>
    refine AllReturn.congr (fun r hr => ?_) (fun _ _ => rfl) hk
    have e : ∀ q, (if q = r then List.range (pos q).length else []).map (partAt pos mass hsml q) =
        if q = r then (List.range (pos q).length).map (partAt pos mass hsml q) else [] := by
      intro q; split <;> rfl
    simp only [e]
    rw [sum_own hr]
    unfold pmRoute mkParticles
    rw [toArray_own hmass hr, toArray_own hhsml hr]
    simp only [Option.bind_eq_bind, Option.bind_some, Option.pure_def]
    congr 2
    rw [List.zip_map']
    apply List.ext_getElem
    · simp
    · intro i a b
      simp at a
      simp [partAt, a]
  | @layout L hL hlen =>
    have hq : ∀ q : ℕ → Quant K, QuantOK n (fun r => (pos r).length) q → QuantOK n (fun r => (L r).sendlength) q := by
      rintro q (h | h | h)
      · exact Or.inl h
      · exact Or.inr (Or.inl h)
      · refine Or.inr (Or.inr fun r hr => ?_)
        obtain ⟨l, h1, h2⟩ := h r hr
        exact ⟨l, h1, by rw [h2]; exact (hlen r hr).symm⟩
    unfold pmRoute
    refine exchangeRows_return (L := L) hn hL [m.nmesh.length] (data := pos) (fun r hr => (hlen r hr).symm) (k := fun r e =>
        match e with
          | .error e => k r (.error e)
          | .ok localpos => exchangeQuant r (L r) (mass r) fun
            | .error e => k r (.error e)
            | .ok localmass => exchangeQuant r (L r) (hsml r) fun
              | .error e => k r (.error e)
              | .ok localhsml =>
                match mkParticles localpos localmass localhsml with
                | none => k r (.error .value)
                | some ps => k r (.ok ps)) ?_
    refine exchangeQuant_return (L := L) hn hL (hq _ hmass) (k := fun r e => match e with
            | .error e => k r (.error e)
            | .ok localmass => exchangeQuant r (L r) (hsml r) fun
              | .error e => k r (.error e)
              | .ok localhsml =>
                match mkParticles ((List.range n).flatMap fun q =>
                    ((L q).sentIdx r).map fun i => (pos q).getD i []) localmass localhsml with
                | none => k r (.error .value)
                | some ps => k r (.ok ps)) ?_
    intro m' hm'
    refine exchangeQuant_return (L := L) hn hL (hq _ hhsml) (k := fun r e => match e with
              | .error e => k r (.error e)
              | .ok localhsml =>
                match mkParticles ((List.range n).flatMap fun q =>
                    ((L q).sentIdx r).map fun i => (pos q).getD i []) (m' r) localhsml with
                | none => k r (.error .value)
                | some ps => k r (.ok ps)) ?_
    intro h' hh'
    refine AllReturn.congr (fun r hr => ?_) (fun _ _ => rfl) hk
    simp only [mkParticles_eq _ pos mass hsml (m' r) (h' r) (hm' r hr) (hh' r hr)]

end
end Pmesh
