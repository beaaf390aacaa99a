import Verif.Lemmas.MeshSum

set_option linter.unusedSectionVars false

namespace Pmesh
section
variable {K : Type} [Field K] [LinearOrder K] [IsStrictOrderedRing K] [FloorRing K]

/-- Weight of particle `p` in local cell `c` of rank `r`. -/
def weightOn (m : PMesh K) (w : Resampler K) (g : Option ℕ) (r : ℕ) (p : Particle K) (c : List ℕ) : K :=
  cwProd (List.zipWith (axisStencil (m.painter w g r) p.hsml) (m.painter w g r).axes p.pos) c

/-- Value that rank `r` reads for particle `p`. -/
def readOn (m : PMesh K) (w : Resampler K) (g : Option ℕ) (field : ℤ → K) (r : ℕ) (p : Particle K) : K :=
  ((ndindex (shapeOf (m.painter w g r).axes)).map fun c =>
    weightOn m w g r p c * field (elemAddr (m.painter w g r).axes c)).sum

theorem sent_lt {n : ℕ} {lay : ℕ → Option Lay} {S : ℕ → ℕ → List ℕ} {len : ℕ → ℕ} (hlay : LayoutArg n len lay S)
    {q : ℕ} (hq : q < n) {r i : ℕ} (hi : i ∈ S q r) : i < len q := by
  cases hlay with
  | none =>
    dsimp only at hi
    split at hi
    · exact List.mem_range.1 hi
    · simp at hi
  | @layout L hL hlen =>
  have : i ∈ (L q).indices := by
    unfold Lay.sentIdx at hi
    exact List.mem_of_mem_drop (List.mem_of_mem_take hi)
  rw [← hlen q hq]
  exact hL.indices_lt q hq i this

theorem partAt_len {n d : ℕ} {pos : ℕ → List (List K)} (hpos : ∀ r < n, ∀ x ∈ pos r, x.length = d)
    (mass hsml : ℕ → Quant K) {q : ℕ} (hq : q < n) {i : ℕ} (hi : i < (pos q).length) :
    (partAt pos mass hsml q i).pos.length = d := by
  unfold partAt
  simp only
  rw [List.getD_eq_getElem _ _ hi]
  exact hpos q hq _ (List.getElem_mem _)

theorem received_len {n d : ℕ} {lay : ℕ → Option Lay} {S : ℕ → ℕ → List ℕ} {pos : ℕ → List (List K)}
    (hlay : LayoutArg n (fun q => (pos q).length) lay S) (hpos : ∀ r < n, ∀ x ∈ pos r, x.length = d)
    (mass hsml : ℕ → Quant K) (r : ℕ) :
    ∀ p ∈ (List.range n).flatMap (fun q => (S q r).map (partAt pos mass hsml q)), p.pos.length = d := by
  intro p hp
  obtain ⟨q, hq, hp⟩ := List.mem_flatMap.1 hp
  obtain ⟨i, hi, rfl⟩ := List.mem_map.1 hp
  rw [List.mem_range] at hq
  exact partAt_len hpos mass hsml hq (sent_lt hlay hq hi)

/-- The result of `paint` with any consistent layout. -/
theorem pmPaint_return {m : PMesh K} (hd : m.nmesh ≠ []) {w : Resampler K} (hw : w.Valid) (g : Option ℕ) (hold : Bool)
    {n : ℕ} (hn : 0 < n) {lay : ℕ → Option Lay} {S : ℕ → ℕ → List ℕ} {pos : ℕ → List (List K)}
    (hlay : LayoutArg n (fun q => (pos q).length) lay S) (hpos : ∀ r < n, ∀ x ∈ pos r, x.length = m.nmesh.length)
    {mass hsml : ℕ → Quant K} (hmass : QuantOK n (fun r => (pos r).length) mass)
    (hhsml : QuantOK n (fun r => (pos r).length) hsml) (out : ℕ → ℤ → K) :
    AllReturn n (fun r => pmPaint m w g hold r (lay r) (pos r) (mass r) (hsml r) (out r)) (fun r => .ok fun a =>
      (if hold then out r else fun _ => 0) a + (((List.range n).flatMap fun q =>
        (S q r).map (partAt pos mass hsml q)).map fun p => p.mass * unitDeposit (m.painter w g r) p a).sum) := by
  unfold pmPaint
  refine pmRoute_return m hn hlay hmass hhsml (R := Except MeshErr (ℤ → K)) (k := fun r e => match e with
    | .error e => .ret (.error e)
    | .ok ps =>
      match paint (m.painter w g r) (if hold then out r else fun _ => 0) ps with
      | none => .ret (.error .value)
      | some mem => .ret (.ok mem)) ?_
  refine AllReturn.congr (fun r hr => ?_) (fun _ _ => rfl) (AllReturn.ret n _)
  simp only
  rw [paint_eq _ (painter_valid hw hd g r) _ (fun p hp => by
    rw [painter_len]; exact received_len hlay hpos mass hsml r p hp) _]

theorem Msg.ofRows_toRows (v : Msg K) : Msg.ofRows (Msg.toRows v) = v := by
  cases v with
  | block b c o => simp [Msg.toRows, Msg.ofRows, Function.comp_def]
  | _ => rfl

theorem pmGather_return {n : ℕ} (hn : 0 < n) {L : ℕ → Lay} (hL : LayOK n L)
    {v : ℕ → List K} (hv : ∀ r < n, (v r).length = (L r).recvlength) :
    ∃ g : ℕ → List K, AllReturn n (fun r => pmGather r (L r) (v r)) (fun r => .ok (g r)) ∧
      (∀ r < n, (g r).length = (L r).sendlength) ∧
      ∀ q < n, ∀ i < (L q).sendlength, (g q).getD i 0 = ((List.range n).map fun r =>
        ((((L q).sentIdx r).zip ((L r).segment q (v r))).filter fun p => p.1 = i).map (·.2) |>.sum).sum := by
  obtain ⟨e, g, _, hg, hlen, _, hent⟩ := C05_adjoint n hn L hL [] (fun r => List.replicate (L r).sendlength 0)
    v (fun r hr => by simp) hv
  refine ⟨g, ?_, fun r hr => by simpa using (hlen r hr).2, hent⟩
  unfold pmGather
  apply AllReturn.embed Msg.ofRows_toRows
  have hu := hg
  set G : ℕ → List K := fun q => bincountw (L q).indices (backBuf n L v q) (L q).sendlength with hG
  have h1 : AllReturn n (fun r => gatherProg r (L r) [] .sum (v r) .ret)
      (fun r => gatherReduce (L r) .sum (backBuf n L v r)) :=
    gather_return hn hL [] (fun _ => .sum) (fun _ _ => by simp) hv (AllReturn.ret n _)
  have h2 : ∀ r < n, gatherReduce (L r) .sum (backBuf n L v r) = .ok ((g r).map some) := by
    have := Runs.unique h1 hg
    intro r hr
    exact (List.map_inj_left.1 this) r (List.mem_range.2 hr)
  refine gather_return hn hL [] (fun _ => .sum) (fun _ _ => by simp) hv (R := Except MeshErr (List K)) (k := fun r e => match e with
    | .error e => .ret (.error (.lay e))
    | .ok l =>
      match defined l with
      | none => .ret (.error .value)
      | some l => .ret (.ok l)) ?_
  refine AllReturn.congr (fun r hr => ?_) (fun _ _ => rfl) (AllReturn.ret n _)
  rw [h2 r hr]
  simp only [defined_map_some]

theorem filter_zip_sum (l : List ℕ) (f : ℕ → K) (i : ℕ) :
    (((l.zip (l.map f)).filter fun p => p.1 = i).map (·.2)).sum = (l.map fun j => if j = i then f j else 0).sum := by
  induction l with
  | nil => rfl
  | cons a l ih =>
    simp only [List.map_cons, List.zip_cons_cons, List.filter_cons, List.sum_cons]
    rw [← ih]
    by_cases h : a = i <;> simp [h]

theorem sum_pick {n i : ℕ} (hi : i < n) (f : ℕ → K) :
    ((List.range n).map fun j => if j = i then f j else 0).sum = f i := by
  rw [← filter_zip_sum, zip_self_map, List.filter_map, List.map_map]
  have := sum_filter_eq_of_nodup (List.range n) List.nodup_range f i
  rw [if_pos (List.mem_range.2 hi)] at this
  exact this

/-- The result of `readout` with any consistent layout. -/
theorem pmReadout_return {m : PMesh K} (hd : m.nmesh ≠ []) {w : Resampler K} (hw : w.Valid) (g : Option ℕ)
    {n : ℕ} (hn : 0 < n) {lay : ℕ → Option Lay} {S : ℕ → ℕ → List ℕ} {pos : ℕ → List (List K)}
    (hlay : LayoutArg n (fun q => (pos q).length) lay S) (hpos : ∀ r < n, ∀ x ∈ pos r, x.length = m.nmesh.length)
    {hsml : ℕ → Quant K} (hhsml : QuantOK n (fun r => (pos r).length) hsml) (field : ℕ → ℤ → K) :
    ∃ res : ℕ → List K,
      AllReturn n (fun r => pmReadout m w g r (lay r) (pos r) (hsml r) (field r)) (fun r => .ok (res r)) ∧
      (∀ q < n, (res q).length = (pos q).length) ∧
      ∀ q < n, ∀ i < (pos q).length, (res q).getD i 0 = ((List.range n).map fun r =>
        ((S q r).map fun j => if j = i then readOn m w g (field r) r (partAt pos (fun _ => .none) hsml q j)
          else 0).sum).sum := by
  have hmass : QuantOK n (fun r => (pos r).length) (fun _ => (.none : Quant K)) := Or.inl fun _ _ => rfl
  set val : ℕ → ℕ → ℕ → K := fun r q i => readOn m w g (field r) r (partAt pos (fun _ => .none) hsml q i) with hval
  cases hlay with
  | none =>
    refine ⟨fun q => (List.range (pos q).length).map (val q q), ?_, fun q _ => by simp, ?_⟩
    · unfold pmReadout
      refine pmRoute_return m hn .none hmass hhsml (R := Except MeshErr (List K)) (k := fun r e => match e with
        | .error e => .ret (.error e)
        | .ok ps =>
          match readout (m.painter w g r) (field r) ps with
          | none => .ret (.error .value)
          | some vals => .ret (.ok vals)) ?_
      refine AllReturn.congr (fun r hr => ?_) (fun _ _ => rfl) (AllReturn.ret n _)
      simp only
      rw [readout_eq _ (painter_valid hw hd g r) _ (fun p hp => by
        rw [painter_len]; exact received_len .none hpos (fun _ => .none) hsml r p hp) _]
      simp only
      have e : ∀ q, (if q = r then List.range (pos q).length else []).map (partAt pos (fun _ => .none) hsml q) =
          if q = r then (List.range (pos q).length).map (partAt pos (fun _ => .none) hsml q) else [] := by
        intro q; split <;> rfl
      simp only [e]
      rw [sum_own hr, List.map_map]
      rfl
    · intro q hq i hi
      simp only
      rw [getD_map_range _ _ _ _ hi]
      have e : ∀ r, ((if q = r then List.range (pos q).length else []).map fun j => if j = i then
          readOn m w g (field r) r (partAt pos (fun _ => .none) hsml q j) else 0).sum =
          if r = q then val r q i else 0 := by
        intro r
        by_cases h : q = r
        · rw [if_pos h, if_pos h.symm, sum_pick hi]
        · rw [if_neg h, if_neg (Ne.symm h)]; rfl
      simp only [e]
      rw [sum_pick hq]
  | @layout L hL hlen =>
  set vals : ℕ → List K := fun r => (List.range n).flatMap fun q => ((L q).sentIdx r).map (val r q) with hvals
  obtain ⟨res, hres, hlenr, hent⟩ := pmGather_return hn hL (v := vals) (fun r hr => received_length hL (val r) hr)
  refine ⟨res, ?_, fun q hq => by rw [hlenr q hq, hlen q hq], ?_⟩
  · unfold pmReadout
    refine pmRoute_return m hn (.layout hL hlen) hmass hhsml (R := Except MeshErr (List K)) (k := fun r e => match e with
      | .error e => .ret (.error e)
      | .ok ps =>
        match readout (m.painter w g r) (field r) ps with
        | none => .ret (.error .value)
          | some vals => pmGather r (L r) vals) ?_
    refine AllReturn.congr (fun r hr => ?_) (fun _ _ => rfl) hres
    simp only
    rw [readout_eq _ (painter_valid hw hd g r) _ (fun p hp => by
      rw [painter_len]; exact received_len (.layout hL hlen) hpos (fun _ => .none) hsml r p hp) _]
    simp only
    congr 1
    rw [hvals, List.map_flatMap]
    simp only [List.map_map]
    rfl
  · intro q hq i hi
    rw [hent q hq i (by rw [hlen q hq]; exact hi)]
    congr 1
    apply List.map_congr_left
    intro r hr
    rw [List.mem_range] at hr
    rw [hvals, segment_flatMap hL (val r) hq hr, filter_zip_sum]

end
end Pmesh
