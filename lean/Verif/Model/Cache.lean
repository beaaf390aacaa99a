import Mathlib.Logic.Function.Basic
import Mathlib.Data.Nat.Notation

/-!
# Model of the cache of plans of `ParticleMesh`, pmesh/pm.py:1228-1236, 1364-1383, 1480-1485

Each rank has its own `_pm_cache`, a dictionary that does not keep its values alive.  Objects die at different times on different
ranks.  Keys are an address and parameters: the address stands for `MPI._addressof(comm)`, the parameters for the rest of
`_cache_args`.  A template is named by the number of the construction that made it, so templates on different ranks have the same
name exactly if the same construction made them.
-/

namespace Pmesh

/-- A live `ParticleMesh`: it holds its communicator object (pm.py:1313) and its template (pm.py:1483). -/
structure LivePm where
  addr : ℕ
  comm : ℕ
  params : ℕ
  tmpl : ℕ
deriving DecidableEq, Repr

/-- A construction under way: the local variables of `__init__`. -/
structure Building where
  addr : ℕ
  comm : ℕ
  params : ℕ
  tmpl : Option ℕ
  decided : Bool
deriving DecidableEq, Repr

/-- The part of a rank's memory that matters. `handles` are the communicator objects that the program holds, as address and
communicator. -/
structure CacheRank where
  handles : List (ℕ × ℕ) := []
  pms : List LivePm := []
  cache : ℕ × ℕ → Option ℕ := fun _ => none
  building : Option Building := none

/-- The template is referred to by an object or a local variable. -/
def CacheRank.Holds (R : CacheRank) (m : LivePm) : Prop :=
  m ∈ R.pms ∨ ∃ d, R.building = some ⟨m.addr, m.comm, m.params, some m.tmpl, d⟩

/-- The communicator object of communicator `c` at address `a` is referred to. -/
def CacheRank.Live (R : CacheRank) (a c : ℕ) : Prop :=
  (a, c) ∈ R.handles ∨ (∃ m ∈ R.pms, m.addr = a ∧ m.comm = c) ∨ ∃ b, R.building = some b ∧ b.addr = a ∧ b.comm = c

/-- `_pm_cache.get(_cache_args, None)`, pm.py:1377: the entry, unless its template is dead. -/
def CacheRank.Found (R : CacheRank) (key : ℕ × ℕ) (t : Option ℕ) : Prop :=
  (∃ m, R.Holds m ∧ R.cache key = some m.tmpl ∧ t = some m.tmpl) ∨
  (t = none ∧ ∀ m, R.Holds m → R.cache key ≠ some m.tmpl)

/-- All ranks, and the communicator and parameters of the constructions that made templates, in order. -/
structure CacheState where
  rank : ℕ → CacheRank
  made : List (ℕ × ℕ)

/-- Rank `r` changes its memory. -/
def CacheState.set (s : CacheState) (r : ℕ) (R : CacheRank) : CacheState := ⟨Function.update s.rank r R, s.made⟩

/-- One step of one rank, or one collective step.  `members c` are the ranks of communicator `c`.  With `oneHandle` a rank has at
most one live object for a communicator. -/
inductive CacheStep (members : ℕ → List ℕ) (oneHandle : Bool) : CacheState → CacheState → Prop
  /-- The program on rank `r` gets a communicator object; its address is not that of another live object. -/
  | openComm (s : CacheState) (r a c : ℕ) (hr : r ∈ members c) (ha : ∀ c', ¬ (s.rank r).Live a c')
      (hc : oneHandle = true → ∀ a', ¬ (s.rank r).Live a' c) :
      CacheStep members oneHandle s (s.set r { s.rank r with handles := (a, c) :: (s.rank r).handles })
  /-- The program on rank `r` drops a communicator object. -/
  | closeComm (s : CacheState) (r : ℕ) (h : ℕ × ℕ) :
      CacheStep members oneHandle s (s.set r { s.rank r with handles := (s.rank r).handles.erase h })
  /-- A `ParticleMesh` is collected on rank `r`. -/
  | collect (s : CacheState) (r : ℕ) (m : LivePm) :
      CacheStep members oneHandle s (s.set r { s.rank r with pms := (s.rank r).pms.erase m })
  /-- Rank `r` enters `__init__` and looks into its cache, pm.py:1373-1377. -/
  | lookup (s : CacheState) (r a c p : ℕ) (t : Option ℕ) (hb : (s.rank r).building = none) (hl : (s.rank r).Live a c)
      (ht : (s.rank r).Found (a, p) t) :
      CacheStep members oneHandle s (s.set r { s.rank r with building := some ⟨a, c, p, t, false⟩ })
  /-- `hastemplate = comm.allgather(template is not None)`: all ranks found a template and keep it, pm.py:1379-1386. -/
  | reuse (s s' : CacheState) (c p : ℕ)
      (hall : ∀ r ∈ members c, ∃ a t, (s.rank r).building = some ⟨a, c, p, some t, false⟩ ∧
        s'.rank r = { s.rank r with building := some ⟨a, c, p, some t, true⟩ })
      (hrest : ∀ r, r ∉ members c → s'.rank r = s.rank r) (hmade : s'.made = s.made) :
      CacheStep members oneHandle s s'
  /-- Some rank found none, so all make new plans, pm.py:1380-1383, 1391, 1480-1481. -/
  | create (s s' : CacheState) (c p : ℕ)
      (hall : ∀ r ∈ members c, ∃ a t, (s.rank r).building = some ⟨a, c, p, t, false⟩ ∧
        s'.rank r = { s.rank r with building := some ⟨a, c, p, some s.made.length, true⟩ })
      (hsome : ∃ r ∈ members c, ∃ b, (s.rank r).building = some b ∧ b.tmpl = none)
      (hrest : ∀ r, r ∉ members c → s'.rank r = s.rank r) (hmade : s'.made = s.made ++ [(c, p)]) :
      CacheStep members oneHandle s s'
  /-- `_pm_cache[_cache_args] = template` and return, pm.py:1483-1485. -/
  | finish (s : CacheState) (r a c p t : ℕ) (hb : (s.rank r).building = some ⟨a, c, p, some t, true⟩) :
      CacheStep members oneHandle s (s.set r { s.rank r with cache := Function.update (s.rank r).cache (a, p) (some t), pms := ⟨a, c, p, t⟩ :: (s.rank r).pms, building := none })

/-- The states of all executions. -/
inductive CacheReach (members : ℕ → List ℕ) (oneHandle : Bool) : CacheState → Prop
  | start : CacheReach members oneHandle ⟨fun _ => {}, []⟩
  | step {s s' : CacheState} (h : CacheReach members oneHandle s) (hs : CacheStep members oneHandle s s') : CacheReach members oneHandle s'

end Pmesh
