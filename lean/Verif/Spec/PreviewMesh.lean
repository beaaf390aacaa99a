import Verif.Spec.Field

/-! # When `preview` paints and when it reads -/

namespace Pmesh

/-- The caller asks for `downsample`, or does not care and wants fewer cells along some axis. -/
def AsksDown (old new : List ℕ) (method : Option String) : Prop :=
  new ≠ old ∧ (method = some "downsample" ∨ method = none ∧ ∃ d < new.length, new.getD d 0 < old.getD d 0)

/-- The caller asks for `upsample`, or does not care and wants no fewer cells along any axis. -/
def AsksUp (old new : List ℕ) (method : Option String) : Prop :=
  new ≠ old ∧ (method = some "upsample" ∨ method = none ∧ ∀ d < new.length, old.getD d 0 ≤ new.getD d 0)

end Pmesh
