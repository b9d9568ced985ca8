import Verif.Model.Daemon

/-
What users of the entropy daemon ask for.
-/

namespace Aiootp.Daemon

/-- The calls that are going on are calls of the two methods that were accepted, with delays up to `M`. -/
def Asked (M : Int) (calls : Nat → List Write) : Prop :=
  ∀ k, calls k = [] ∨ (∃ d duration, d ≤ M ∧ temporary d duration = .ok (calls k)) ∨ (∃ d, d ≤ M ∧ permanent d = .ok (calls k))

/-- A new object: entropy_daemon.py:53-68, with any calls to come. -/
def State.new (now d : Int) (calls : Nat → List Write) : State := { now := now, maxDelay := d, initial := d, calls := calls }

/-- Events that leave the attributes to the thread `i`: time passes, or the thread goes on. -/
def Alone (i : Nat) : Event → Prop
  | .tick _ => True
  | .daemon j _ => j = i
  | _ => False

/-- Events of a complete call. -/
def whole (k n : Nat) : List Event := List.replicate n (.call k)

end Aiootp.Daemon
