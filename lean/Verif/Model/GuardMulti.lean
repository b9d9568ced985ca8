import Verif.Model.Guard

/-
`aiootp/asynchs/guards/manager.py`: `MultiConcurrencyGaurd`, the guards of many targets.

A target is a number. A pair of deques has a number, too, which is new for each record. The blocks under `_resource_lock`
are atomic. The `PermissionError` of entering a managed guard again comes from `_set_deques` (concurrency_guard.py:219-226),
whose slots are write-once.
-/

namespace Aiootp.Guard

/-- manager.py:50-70 `TargetState`: the deques and the users of a target. -/
structure Record where
  inst : Nat
  users : List Nat
  deriving DecidableEq, Repr

/-- Where a managed guard is: not entered, between `_initialize_guard` and `_cleanup_references`, or past the latter. It keeps
the deques it got. -/
inductive Place where
  | out
  | inside (i : Nat) (pc : PC)
  | left (i : Nat) (pc : PC)
  deriving DecidableEq, Repr

/-- A `MultiConcurrencyGaurd` and the guards made from it. `fresh` is the number of the next new pair of deques. -/
structure Multi where
  records : Nat → Option Record
  deques : Nat → Deques
  fresh : Nat
  place : Nat → Place

/-- manager.py:413-419 `__init__`. -/
def Multi.init : Multi := ⟨fun _ => none, fun _ => ⟨[], []⟩, 0, fun _ => .out⟩

/-- `self.targets[target]` (manager.py:87-103 `DefaultDictOfStates`): a missing record is made. -/
def Multi.record (s : Multi) (t : Nat) : Record :=
  match s.records t with
  | some r => r
  | none => ⟨s.fresh, []⟩

/-- manager.py:468-469 `self.targets[target].users.append(guard)`. -/
def Multi.addUser (s : Multi) (t g : Nat) : Multi :=
  let r := s.record t
  { s with
    records := fun u => if u = t then some { r with users := r.users ++ [g] } else s.records u
    fresh := if s.records t = none then s.fresh + 1 else s.fresh }

/-- manager.py:600-611 `_cleanup_references`; an empty `users` deque raises and leaves the record. -/
def Multi.cleanup (s : Multi) (t : Nat) : Multi :=
  let r := s.record t
  let users := r.users.tail
  let d := s.deques r.inst
  { s with
    records := fun u =>
      if u = t then (if users ≠ [] ∨ d.queue ≠ [] ∨ d.observers ≠ [] ∨ r.users = [] then some { r with users := users } else none)
      else s.records u
    fresh := if s.records t = none then s.fresh + 1 else s.fresh }

/-- The guard has ended in `__enter__` or `__exit__`, so that the manager is told (manager.py:288-293, 341-345). A task
cancelled while waiting is not among them: `except Exception` does not catch `CancelledError`. -/
def isOver : PC → Bool
  | .done | .failed | .broken | .lostLeaving => true
  | _ => false

/-- One event. `target` and `exclusive` are given when a guard is made (manager.py:485-585). -/
def Multi.next (exclusive : Nat → Bool) (target : Nat → Nat) (s : Multi) : Event → Multi
  | .step g =>
    match s.place g with
    | .out =>
      let s' := s.addUser (target g) g
      { s' with place := fun h => if h = g then .inside (s.record (target g)).inst .idle else s.place h }
    | .inside i pc =>
      if isOver pc then
        let s' := s.cleanup (target g)
        { s' with place := fun h => if h = g then .left i pc else s.place h }
      else
        let r := move exclusive g false (s.deques i) pc
        { s with
          deques := fun j => if j = i then r.1 else s.deques j
          place := fun h => if h = g then .inside i r.2.1 else s.place h }
    | .left _ _ => s
  | .reenter g =>
    match s.place g with
    | .out => s
    | _ => s.addUser (target g) g
  | .cancel g =>
    match s.place g with
    | .inside i pc => { s with place := fun h => if h = g then .inside i (cancelled pc) else s.place h }
    | _ => s

/-- A schedule. -/
def Multi.run (exclusive : Nat → Bool) (target : Nat → Nat) (s : Multi) : List Event → Multi
  | [] => s
  | e :: es => (s.next exclusive target e).run exclusive target es

end Aiootp.Guard
