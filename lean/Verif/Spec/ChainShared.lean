import Verif.Model.ChainShared

/-
What it means that calls on a shared permutation object act as if they had been made one after another.
-/

namespace Aiootp.ChainShared

open Perm

/-- What the plain call gives if nobody else uses the object; `none` if it never returns. -/
def result (c : Chain) : Call → Option Outcome
  | .step => some .nothing
  | .update v => match c.updateIncrement v with
    | .ok _ => some .nothing
    | .error _ => some .refused
  | .permute x => (c.permute x).map .number
  | .invert y => (c.invert y).map .number

/-- The object after the plain call. -/
def after (c : Chain) : Call → Chain
  | .step => c.apply .step
  | .update v => c.apply (.update v)
  | .permute _ => c
  | .invert _ => c

/-- Calls that are made one after another, beginning with the object `c`, have these outcomes and leave the object `c'`. -/
def Sequentially (c : Chain) : List (Call × Outcome) → Chain → Prop
  | [], c' => c = c'
  | (call, outcome) :: rest, c' => result c call = some outcome ∧ Sequentially (after c call) rest c'

/-- Call `i` is this call, and it has returned this outcome. -/
def Returned (s : Sys) (i : Nat) (call : Call) (outcome : Outcome) : Prop :=
  ∃ e, s.calls[i]? = some e ∧ e.call = call ∧ e.phase = .done outcome ∧ outcome ≠ .cancelled

/-- Call `i` had ended when call `j` was begun. -/
def Before (s : Sys) (i j : Nat) : Prop :=
  ∃ e e' t, s.calls[i]? = some e ∧ s.calls[j]? = some e' ∧ e.ended = some t ∧ t < e'.began

/-- The calls that have returned act as if they had been made one after another, in an order in which no call comes before one
that had ended when it was begun. Calls that are under way, or were cancelled, have had no effect. -/
def InSomeOrder (c : Chain) (s : Sys) : Prop :=
  ∃ order : List (Nat × Call × Outcome),
    (order.map (·.1)).Nodup ∧
    (∀ i call outcome, (i, call, outcome) ∈ order ↔ Returned s i call outcome) ∧
    order.Pairwise (fun a b => ¬ Before s b.1 a.1) ∧
    Sequentially c (order.map (·.2)) s.chain

/-- A call that changes the object. -/
def Call.changes : Call → Bool
  | .step => true
  | .update _ => true
  | _ => false

/-- A plain call is about to store something that it computed from what it has read. -/
def Phase.storing : Phase → Bool
  | .read _ => true
  | .ready _ => true
  | _ => false

/-- The action does not make a call that changes the object go on while another is between its reading and its storing. -/
def TakesTurn (s : Sys) : Action → Prop
  | .go i => ∀ e, s.calls[i]? = some e → e.call.changes = true →
      ∀ j e', j ≠ i → s.calls[j]? = some e' → e'.phase.storing = false
  | _ => True

/-- In this run, calls of threads that change the object never overlap. -/
def TurnsTaken (c : Chain) (actions : List Action) : Prop :=
  ∀ done next rest s, actions = done ++ next :: rest → (fresh c).run done = some s → TakesTurn s next

/-- Only coroutines of one event loop change the object: threads only call `permute` and `invert`. -/
def OnlyCoroutinesChange (actions : List Action) : Prop :=
  ∀ call, Action.begin .plain call ∈ actions → call.changes = false

/-- The numbers that are permuted have the size of the permutation. -/
def Call.fits (size : Nat) : Call → Prop
  | .permute x => x < 256 ^ size
  | .invert y => y < 256 ^ size
  | _ => True

end Aiootp.ChainShared
