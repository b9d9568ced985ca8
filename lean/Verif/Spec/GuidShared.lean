import Verif.Model.GuidShared

/-
What it means that a `GUID` object that coroutines share gives what it gives to one caller.
-/

namespace Aiootp.GuidShared

open Perm Ids

/-- The clock gives readings of eight bytes, and the random source tokens of the size it is asked for. -/
def Valid (size : Nat) (actions : List Action) : Prop :=
  (∀ i time token, Action.go i time token ∈ actions → time < 256 ^ 8 ∧ token.length = size - 10) ∧
    ∀ time token, Action.now time token ∈ actions → time < 256 ^ 8 ∧ token.length = size - 10

/-- Call `i` has returned this guid. -/
def Made (s : Sys) (i : Nat) (guid : Bytes) : Prop := ∃ call, s.calls[i]? = some ⟨call, .made (.ok guid)⟩

/-- What the object has done is what it does if `new()` is called once for every reading of the clock, in their order, and nobody
else uses it: the same guids, to the calls that the readings belong to, and the same object in the end. No call raises,
other than `aread` where `read` raises the same, and `aread` gives what `read` gives. -/
def AsAlone (g : Guid) (s : Sys) : Prop :=
  ∃ out, g.makeAll (s.drawn.map (·.2)) = .ok (out, s.guid) ∧
    (s.drawn.map (·.1)).Nodup ∧
    (∀ (i : Nat) (e : Entry) result, s.calls[i]? = some e → e.phase = .made result →
      e.call = .new ∧ ∃ (b : Bytes) (k time : Nat) (token : Bytes), result = .ok b ∧ s.drawn[k]? = some (i, time, token) ∧ out[k]? = some b) ∧
    (∀ (i : Nat) (e : Entry) result, s.calls[i]? = some e → e.phase = .parsed result → ∃ guid, e.call = .read guid ∧
      g.read guid = match result with
        | .ok c => .ok c
        | .error err => .error err)

/-- How often call `i` goes on. -/
def turns (i : Nat) (actions : List Action) : Nat :=
  actions.countP fun a => match a with
    | .go j _ _ => j == i
    | _ => false

/-- Call `i` has ended, and was not cancelled. -/
def Ended (s : Sys) (i : Nat) : Prop :=
  ∃ call, (∃ r, s.calls[i]? = some ⟨call, .made r⟩) ∨ ∃ r, s.calls[i]? = some ⟨call, .parsed r⟩

end Aiootp.GuidShared
