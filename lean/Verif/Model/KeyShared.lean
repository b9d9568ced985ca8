import Verif.Model.Keys

/-
`aiootp/keygens/curve_25519/shared_interface.py`: a key object into which several threads import keys at the same time. A thread can be suspended between
any two reads or writes of the attributes of the object; the reads and writes are atomic (as with the GIL).
-/

namespace Aiootp.Keys

open Kdf

variable {Sk Pk : Type}

/-- A call that a thread makes. `generate` is `importSecret` of a key that is new, shared_interface.py:156-160. -/
inductive Import (Sk Pk : Type) where
  | secret (g : Given Sk)
  | pub (g : Given Pk)

/-- Where a call is. -/
inductive At (Pk : Type) where
  /-- before shared_interface.py:115, 143 -/
  | start
  /-- `has_public_key()` said no, before :118, :146 -/
  | checked
  /-- `_secret_key` is written, before :119, :147 -/
  | written
  /-- the public key is known but not written, inside :119, :147 -/
  | ready (p : Pk)
  /-- the call has ended -/
  | done (r : Except Err Unit)

/-- shared_interface.py:115-120 and :143-148, up to the next access to the object. -/
def advance (C : Curve Sk Pk) (k : KeyObj Sk Pk) : Import Sk Pk → At Pk → KeyObj Sk Pk × At Pk
  | _, .start => if k.pub.isSome then (k, .done (.error .permission)) else (k, .checked)
  | .secret g, .checked =>
    match C.processSecret g with
    | .error e => (k, .done (.error e))
    | .ok s => ({ k with secret := some s }, .written)
  | .secret _, .written =>
    match k.secret with
    | none => (k, .done (.error .attribute))
    | some s => (k, .ready (C.publicOf s))
  | .pub _, .checked => ({ k with secret := none }, .written)
  | .pub g, .written =>
    match C.processPublic g with
    | .error e => (k, .done (.error e))
    | .ok p => (k, .ready p)
  | _, .ready p => ({ k with pub := some p }, .done (.ok ()))
  | _, .done r => (k, .done r)

/-- A key object and the threads that import keys into it. -/
structure Importers (Sk Pk : Type) where
  obj : KeyObj Sk Pk
  calls : List (Import Sk Pk × At Pk)

namespace Importers

/-- The calls have not begun. -/
def begin (k : KeyObj Sk Pk) (calls : List (Import Sk Pk)) : Importers Sk Pk := ⟨k, calls.map fun c => (c, .start)⟩

/-- Thread `i` goes on to its next access. -/
def step (C : Curve Sk Pk) (w : Importers Sk Pk) (i : Nat) : Importers Sk Pk :=
  match w.calls[i]? with
  | none => w
  | some (c, a) => ⟨(advance C w.obj c a).1, w.calls.set i (c, (advance C w.obj c a).2)⟩

/-- The threads go on in the order of the schedule. -/
def run (C : Curve Sk Pk) (w : Importers Sk Pk) (schedule : List Nat) : Importers Sk Pk := schedule.foldl (step C) w

/-- How call `i` ended, if it did. -/
def result (w : Importers Sk Pk) (i : Nat) : Option (Except Err Unit) :=
  match w.calls[i]? with
  | some (_, .done r) => some r
  | _ => none

end Importers

end Aiootp.Keys
