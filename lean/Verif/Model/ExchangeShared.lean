import Verif.Model.Keys

/-
Key exchange objects (`aiootp/keygens/curve_25519/*_diffie_hellman_*.py`) that are used by several coroutines or threads at the same time. They are instances
of `FrozenInstance` (commons/instances.py), whose attributes can be assigned once.
-/

namespace Aiootp.Keys

open Kdf

variable {Sk Pk : Type}

/-- The attributes that a call assigns. -/
inductive Slot where
  | myEph
  | peerId
  | peerEph
  deriving DecidableEq

/-- The values of the attributes. -/
inductive Val (Sk Pk : Type) where
  | obj (k : KeyObj Sk Pk)
  | pk (p : Pk)

/-- What a call returns: the public bytes to send, or a kdf. -/
inductive Out where
  | sent (m : List Bytes)
  | kdf (b : Bytes)
  deriving DecidableEq

/-- The attributes of one object; `none` is an attribute that has not been assigned. -/
abbrev Attrs (Sk Pk : Type) := Slot → Option (Val Sk Pk)

/-- Assigns an attribute. -/
def Attrs.put (s : Attrs Sk Pk) (n : Slot) (v : Val Sk Pk) : Attrs Sk Pk := fun m => if m = n then some v else s m

/-- The rest of a call, as the accesses to the attributes of the object that it makes. -/
inductive Call (Sk Pk : Type) where
  /-- the call returns or raises -/
  | ret (r : Except Err Out)
  /-- reads an attribute; `AttributeError` if it has not been assigned -/
  | get (n : Slot) (k : Val Sk Pk → Call Sk Pk)
  /-- assigns an attribute, instances.py:67-73; `PermissionError` if it has been assigned -/
  | set (n : Slot) (v : Val Sk Pk) (k : Call Sk Pk)
  /-- `await`; nothing in the synchronous methods -/
  | pause (k : Call Sk Pk)

namespace Call

/-- Goes on with the value, or raises. -/
def and {α : Type} (r : Except Err α) (k : α → Call Sk Pk) : Call Sk Pk :=
  match r with
  | .error e => .ret (.error e)
  | .ok a => k a

/-- Reads an attribute that is a key object. -/
def getObj (n : Slot) (k : KeyObj Sk Pk → Call Sk Pk) : Call Sk Pk :=
  .get n fun
    | .obj o => k o
    | .pk _ => .ret (.error .type)

/-- Reads an attribute that is a public key. -/
def getPk (n : Slot) (k : Pk → Call Sk Pk) : Call Sk Pk :=
  .get n fun
    | .pk p => k p
    | .obj _ => .ret (.error .type)

variable (C : Curve Sk Pk) (E : DhEnv)

/-- double_diffie_hellman_client.py:87-107 `asend`, `send`. -/
def send2 (fresh : Sk) (peerId : Given Pk) : Call Sk Pk :=
  .and (C.processPublic peerId) fun p =>
  .set .peerId (.pk p) <|
  .pause <|
  .set .myEph (.obj (KeyObj.generated C fresh)) <|
  .getObj .myEph fun o =>
  .and (o.publicBytes C) fun m =>
  .ret (.ok (.sent [m]))

/-- double_diffie_hellman_client.py:109-157 `areceive`, `receive`: the shared keys are made of local variables, the transcript of attributes. -/
def receive2 (peerEph : Given Pk) : Call Sk Pk :=
  .getObj .myEph fun o =>
  .getPk .peerId fun i =>
  .and (C.processPublic peerEph) fun p =>
  .set .peerEph (.pk p) <|
  .pause <|
  .and (o.exchange C i) fun ad =>
  .pause <|
  .and (o.exchange C p) fun cd =>
  .and (o.publicBytes C) fun mine =>
  .getPk .peerId fun i' =>
  .getPk .peerEph fun p' =>
  .and (E.kdf E.dh2 [mine, C.rawPublic i', C.rawPublic p'] (ad ++ cd)) fun b =>
  .ret (.ok (.kdf b))

/-- double_diffie_hellman_server.py:88-140 `areceive`, `receive`. -/
def serve2 (myId : KeyObj Sk Pk) (fresh : Sk) (peerEph : Given Pk) : Call Sk Pk :=
  .pause <|
  .set .myEph (.obj (KeyObj.generated C fresh)) <|
  .and (C.processPublic peerEph) fun p =>
  .set .peerEph (.pk p) <|
  .pause <|
  .and (myId.exchange C p) fun ad =>
  .pause <|
  .and ((KeyObj.generated C fresh).exchange C p) fun cd =>
  .and (myId.publicBytes C) fun identity =>
  .and ((KeyObj.generated C fresh).publicBytes C) fun mine =>
  .and (E.kdf E.dh2 [C.rawPublic p, identity, mine] (ad ++ cd)) fun b =>
  .ret (.ok (.kdf b))

/-- double_diffie_hellman_server.py:142-154 `asend`, `send`; triple_diffie_hellman_server.py:157-169. -/
def answer : Call Sk Pk :=
  .getObj .myEph fun o =>
  .and (o.publicBytes C) fun m =>
  .ret (.ok (.sent [m]))

/-- triple_diffie_hellman_client.py:91-123 `asend`, `send`. -/
def send3 (myId : KeyObj Sk Pk) (fresh : Sk) (peerId : Given Pk) : Call Sk Pk :=
  .and (C.processPublic peerId) fun p =>
  .set .peerId (.pk p) <|
  .pause <|
  .set .myEph (.obj (KeyObj.generated C fresh)) <|
  .and (myId.publicBytes C) fun identity =>
  .getObj .myEph fun o =>
  .and (o.publicBytes C) fun m =>
  .ret (.ok (.sent [identity, m]))

/-- triple_diffie_hellman_client.py:125-179 `areceive`, `receive`. -/
def receive3 (myId : KeyObj Sk Pk) (peerEph : Given Pk) : Call Sk Pk :=
  .getObj .myEph fun o =>
  .getPk .peerId fun i =>
  .and (C.processPublic peerEph) fun p =>
  .set .peerEph (.pk p) <|
  .pause <|
  .and (o.exchange C i) fun ad =>
  .pause <|
  .and (myId.exchange C p) fun bc =>
  .pause <|
  .and (o.exchange C p) fun cd =>
  .and (myId.publicBytes C) fun identity =>
  .and (o.publicBytes C) fun mine =>
  .and (E.kdf E.dh3 [identity, mine, C.rawPublic i, C.rawPublic p] (ad ++ bc ++ cd)) fun b =>
  .ret (.ok (.kdf b))

/-- triple_diffie_hellman_server.py:91-155 `areceive`, `receive`. -/
def serve3 (myId : KeyObj Sk Pk) (fresh : Sk) (peerId peerEph : Given Pk) : Call Sk Pk :=
  .pause <|
  .set .myEph (.obj (KeyObj.generated C fresh)) <|
  .and (C.processPublic peerId) fun i =>
  .set .peerId (.pk i) <|
  .and (C.processPublic peerEph) fun p =>
  .set .peerEph (.pk p) <|
  .pause <|
  .and (myId.exchange C p) fun ad =>
  .pause <|
  .and ((KeyObj.generated C fresh).exchange C i) fun bc =>
  .pause <|
  .and ((KeyObj.generated C fresh).exchange C p) fun cd =>
  .and (myId.publicBytes C) fun identity =>
  .and ((KeyObj.generated C fresh).publicBytes C) fun mine =>
  .and (E.kdf E.dh3 [C.rawPublic i, C.rawPublic p, identity, mine] (ad ++ bc ++ cd)) fun b =>
  .ret (.ok (.kdf b))

/-- A call that nothing interrupts: the attributes afterwards, and what it returned. -/
def alone : Call Sk Pk → Attrs Sk Pk → Attrs Sk Pk × Except Err Out
  | .ret r, s => (s, r)
  | .get n k, s =>
    match s n with
    | none => (s, .error .attribute)
    | some v => alone (k v) s
  | .set n v k, s => if (s n).isSome then (s, .error .permission) else alone k (s.put n v)
  | .pause k, s => alone k s

/-- A coroutine goes on up to its next `await`: asynchronous functions are not interrupted elsewhere. -/
def burst : Call Sk Pk → Attrs Sk Pk → Attrs Sk Pk × Call Sk Pk
  | .ret r, s => (s, .ret r)
  | .get n k, s =>
    match s n with
    | none => (s, .ret (.error .attribute))
    | some v => burst (k v) s
  | .set n v k, s => if (s n).isSome then (s, .ret (.error .permission)) else burst k (s.put n v)
  | .pause k, s => (s, k)

/-- A thread goes on to its next access to the object. To assign an attribute takes two of them, instances.py:71 and :73; `true` means that the first is
done. -/
def access : Call Sk Pk × Bool → Attrs Sk Pk → Attrs Sk Pk × (Call Sk Pk × Bool)
  | (.ret r, _), s => (s, (.ret r, false))
  | (.get n k, _), s =>
    match s n with
    | none => (s, (.ret (.error .attribute), false))
    | some v => (s, (k v, false))
  | (.set n v k, false), s => if (s n).isSome then (s, (.ret (.error .permission), false)) else (s, (.set n v k, true))
  | (.set n v k, true), s => (s.put n v, (k, false))
  | (.pause k, _), s => (s, (k, false))

end Call

/-- The kinds of exchange objects, with the identity key if there is one. -/
inductive DhKind (Sk Pk : Type) where
  | client2
  | server2 (myId : KeyObj Sk Pk)
  | client3 (myId : KeyObj Sk Pk)
  | server3 (myId : KeyObj Sk Pk)

/-- A call on an exchange object; arguments that the method does not take are ignored. -/
def DhKind.call (C : Curve Sk Pk) (E : DhEnv) : DhKind Sk Pk → DhCall Sk Pk → Call Sk Pk
  | .client2, .send fresh peerId => .send2 C fresh peerId
  | .client2, .receive _ _ peerEph => .receive2 C E peerEph
  | .server2 _, .send _ _ => .answer C
  | .server2 myId, .receive fresh _ peerEph => .serve2 C E myId fresh peerEph
  | .client3 myId, .send fresh peerId => .send3 C myId fresh peerId
  | .client3 myId, .receive _ _ peerEph => .receive3 C E myId peerEph
  | .server3 _, .send _ _ => .answer C
  | .server3 myId, .receive fresh peerId peerEph => .serve3 C E myId fresh peerId peerEph

/-- An object and the coroutines that use it. -/
structure Tasks (Sk Pk : Type) where
  attrs : Attrs Sk Pk
  calls : List (Call Sk Pk)

namespace Tasks

/-- The event loop runs coroutine `i`. -/
def step (w : Tasks Sk Pk) (i : Nat) : Tasks Sk Pk :=
  match w.calls[i]? with
  | none => w
  | some c => ⟨(c.burst w.attrs).1, w.calls.set i (c.burst w.attrs).2⟩

/-- The coroutines go on in the order of the schedule. -/
def run (w : Tasks Sk Pk) (schedule : List Nat) : Tasks Sk Pk := schedule.foldl step w

/-- What coroutine `i` returned or raised, if it has. -/
def result (w : Tasks Sk Pk) (i : Nat) : Option (Except Err Out) :=
  match w.calls[i]? with
  | some (.ret r) => some r
  | _ => none

end Tasks

/-- An object and the threads that use it. -/
structure Users (Sk Pk : Type) where
  attrs : Attrs Sk Pk
  calls : List (Call Sk Pk × Bool)

namespace Users

/-- Thread `i` goes on to its next access to the object. -/
def step (w : Users Sk Pk) (i : Nat) : Users Sk Pk :=
  match w.calls[i]? with
  | none => w
  | some c => ⟨(Call.access c w.attrs).1, w.calls.set i (Call.access c w.attrs).2⟩

/-- The threads go on in the order of the schedule. -/
def run (w : Users Sk Pk) (schedule : List Nat) : Users Sk Pk := schedule.foldl step w

/-- What thread `i` returned or raised, if it has. -/
def result (w : Users Sk Pk) (i : Nat) : Option (Except Err Out) :=
  match w.calls[i]? with
  | some (.ret r, _) => some r
  | _ => none

end Users

end Aiootp.Keys
