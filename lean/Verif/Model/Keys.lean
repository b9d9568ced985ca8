import Verif.Model.DomainKdf

/-
`aiootp/keygens/curve_25519/`: key objects and the 2DH and 3DH exchanges. The curve itself (the `cryptography` package) is a parameter. Public keys and
secret keys are what `X25519PublicKey`, `X25519PrivateKey`, `Ed25519PublicKey` and `Ed25519PrivateKey` objects hold.
-/

namespace Aiootp.Keys

open Kdf

/-- The `cryptography` package: what is done with keys. `exchange` raises `ValueError` for a shared key of zeros; `sign` and `verify` are used by
`Ed25519` only. -/
structure Curve (Sk Pk : Type) where
  publicOf : Sk → Pk
  exchange : Sk → Pk → Except Err Bytes
  sign : Sk → Bytes → Bytes
  verify : Pk → Bytes → Bytes → Bool
  rawPublic : Pk → Bytes
  rawSecret : Sk → Bytes
  fromPublic : Bytes → Except Err Pk
  fromSecret : Bytes → Except Err Sk

/-- An argument where a key is expected: bytes, a key, or an object of another type. -/
inductive Given (α : Type) where
  | bytes (b : Bytes)
  | key (k : α)
  | other

variable {Sk Pk : Type}

/-- shared_interface.py:75-92 `_process_public_key`. -/
def Curve.processPublic (C : Curve Sk Pk) : Given Pk → Except Err Pk
  | .bytes b => C.fromPublic b
  | .key k => .ok k
  | .other => .error .type

/-- shared_interface.py:56-73 `_process_secret_key`. -/
def Curve.processSecret (C : Curve Sk Pk) : Given Sk → Except Err Sk
  | .bytes b => C.fromSecret b
  | .key k => .ok k
  | .other => .error .type

/-- shared_interface.py:36-54 `Base25519`: `_secret_key` and `_public_key`, `None` after `__init__`. -/
structure KeyObj (Sk Pk : Type) where
  secret : Option Sk := none
  pub : Option Pk := none

namespace KeyObj
variable (C : Curve Sk Pk)

/-- shared_interface.py:106-120 `import_secret_key`: the object afterwards, and what the call raised. -/
def importSecret (k : KeyObj Sk Pk) (g : Given Sk) : KeyObj Sk Pk × Except Err Unit :=
  if k.pub.isSome then (k, .error .permission)
  else match C.processSecret g with
    | .error e => (k, .error e)
    | .ok s => (⟨some s, some (C.publicOf s)⟩, .ok ())

/-- shared_interface.py:134-148 `import_public_key`: `_secret_key` is overwritten before the argument is checked. -/
def importPublic (k : KeyObj Sk Pk) (g : Given Pk) : KeyObj Sk Pk × Except Err Unit :=
  if k.pub.isSome then (k, .error .permission)
  else
    let k := { k with secret := none }
    match C.processPublic g with
    | .error e => (k, .error e)
    | .ok p => ({ k with pub := some p }, .ok ())

/-- shared_interface.py:156-160 `generate`, for a fresh secret key. -/
def generate (k : KeyObj Sk Pk) (fresh : Sk) : KeyObj Sk Pk × Except Err Unit := k.importSecret C (.key fresh)

/-- The public operations. -/
inductive Op (Sk Pk : Type) where
  | importSecret (g : Given Sk)
  | importPublic (g : Given Pk)
  | generate (fresh : Sk)
  /-- `obj.name = value` or `setattr`; instances.py:67-73: both attributes are present since `__init__`, and there is no dictionary -/
  | setattr (name : String)
  /-- `del obj.name`; instances.py:75-79 -/
  | delattr (name : String)
  /-- calling `__init__` again, shared_interface.py:47-54 -/
  | init

/-- One operation. -/
def step (k : KeyObj Sk Pk) : Op Sk Pk → KeyObj Sk Pk × Except Err Unit
  | .importSecret g => k.importSecret C g
  | .importPublic g => k.importPublic C g
  | .generate s => k.generate C s
  | .setattr name => (k, .error (if name = "_secret_key" ∨ name = "_public_key" then .permission else .attribute))
  | .delattr _ => (k, .error .permission)
  | .init => (k, .error .permission)

/-- A history of operations; the results are in `results`. -/
def run (k : KeyObj Sk Pk) : List (Op Sk Pk) → KeyObj Sk Pk
  | [] => k
  | op :: ops => run (k.step C op).1 ops

/-- What each operation of a history returned. -/
def results (k : KeyObj Sk Pk) : List (Op Sk Pk) → List (Except Err Unit)
  | [] => []
  | op :: ops => (k.step C op).2 :: results (k.step C op).1 ops

/-- x25519.py:93-101 `exchange`: `AttributeError` if there is no secret key. -/
def exchange (k : KeyObj Sk Pk) (p : Pk) : Except Err Bytes :=
  match k.secret with
  | none => .error .attribute
  | some s => C.exchange s p

/-- shared_interface.py:183-188 `public_bytes`. -/
def publicBytes (k : KeyObj Sk Pk) : Except Err Bytes :=
  match k.pub with
  | none => .error .attribute
  | some p => .ok (C.rawPublic p)

/-- ed25519.py:85-89 `sign`: `AttributeError` if there is no secret key. -/
def sign (k : KeyObj Sk Pk) (data : Bytes) : Except Err Bytes :=
  match k.secret with
  | none => .error .attribute
  | some s => .ok (C.sign s data)

/-- ed25519.py:107-125 `verify`: with the key given as `public_key`, else with the key of the object; `None` has no `verify`, so `AttributeError` if there
is neither. A key raises `InvalidSignature` for a wrong signature. -/
def verify (k : KeyObj Sk Pk) (signature data : Bytes) (publicKey : Option (Given Pk)) : Except Err Unit := do
  let key ← match publicKey with
    | none => match k.pub with
      | none => .error .attribute
      | some p => .ok p
    | some g => C.processPublic g
  if C.verify key signature data then .ok () else .error .invalidSignature

/-- A key object right after `generate`. -/
def generated (s : Sk) : KeyObj Sk Pk := ⟨some s, some (C.publicOf s)⟩

end KeyObj

/-- x25519.py:69 `DomainKDF` and the domains of the exchanges (generics/domains.py). -/
structure DhEnv where
  xof : Hasher
  /-- the salt of the class `DomainKDF` -/
  salt : Bytes
  /-- `Domains.KDF` -/
  kdfDomain : Bytes
  /-- `Domains.DH2` -/
  dh2 : Bytes
  /-- `Domains.DH3` -/
  dh3 : Bytes

/-- The kdf object that an exchange returns, as the bytes its payload has absorbed. -/
def DhEnv.kdf (E : DhEnv) (domain : Bytes) (data : List Bytes) (key : Bytes) : Except Err Bytes :=
  initialPayload E.xof E.salt E.kdfDomain domain data key

/-- double_diffie_hellman_client.py:59-85: a client object; `none` is an attribute that has not been set. -/
structure Client2 (Sk Pk : Type) where
  peerId : Option Pk := none
  myEph : Option (KeyObj Sk Pk) := none
  peerEph : Option Pk := none

namespace Client2
variable (C : Curve Sk Pk)

/-- double_diffie_hellman_client.py:100-107 `send`. Attributes that are set cannot be set again (instances.py:67-73). -/
def send (c : Client2 Sk Pk) (fresh : Sk) (peerId : Given Pk) : Client2 Sk Pk × Except Err Bytes :=
  match C.processPublic peerId with
  | .error e => (c, .error e)
  | .ok p =>
    if c.peerId.isSome then (c, .error .permission)
    else if c.myEph.isSome then ({ c with peerId := some p }, .error .permission)
    else ({ c with peerId := some p, myEph := some (KeyObj.generated C fresh) }, (KeyObj.generated C fresh).publicBytes C)

/-- double_diffie_hellman_client.py:149-157: the end of `receive`. -/
def derive (E : DhEnv) (myEph : KeyObj Sk Pk) (peerId peerEph : Pk) : Except Err Bytes := do
  let ad ← myEph.exchange C peerId
  let cd ← myEph.exchange C peerEph
  let mine ← myEph.publicBytes C
  E.kdf E.dh2 [mine, C.rawPublic peerId, C.rawPublic peerEph] (ad ++ cd)

/-- double_diffie_hellman_client.py:134-157 `receive`. -/
def receive (E : DhEnv) (c : Client2 Sk Pk) (peerEph : Given Pk) : Client2 Sk Pk × Except Err Bytes :=
  match c.myEph, c.peerId with
  | some myEph, some peerId =>
    match C.processPublic peerEph with
    | .error e => (c, .error e)
    | .ok p =>
      if c.peerEph.isSome then (c, .error .permission)
      else ({ c with peerEph := some p }, derive C E myEph peerId p)
  | _, _ => (c, .error .attribute)

end Client2

/-- double_diffie_hellman_server.py:59-86: a server object. -/
structure Server2 (Sk Pk : Type) where
  myId : KeyObj Sk Pk
  myEph : Option (KeyObj Sk Pk) := none
  peerEph : Option Pk := none

namespace Server2
variable (C : Curve Sk Pk)

/-- double_diffie_hellman_server.py:132-140: the end of `receive`. -/
def derive (E : DhEnv) (myId myEph : KeyObj Sk Pk) (peerEph : Pk) : Except Err Bytes := do
  let ad ← myId.exchange C peerEph
  let cd ← myEph.exchange C peerEph
  let identity ← myId.publicBytes C
  let mine ← myEph.publicBytes C
  E.kdf E.dh2 [C.rawPublic peerEph, identity, mine] (ad ++ cd)

/-- double_diffie_hellman_server.py:115-140 `receive`: the ephemeral key is set before the argument is looked at. -/
def receive (E : DhEnv) (s : Server2 Sk Pk) (fresh : Sk) (peerEph : Given Pk) : Server2 Sk Pk × Except Err Bytes :=
  if s.myEph.isSome then (s, .error .permission)
  else
    let s := { s with myEph := some (KeyObj.generated C fresh) }
    match C.processPublic peerEph with
    | .error e => (s, .error e)
    | .ok p =>
      if s.peerEph.isSome then (s, .error .permission)
      else ({ s with peerEph := some p }, derive C E s.myId (KeyObj.generated C fresh) p)

/-- double_diffie_hellman_server.py:149-154 `send`. -/
def send (s : Server2 Sk Pk) : Except Err Bytes :=
  match s.myEph with
  | none => .error .attribute
  | some k => k.publicBytes C

end Server2

/-- triple_diffie_hellman_client.py:61-89. -/
structure Client3 (Sk Pk : Type) where
  myId : KeyObj Sk Pk
  peerId : Option Pk := none
  myEph : Option (KeyObj Sk Pk) := none
  peerEph : Option Pk := none

namespace Client3
variable (C : Curve Sk Pk)

/-- triple_diffie_hellman_client.py:108-123 `send`. -/
def send (c : Client3 Sk Pk) (fresh : Sk) (peerId : Given Pk) : Client3 Sk Pk × Except Err (Bytes × Bytes) :=
  match C.processPublic peerId with
  | .error e => (c, .error e)
  | .ok p =>
    if c.peerId.isSome then (c, .error .permission)
    else if c.myEph.isSome then ({ c with peerId := some p }, .error .permission)
    else ({ c with peerId := some p, myEph := some (KeyObj.generated C fresh) }, do
      let identity ← c.myId.publicBytes C
      let mine ← (KeyObj.generated C fresh).publicBytes C
      .ok (identity, mine))

/-- triple_diffie_hellman_client.py:169-179: the end of `receive`. -/
def derive (E : DhEnv) (myId myEph : KeyObj Sk Pk) (peerId peerEph : Pk) : Except Err Bytes := do
  let ad ← myEph.exchange C peerId
  let bc ← myId.exchange C peerEph
  let cd ← myEph.exchange C peerEph
  let identity ← myId.publicBytes C
  let mine ← myEph.publicBytes C
  E.kdf E.dh3 [identity, mine, C.rawPublic peerId, C.rawPublic peerEph] (ad ++ bc ++ cd)

/-- triple_diffie_hellman_client.py:153-179 `receive`. -/
def receive (E : DhEnv) (c : Client3 Sk Pk) (peerEph : Given Pk) : Client3 Sk Pk × Except Err Bytes :=
  match c.myEph, c.peerId with
  | some myEph, some peerId =>
    match C.processPublic peerEph with
    | .error e => (c, .error e)
    | .ok p =>
      if c.peerEph.isSome then (c, .error .permission)
      else ({ c with peerEph := some p }, derive C E c.myId myEph peerId p)
  | _, _ => (c, .error .attribute)

end Client3

/-- triple_diffie_hellman_server.py:61-89. -/
structure Server3 (Sk Pk : Type) where
  myId : KeyObj Sk Pk
  myEph : Option (KeyObj Sk Pk) := none
  peerId : Option Pk := none
  peerEph : Option Pk := none

namespace Server3
variable (C : Curve Sk Pk)

/-- triple_diffie_hellman_server.py:145-155: the end of `receive`. -/
def derive (E : DhEnv) (myId myEph : KeyObj Sk Pk) (peerId peerEph : Pk) : Except Err Bytes := do
  let ad ← myId.exchange C peerEph
  let bc ← myEph.exchange C peerId
  let cd ← myEph.exchange C peerEph
  let identity ← myId.publicBytes C
  let mine ← myEph.publicBytes C
  E.kdf E.dh3 [C.rawPublic peerId, C.rawPublic peerEph, identity, mine] (ad ++ bc ++ cd)

/-- triple_diffie_hellman_server.py:124-155 `receive`. -/
def receive (E : DhEnv) (s : Server3 Sk Pk) (fresh : Sk) (peerId peerEph : Given Pk) : Server3 Sk Pk × Except Err Bytes :=
  if s.myEph.isSome then (s, .error .permission)
  else
    let s := { s with myEph := some (KeyObj.generated C fresh) }
    match C.processPublic peerId with
    | .error e => (s, .error e)
    | .ok i =>
      if s.peerId.isSome then (s, .error .permission)
      else
        let s := { s with peerId := some i }
        match C.processPublic peerEph with
        | .error e => (s, .error e)
        | .ok p =>
          if s.peerEph.isSome then (s, .error .permission)
          else ({ s with peerEph := some p }, derive C E s.myId (KeyObj.generated C fresh) i p)

/-- triple_diffie_hellman_server.py:164-169 `send`. -/
def send (s : Server3 Sk Pk) : Except Err Bytes :=
  match s.myEph with
  | none => .error .attribute
  | some k => k.publicBytes C

end Server3

/-- Calls on an exchange object, in any order. -/
inductive DhCall (Sk Pk : Type) where
  | send (fresh : Sk) (peerId : Given Pk)
  | receive (fresh : Sk) (peerId peerEph : Given Pk)

/-- What a call returned: the public bytes that were sent, or a kdf. -/
inductive DhResult where
  | sent (r : Except Err (List Bytes))
  | derived (r : Except Err Bytes)

/-- The four kinds of exchange objects. -/
inductive DhObj (Sk Pk : Type) where
  | client2 (c : Client2 Sk Pk)
  | server2 (s : Server2 Sk Pk)
  | client3 (c : Client3 Sk Pk)
  | server3 (s : Server3 Sk Pk)

/-- One call on an exchange object; arguments that the method does not take are ignored. -/
def DhObj.step (E : DhEnv) (C : Curve Sk Pk) (o : DhObj Sk Pk) (call : DhCall Sk Pk) : DhObj Sk Pk × DhResult :=
  match o, call with
  | .client2 c, .send fresh peerId => (.client2 (c.send C fresh peerId).1, .sent ((c.send C fresh peerId).2.map fun m => [m]))
  | .client2 c, .receive _ _ peerEph => (.client2 (c.receive C E peerEph).1, .derived (c.receive C E peerEph).2)
  | .server2 s, .send _ _ => (.server2 s, .sent ((s.send C).map fun m => [m]))
  | .server2 s, .receive fresh _ peerEph => (.server2 (s.receive C E fresh peerEph).1, .derived (s.receive C E fresh peerEph).2)
  | .client3 c, .send fresh peerId => (.client3 (c.send C fresh peerId).1, .sent ((c.send C fresh peerId).2.map fun m => [m.1, m.2]))
  | .client3 c, .receive _ _ peerEph => (.client3 (c.receive C E peerEph).1, .derived (c.receive C E peerEph).2)
  | .server3 s, .send _ _ => (.server3 s, .sent ((s.send C).map fun m => [m]))
  | .server3 s, .receive fresh peerId peerEph => (.server3 (s.receive C E fresh peerId peerEph).1, .derived (s.receive C E fresh peerId peerEph).2)

/-- The results of a sequence of calls. -/
def DhObj.results (E : DhEnv) (C : Curve Sk Pk) (o : DhObj Sk Pk) : List (DhCall Sk Pk) → List DhResult
  | [] => []
  | call :: calls => (o.step E C call).2 :: results E C (o.step E C call).1 calls

end Aiootp.Keys
