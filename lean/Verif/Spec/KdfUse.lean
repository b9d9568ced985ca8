import Verif.Model.KdfUse
import Verif.Spec.Collision

/-
What the derivation of a key with a `DomainKDF` hashes.
-/

namespace Aiootp.Kdf

open Canon

/-- How many bytes are derived. -/
def Output.bytes : Output → Nat
  | .sha3_256 => 32
  | .sha3_512 => 64
  | .shake_128 n => n
  | .shake_256 n => n

/-- The bytes that the last hash object absorbs. -/
def Derivation.message (F : Functions) (payload : Bytes) (d : Derivation) : Except Err Bytes :=
  hashBytesInput (d.aad :: d.args) d.output.type.block (hasher F d.output.type).digestSize [0] d.output.size? (some (F .shake_128 payload d.output.type.block))

/-- All that is hashed for a key: `message` is given to the function `t`, which returns `n` bytes. -/
inductive Hashes (F : Functions) (salt kdfDomain : Bytes) (l : Life) (d : Derivation) : HashType → Nat → Bytes → Prop where
  | first {m : Bytes} : l.first kdfDomain = .ok m → Hashes F salt kdfDomain l d .shake_128 168 m
  | payload {p : Bytes} : l.state F salt kdfDomain = .ok p → Hashes F salt kdfDomain l d .shake_128 d.output.type.block p
  | last {p m : Bytes} : l.state F salt kdfDomain = .ok p → d.message F p = .ok m → Hashes F salt kdfDomain l d d.output.type d.output.bytes m

/-- The key that a kdf derives. -/
def derive (F : Functions) (salt kdfDomain : Bytes) (l : Life) (d : Derivation) : Except Err Bytes := do
  let payload ← l.state F salt kdfDomain
  d.run F payload

/-- C106 as a user would expect it: two keys are equal only if kdfs with the same key, domain, data and updates derived them with the same arguments, or there is a collision. -/
def DomainsSeparate (F : Functions) (salt kdfDomain : Bytes) : Prop :=
  ∀ (l l' : Life) (d d' : Derivation) (k : Bytes), derive F salt kdfDomain l d = .ok k → derive F salt kdfDomain l' d' = .ok k → d.output = d'.output →
    (l = l' ∧ d = d') ∨ ∃ t n x y, Hashes F salt kdfDomain l d t n x ∧ Hashes F salt kdfDomain l' d' t n y ∧ Collide (F t · n) x y

end Aiootp.Kdf
