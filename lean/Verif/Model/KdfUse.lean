import Verif.Model.DomainKdf

/-
Model of the life of a `DomainKDF`: its construction, updates and one derivation, with the four hash functions that it uses.
-/

namespace Aiootp.Kdf

open Canon

/-- The entries of `HASHER_TYPES` that are used: aiootp/keygens/domain_kdf.py:196-283, aiootp/_constants/misc.py:46-54. -/
inductive HashType where
  | sha3_256
  | sha3_512
  | shake_128
  | shake_256
  deriving DecidableEq

/-- `hashlib`: `block_size`. -/
def HashType.block : HashType → Nat
  | .sha3_256 => 136
  | .sha3_512 => 72
  | .shake_128 => 168
  | .shake_256 => 136

/-- The four hash functions of `hashlib`. -/
abbrev Functions := HashType → Bytes → Nat → Bytes

/-- `hashlib`: the hash objects; `digest_size` is 0 for an XOF. -/
def hasher (F : Functions) (t : HashType) : Hasher :=
  ⟨t.block, match t with | .sha3_256 => 32 | .sha3_512 => 64 | _ => 0, F t⟩

/-- What is derived: the method that is called, with the argument `size` if it has one. -/
inductive Output where
  | sha3_256
  | sha3_512
  | shake_128 (size : Nat)
  | shake_256 (size : Nat)
  deriving DecidableEq

/-- The hash type of a method: aiootp/keygens/domain_kdf.py:206-283. -/
def Output.type : Output → HashType
  | .sha3_256 => .sha3_256
  | .sha3_512 => .sha3_512
  | .shake_128 _ => .shake_128
  | .shake_256 _ => .shake_256

/-- The argument `size` of `_run_kdf`. -/
def Output.size? : Output → Option Nat
  | .shake_128 n => some n
  | .shake_256 n => some n
  | _ => none

/-- How a kdf is made, and what it is updated with. -/
structure Life where
  key : Bytes
  domain : Bytes
  data : List Bytes
  updates : List (List Bytes)

/-- What is hashed first: aiootp/keygens/domain_kdf.py:60-82 `_initialize_payload`. -/
def Life.first (l : Life) (kdfDomain : Bytes) : Except Err Bytes :=
  hashBytesInput (kdfDomain :: l.domain :: l.data) 168 0 [0] (some 168) (some (l.key ++ l.domain))

/-- What the payload of the kdf has absorbed: aiootp/keygens/domain_kdf.py:151-156 `__init__`, 185-194 `update`. -/
def Life.state (F : Functions) (salt kdfDomain : Bytes) (l : Life) : Except Err Bytes := do
  let payload ← initialPayload (hasher F .shake_128) salt kdfDomain l.domain l.data l.key
  l.updates.foldlM (absorbUpdate 168) payload

/-- The arguments of a derivation. -/
structure Derivation where
  output : Output
  aad : Bytes
  args : List Bytes

/-- aiootp/keygens/domain_kdf.py:206-283 `sha3_256`, `sha3_512`, `shake_128`, `shake_256` of a kdf whose payload has absorbed `payload`. An XOF has no digest of size 0: `digest()` without a size raises
`TypeError` (hashing.py:89-91). -/
def Derivation.run (F : Functions) (payload : Bytes) (d : Derivation) : Except Err Bytes :=
  if d.output.size? = some 0 then .error .type
  else runKdf (hasher F .shake_128) (hasher F d.output.type) payload d.args d.output.size? d.aad

end Aiootp.Kdf
