import Verif.Model.CipherConfig
import Verif.Model.Canon

/-
`aiootp/ciphers/cipher_kdfs.py`, `key_bundle.py` and `stream_hmac.py`: keyed hash objects, key bundles and stream-hmacs.

Simplifications: only the sync methods are modelled (the async ones are the same code with pauses); the run-time type
checks of the arguments are left to Lean's types; a hash object is the string of bytes it has absorbed. In the code the
hash object is shared by the bundle and every stream-hmac made from it; here each stream-hmac gets its own copy, which
makes no difference once a stream-hmac is registered, because the bundle then refuses every other one.
-/

namespace Aiootp.Cipher

open Perm

/-! ### cipher_kdfs.py -/

/-- cipher_kdfs.py:29-101 `ShakeConfig`. `factory` is what the hash object of `prepare_factory` has absorbed (the
encoding of the names and constants of the cipher, not computed here). -/
structure KdfConfig where
  xof : Xof
  pad : Bytes
  offsetAmount : Nat
  blocksize : Nat
  factory : Bytes

/-- `offset_amount * pad` (cipher_kdfs.py:76). -/
def KdfConfig.offset (k : KdfConfig) : Bytes := (List.replicate k.offsetAmount k.pad).flatten

/-- cipher_kdfs.py:112-119 `KeyedCipherKDF.__init__`: the bytes absorbed by `kdf`. -/
def KdfConfig.keyed (k : KdfConfig) (key : Bytes) : Except Err Bytes := do
  let encodedKey ← Canon.encodeKey key k.blocksize k.pad
  return k.factory ++ encodedKey

/-- cipher_kdfs.py:121-133 `KeyedCipherKDF.new_session_copy`. -/
def KdfConfig.newSessionCopy (k : KdfConfig) (kdf summary : Bytes) : Except Err Bytes := do
  let padded ← Canon.fullblockLjust summary k.blocksize k.pad
  return kdf ++ (padded ++ k.offset)

/-- `MIN_KEY_BYTES` (aiootp/_constants/misc.py:62). -/
def minKeyBytes : Nat := 64

/-- cipher_kdfs.py:144-151 `test_key_validity`. -/
def testKeyValidity (key : Bytes) : Except Err Unit := raiseIf (key.length < minKeyBytes) .value

/-! ### key_bundle.py -/

/-- key_bundle.py:43-89 `SaltAADIV`. `iv_is_fresh` tells whether the iv was drawn here. -/
structure SaltAADIV where
  salt : Bytes
  aad : Bytes
  iv : Bytes
  ivIsFresh : Bool
  deriving DecidableEq, Repr

/-- key_bundle.py:43-89 `SaltAADIV.__init__`. `saltDraw` and `ivDraw` are what `token_bytes` returns if it is called. -/
def SaltAADIV.new (c : Sizes) (salt : Option Bytes) (aad : Bytes) (iv : Option Bytes) (saltDraw ivDraw : Bytes) :
    Except Err SaltAADIV := do
  let salt := match salt with
    | none => saltDraw
    | some [] => saltDraw
    | some (b :: bs) => b :: bs
  let (iv, fresh) := match iv with
    | none => (ivDraw, true)
    | some iv => (iv, false)
  raiseIf (salt.length ≠ c.saltBytes) .value
  raiseIf (iv.length ≠ c.ivBytes) .value
  return { salt, aad, iv, ivIsFresh := fresh }

/-- key_bundle.py:226-231: the summary of the salt, aad and iv that is hashed. -/
def SaltAADIV.summary (b : SaltAADIV) : Except Err Bytes := Canon.canonicalPack [b.salt, b.aad, b.iv] 1 [0] 4

/-! ### stream_hmac.py -/

/-- The modes of a stream-hmac (`ENCRYPTION`, `DECRYPTION`). -/
inductive Direction where
  | encryption
  | decryption
  deriving DecidableEq, Repr

/-- The configuration used by stream-hmacs: the sizes, the permutation and two hash functions. -/
structure Env where
  cfg : Sizes
  permConfig : AffineConfig
  shmacKdf : KdfConfig
  blockIdKdf : KdfConfig

/-- stream_hmac.py:32-54 `StreamHMAC` objects. `ivGiven` is `_key_bundle._iv_given_by_user`; `mac`, `previous`
and `current` are `_mac`, `_previous_digest` and `_current_digest`, `none` once deleted; `result` is `none` while
`_result_is_ready` is false. -/
structure Shmac where
  ivGiven : Bool
  mode : Option Direction
  finalized : Bool
  mac : Option Bytes
  previous : Option Bytes
  current : Option Bytes
  result : Option Bytes
  perm : Chain
  deriving DecidableEq, Repr

namespace Shmac

variable (E : Env)

/-- stream_hmac.py:59-100 `__init__`, `_initialize_session_state`. `mac` is the session's hash object. The id of the
permutation is the size of its values. -/
def new (configId : Nat) (mac : Bytes) (ivGiven : Bool) : Except Err Shmac := do
  let keyBytes ← Sizes.permutationKeySize configId
  let primerKey := E.shmacKdf.xof.digest mac (E.cfg.primerKeyBytes keyBytes)
  let digest := E.cfg.firstDigestSlice.of primerKey
  let perm ← Chain.new true E.permConfig ((Sizes.permutationKeySlice keyBytes).of primerKey)
  return {
    ivGiven, mode := none, finalized := false
    mac := some mac, previous := some digest, current := some digest, result := none, perm }

/-- stream_hmac.py:120-134 `_for_encryption`. -/
def forEncryption (s : Shmac) : Except Err Shmac := do
  raiseIf (s.mode.isSome = true) .permission
  raiseIf (s.ivGiven = true) .shmacMisuse
  return { s with mode := some .encryption }

/-- stream_hmac.py:136-150 `_for_decryption`. -/
def forDecryption (s : Shmac) : Except Err Shmac := do
  raiseIf (s.mode.isSome = true) .permission
  raiseIf (s.ivGiven = false) .shmacMisuse
  return { s with mode := some .decryption }

/-- stream_hmac.py:110-118 `result`. -/
def getResult (s : Shmac) : Except Err Bytes :=
  match s.result with
  | some r => .ok r
  | none => .error .validationIncomplete

/-- stream_hmac.py:160-166, 182-193 `_update`: the placeholder before a mode is declared, `_update_mac` after. -/
def update (s : Shmac) (block : Bytes) : Except Err Shmac := do
  raiseIf (s.mode.isNone = true) .shmacMisuse
  let mac ← attr s.mac
  let mac := mac ++ block
  let current ← attr s.current
  return { s with mac := some mac, previous := some current
                  current := some (E.shmacKdf.xof.digest mac E.cfg.shmacBlocksize) }

/-- stream_hmac.py:211-221 `_get_block_id_mac`. -/
def blockIdMac (s : Shmac) : Except Err Bytes :=
  if s.mode = some .encryption then attr s.previous else attr s.current

/-- The bytes hashed for a block id (stream_hmac.py:285-293). -/
def blockIdPayload (mac : Bytes) (size : Nat) (aad block : Bytes) : Except Err Bytes := do
  let sizeBlob ← toBytesBE 1 size
  let aadLength ← toBytesBE 8 aad.length
  let blockLength ← toBytesBE 8 block.length
  return mac ++ sizeBlob ++ aadLength ++ aad ++ blockLength ++ block

/-- stream_hmac.py:260-294 `next_block_id`. A size of 0 stands for `None` too. -/
def nextBlockId (s : Shmac) (block : Bytes) (size : Nat) (aad : Bytes) : Except Err Bytes := do
  let size := if size = 0 then E.cfg.blockIdBytes else size
  raiseIf (size < E.cfg.minBlockIdBytes) .shmacMisuse
  raiseIf (size > E.cfg.maxBlockIdBytes) .shmacMisuse
  let mac ← s.blockIdMac
  let payload ← blockIdPayload mac size aad block
  return E.blockIdKdf.xof.digest (E.blockIdKdf.factory ++ payload) size

/-- stream_hmac.py:376-401 `test_next_block_id`. -/
def testNextBlockId (s : Shmac) (untrusted block aad : Bytes) : Except Err Unit := do
  let blockId ← s.nextBlockId E block untrusted.length aad
  raiseIf (untrusted ≠ blockId) .invalidBlockID

/-- The tag made from everything the hash object has absorbed (stream_hmac.py:307-315). -/
def tagOf (mac : Bytes) : Bytes :=
  E.cfg.shmacResultSlice.of (E.shmacKdf.xof.digest mac E.cfg.shmacDoubleBlocksize)

/-- stream_hmac.py:333-347 `finalize`. -/
def finalize (s : Shmac) : Except Err (Bytes × Shmac) := do
  raiseIf (s.finalized = true) .shmacMisuse
  let mac ← attr s.mac
  let result := tagOf E mac
  return (result, { s with finalized := true, result := some result, mac := none, previous := none, current := none })

/-- stream_hmac.py:414-423 `test_shmac`. -/
def testShmac (s : Shmac) (untrusted : Bytes) : Except Err Unit := do
  let result ← s.getResult
  raiseIf (untrusted ≠ result) .invalidSHMAC

end Shmac

end Aiootp.Cipher
