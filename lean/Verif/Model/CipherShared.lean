import Verif.Model.Cipher

/-
`aiootp/ciphers/cipher_kdfs.py`, `key_bundle.py`, `stream_hmac.py`, `shake_permute_cipher.py`, `dual_output_shake_cipher.py` and `cipher_interface.py`
again, with hash objects that are mutable and shared: a cipher object holds references to hash objects, and any number of threads and coroutines call
the methods of any number of cipher objects. A call can be suspended between any two uses of a hash object. A use (`copy`, `update` or `digest`) is
atomic: `hashlib` holds a lock on the object. The pauses of the async methods (`await asleep()`) are between two uses as well. Everything else that a
call changes (key bundles, stream-hmacs, permutations, generators) is made by the call itself and known to no other.
-/

namespace Aiootp.Cipher

/-- A hash object of `hashlib`: its function and what it has absorbed. -/
structure Hasher where
  xof : Xof
  absorbed : Bytes

/-- A reference to a hash object. -/
abbrev Ref := Nat

/-- What is left of a call: its uses of hash objects one by one, each with what follows, then the result. -/
inductive Prog (α : Type) where
  | done (r : Except Err α)
  | copy (a : Ref) (next : Ref → Prog α)
  | update (a : Ref) (data : Bytes) (next : Prog α)
  | digest (a : Ref) (size : Nat) (next : Bytes → Prog α)

namespace Prog

/-- One call after the other; an exception ends both. -/
def bind {α β : Type} : Prog α → (α → Prog β) → Prog β
  | .done (.error e), _ => .done (.error e)
  | .done (.ok x), f => f x
  | .copy a next, f => .copy a fun b => (next b).bind f
  | .update a data next, f => .update a data (next.bind f)
  | .digest a size next, f => .digest a size fun d => (next d).bind f

instance : Monad Prog where
  pure x := .done (.ok x)
  bind := Prog.bind

/-- A computation that uses no hash object. -/
def lift {α : Type} (x : Except Err α) : Prog α := .done x

/-- `a.copy()` -/
def copied (a : Ref) : Prog Ref := .copy a pure

/-- `a.update(data)` -/
def updated (a : Ref) (data : Bytes) : Prog Unit := .update a data (pure ())

/-- `a.digest(size)` -/
def digested (a : Ref) (size : Nat) : Prog Bytes := .digest a size pure

end Prog

open Prog

/-! ### cipher_kdfs.py -/

/-- cipher_kdfs.py:112-119 `KeyedCipherKDF.__init__`; `factory` is the hash object of `prepare_factory`, of which `config.factory()` is a copy
(cipher_kdfs.py:84-101). -/
def KdfConfig.keyedObj (k : KdfConfig) (factory : Ref) (key : Bytes) : Prog Ref := do
  let kdf ← copied factory
  let encodedKey ← lift (Canon.encodeKey key k.blocksize k.pad)
  updated kdf encodedKey
  return kdf

/-- cipher_kdfs.py:121-133 `KeyedCipherKDF.new_session_copy`. -/
def KdfConfig.newSessionObj (k : KdfConfig) (kdf : Ref) (summary : Bytes) : Prog Ref := do
  let session ← copied kdf
  let padded ← lift (Canon.fullblockLjust summary k.blocksize k.pad)
  updated session (padded ++ k.offset)
  return session

/-! ### stream_hmac.py -/

/-- stream_hmac.py:32-54 `StreamHMAC` objects: as `Shmac`, with a reference to the hash object. -/
structure ShmacObj where
  ivGiven : Bool
  mode : Option Direction
  finalized : Bool
  mac : Option Ref
  previous : Option Bytes
  current : Option Bytes
  result : Option Bytes
  perm : Perm.Chain

namespace ShmacObj

variable (E : Env)

/-- stream_hmac.py:59-100 `__init__`, `_initialize_session_state`. -/
def new (configId : Nat) (mac : Ref) (ivGiven : Bool) : Prog ShmacObj := do
  let keyBytes ← lift (Sizes.permutationKeySize configId)
  let primerKey ← digested mac (E.cfg.primerKeyBytes keyBytes)
  let digest := E.cfg.firstDigestSlice.of primerKey
  let perm ← lift (Perm.Chain.new true E.permConfig ((Sizes.permutationKeySlice keyBytes).of primerKey))
  return {
    ivGiven, mode := none, finalized := false
    mac := some mac, previous := some digest, current := some digest, result := none, perm }

/-- stream_hmac.py:120-134 `_for_encryption`. -/
def forEncryption (s : ShmacObj) : Prog ShmacObj := do
  lift (raiseIf (s.mode.isSome = true) .permission)
  lift (raiseIf (s.ivGiven = true) .shmacMisuse)
  return { s with mode := some .encryption }

/-- stream_hmac.py:136-150 `_for_decryption`. -/
def forDecryption (s : ShmacObj) : Prog ShmacObj := do
  lift (raiseIf (s.mode.isSome = true) .permission)
  lift (raiseIf (s.ivGiven = false) .shmacMisuse)
  return { s with mode := some .decryption }

/-- stream_hmac.py:160-166, 168-193 `_update`, `_aupdate`: the placeholder before a mode is declared, `_update_mac` after. -/
def update (s : ShmacObj) (block : Bytes) : Prog ShmacObj := do
  lift (raiseIf (s.mode.isNone = true) .shmacMisuse)
  let mac ← lift (attr s.mac)
  updated mac block
  let current ← lift (attr s.current)
  let digest ← digested mac E.cfg.shmacBlocksize
  return { s with previous := some current, current := some digest }

/-- stream_hmac.py:307-347 `finalize`. -/
def finalize (s : ShmacObj) : Prog (Bytes × ShmacObj) := do
  lift (raiseIf (s.finalized = true) .shmacMisuse)
  let mac ← lift (attr s.mac)
  let digest ← digested mac E.cfg.shmacDoubleBlocksize
  let result := E.cfg.shmacResultSlice.of digest
  return (result, { s with finalized := true, result := some result, mac := none, previous := none, current := none })

/-- stream_hmac.py:110-118, 414-423 `test_shmac`. -/
def testShmac (s : ShmacObj) (untrusted : Bytes) : Prog Unit := do
  let result ← lift (match s.result with
    | some r => .ok r
    | none => .error .validationIncomplete)
  lift (raiseIf (untrusted ≠ result) .invalidSHMAC)

end ShmacObj

/-! ### shake_permute_cipher.py -/

/-- shake_permute_cipher.py:117-171 `_aencipher_then_hash`, `_encipher_then_hash`. -/
def permuteEncipherObj (E : Env) (s : ShmacObj) (plaintext : Bytes) : Prog (Bytes × ShmacObj) := do
  let current ← lift (attr s.current)
  let digest := E.cfg.permutationDigestSlice.of current
  let inKey := fromBE (E.cfg.inKeySlice.of current)
  let outKey := fromBE (E.cfg.outKeySlice.of current)
  let permuted ← lift (terminates (s.perm.uncappedPermute (inKey ^^^ fromBE plaintext)))
  let ciphertext ← lift (toBytesBE E.cfg.blocksize (outKey ^^^ permuted))
  let s ← s.update E (plaintext ++ ciphertext ++ digest)
  return (ciphertext, s)

/-- shake_permute_cipher.py:173-227 `_ahash_then_decipher`, `_hash_then_decipher`. -/
def permuteDecipherObj (E : Env) (s : ShmacObj) (ciphertext : Bytes) : Prog (Bytes × ShmacObj) := do
  let current ← lift (attr s.current)
  let digest := E.cfg.permutationDigestSlice.of current
  let inKey := fromBE (E.cfg.inKeySlice.of current)
  let outKey := fromBE (E.cfg.outKeySlice.of current)
  let inverted ← lift (terminates (s.perm.uncappedInvert (outKey ^^^ fromBE ciphertext)))
  let plaintext ← lift (toBytesBE E.cfg.blocksize (inKey ^^^ inverted))
  let s ← s.update E (plaintext ++ ciphertext ++ digest)
  return (plaintext, s)

/-- shake_permute_cipher.py:237-268 `acombine_streams`, `combine_streams`: one turn of the loop. -/
def permuteTurnObj (E : Env) (s : ShmacObj) (_ : Unit) (block : Bytes) : Prog (Bytes × ShmacObj × Unit) := do
  let (out, s) ← match s.mode with
    | some .encryption => permuteEncipherObj E s block
    | some .decryption => permuteDecipherObj E s block
    | none => lift (.error .attribute)
  return (out, s, ())

/-! ### dual_output_shake_cipher.py -/

/-- The left and right hash objects of a session (dual_output_shake_cipher.py:74-90), and whether the first block has been processed. -/
structure DualRefs where
  left : Ref
  right : Ref
  started : Bool

/-- dual_output_shake_cipher.py:127-173 `_anew_keystream`, `_new_keystream`: one turn of the loop. -/
def keystreamObj (E : DualEnv) (k : DualRefs) (ratchetKey : Bytes) : Prog Bytes := do
  updated k.left (E.leftSlice ratchetKey)
  updated k.right (E.rightSlice ratchetKey)
  let left ← digested k.left E.cfg.shmacBlocksize
  let right ← digested k.right E.cfg.shmacBlocksize
  return left ++ right

/-- dual_output_shake_cipher.py:226-276 `_aencipher_then_hash`, `_encipher_then_hash`. -/
def dualEncipherObj (E : DualEnv) (s : ShmacObj) (plaintext key : Bytes) : Prog (Bytes × ShmacObj) := do
  let ciphertext ← lift (toBytesBE E.cfg.blocksize
    (fromBE (E.cfg.embeddedCiphertextSlice.of key) ^^^ fromBE plaintext))
  let s ← s.update E.toEnv (E.cfg.embeddedLeftSlice.of key ++ ciphertext ++ E.cfg.embeddedRightSlice.of key)
  return (ciphertext, s)

/-- dual_output_shake_cipher.py:278-326 `_ahash_then_decipher`, `_hash_then_decipher`. -/
def dualDecipherObj (E : DualEnv) (s : ShmacObj) (ciphertext key : Bytes) : Prog (Bytes × ShmacObj) := do
  let s ← s.update E.toEnv (E.cfg.embeddedLeftSlice.of key ++ ciphertext ++ E.cfg.embeddedRightSlice.of key)
  let plaintext ← lift (toBytesBE E.cfg.blocksize
    (fromBE (E.cfg.embeddedCiphertextSlice.of key) ^^^ fromBE ciphertext))
  return (plaintext, s)

/-- dual_output_shake_cipher.py:411-474 `_aunique_cipher`, `_unique_cipher`. -/
def uniqueCipherObj (E : DualEnv) (s : ShmacObj) (k : DualRefs) (block : Bytes) : Prog (Bytes × ShmacObj × DualRefs) := do
  let header := E.cfg.innerHeaderSlice.of block
  let masked ← lift (terminates (s.perm.permute (fromBE header)))
  let maskedHeader ← lift (toBytesBE E.cfg.innerHeaderBytes masked)
  let mac ← lift (attr s.mac)
  let current ← lift (attr s.current)
  updated mac (header ++ maskedHeader ++ E.cfg.sivDigestSlice.of current)
  let ratchet ← digested mac E.cfg.shmacDoubleBlocksize
  let key ← keystreamObj E k ratchet
  let content ← lift (Sizes.toBytesSigned E.cfg.firstContentBytes
    (fromBE (E.cfg.firstKeySlice.of key) ^^^ fromBE (E.cfg.firstContentSlice.of block)))
  let ciphertext := maskedHeader ++ content
  let s ← s.update E.toEnv (E.cfg.embeddedLeftSlice.of key ++ ciphertext ++ E.cfg.embeddedRightSlice.of key)
  return (ciphertext, s, { k with started := true })

/-- dual_output_shake_cipher.py:476-542 `_aunique_decipher`, `_unique_decipher`. -/
def uniqueDecipherObj (E : DualEnv) (s : ShmacObj) (k : DualRefs) (block : Bytes) : Prog (Bytes × ShmacObj × DualRefs) := do
  let maskedHeader := E.cfg.innerHeaderSlice.of block
  let unmasked ← lift (terminates (s.perm.invert (fromBE maskedHeader)))
  let header ← lift (toBytesBE E.cfg.innerHeaderBytes unmasked)
  let mac ← lift (attr s.mac)
  let current ← lift (attr s.current)
  updated mac (header ++ maskedHeader ++ E.cfg.sivDigestSlice.of current)
  let ratchet ← digested mac E.cfg.shmacDoubleBlocksize
  let key ← keystreamObj E k ratchet
  let content ← lift (Sizes.toBytesSigned E.cfg.firstContentBytes
    (fromBE (E.cfg.firstKeySlice.of key) ^^^ fromBE (E.cfg.firstContentSlice.of block)))
  let plaintext := header ++ content
  let s ← s.update E.toEnv (E.cfg.embeddedLeftSlice.of key ++ block ++ E.cfg.embeddedRightSlice.of key)
  return (plaintext, s, { k with started := true })

/-- dual_output_shake_cipher.py:215-224 `_ratchet_key`. -/
def ratchetKeyObj (s : ShmacObj) : Prog Bytes := do
  let current ← lift (attr s.current)
  let previous ← lift (attr s.previous)
  return current ++ previous

/-- dual_output_shake_cipher.py:553-600 `acombine_streams`, `combine_streams` with synthetic_iv.py:36-88: one block. -/
def dualTurnObj (E : DualEnv) (s : ShmacObj) (k : DualRefs) (block : Bytes) : Prog (Bytes × ShmacObj × DualRefs) :=
  match k.started, s.mode with
  | _, none => lift (.error .attribute)
  | false, some .encryption => uniqueCipherObj E s k block
  | false, some .decryption => uniqueDecipherObj E s k block
  | true, some .encryption => do
    let ratchet ← ratchetKeyObj s
    let key ← keystreamObj E k ratchet
    let (out, s) ← dualEncipherObj E s block key
    return (out, s, k)
  | true, some .decryption => do
    let ratchet ← ratchetKeyObj s
    let key ← keystreamObj E k ratchet
    let (out, s) ← dualDecipherObj E s block key
    return (out, s, k)

/-! ### both ciphers -/

/-- The class attributes of a cipher, as `Cipher`. `factory` is the hash object of the stream-hmac's configuration; it and those of the other
configurations belong to the module, so every cipher object of the class uses them. `ρ` is the type of the references in a cipher object besides the one
of the stream-hmac, and `σ` the type of the references of a session. -/
structure CipherClass (ρ σ : Type) extends Env where
  configId : Nat
  factory : Ref
  keyOthers : Bytes → Prog ρ
  sessionOthers : ρ → Bytes → Prog σ
  turn : ShmacObj → σ → Bytes → Prog (Bytes × ShmacObj × σ)

/-- `Slick256` and every other shake-permute cipher (shake_permute_cipher.py:41-65, slick_256.py). -/
def permuteClass (E : Env) (factory : Ref) : CipherClass Unit Unit where
  toEnv := E
  configId := E.cfg.blocksize
  factory := factory
  keyOthers := fun _ => pure ()
  sessionOthers := fun _ _ => pure ()
  turn := permuteTurnObj E

/-- `Chunky2048` and every other dual-output cipher (dual_output_shake_cipher.py:43-71, chunky_2048.py). -/
def dualClass (E : DualEnv) (factory leftFactory rightFactory : Ref) : CipherClass (Ref × Ref) DualRefs where
  toEnv := E.toEnv
  configId := E.cfg.innerHeaderBytes
  factory := factory
  keyOthers := fun key => do
    let left ← E.leftKdf.keyedObj leftFactory key
    let right ← E.rightKdf.keyedObj rightFactory key
    return (left, right)
  sessionOthers := fun kdfs summary => do
    let left ← E.leftKdf.newSessionObj kdfs.1 summary
    let right ← E.rightKdf.newSessionObj kdfs.2 summary
    return { left, right, started := false }
  turn := dualTurnObj E

/-- cipher_interface.py:86 `_kdfs`: the references in a cipher object. -/
structure CipherObj (ρ : Type) where
  shmac : Ref
  others : ρ

/-- A registered stream-hmac with the other references of its session. -/
structure SessionObj (σ : Type) where
  shmac : ShmacObj
  keys : σ

namespace CipherClass

variable {ρ σ : Type} (H : CipherClass ρ σ)

/-- cipher_interface.py:114-121 with shake_permute_cipher.py:49-55, dual_output_shake_cipher.py:51-59: `Cipher(key)`. -/
def make (key : Bytes) : Prog (CipherObj ρ) := do
  lift (testKeyValidity key)
  let shmac ← H.shmacKdf.keyedObj H.factory key
  let others ← H.keyOthers key
  return { shmac, others }

/-- `[Cipher(key) for key in keys]` -/
def makeAll : List Bytes → Prog (List (CipherObj ρ))
  | [] => pure []
  | key :: keys => do
    let obj ← H.make key
    let objs ← makeAll keys
    return obj :: objs

/-- key_bundle.py:187-233, cipher_interface.py:219-224, 304-310: a key bundle and a stream-hmac of a cipher object. -/
def startSession (obj : CipherObj ρ) (b : SaltAADIV) (direction : Direction) : Prog (SessionObj σ) := do
  let summary ← lift b.summary
  let mac ← H.shmacKdf.newSessionObj obj.shmac summary
  let keys ← H.sessionOthers obj.others summary
  let shmac ← ShmacObj.new H.toEnv H.configId mac (!b.ivIsFresh)
  let shmac ← match direction with
    | .encryption => shmac.forEncryption
    | .decryption => shmac.forDecryption
  return { shmac, keys }

/-- stream_junction.py:37-148 `(a)bytes_encipher`, `(a)bytes_decipher` driven over all blocks. -/
def run : SessionObj σ → List Bytes → Prog (List Bytes × SessionObj σ)
  | s, [] => pure ([], s)
  | s, block :: blocks => do
    let (out, shmac, keys) ← H.turn s.shmac s.keys block
    let (outs, s) ← run { shmac, keys } blocks
    return (out :: outs, s)

/-- cipher_interface.py:123-238 `abytes_encrypt`, `bytes_encrypt`. -/
def bytesEncrypt (obj : CipherObj ρ) (d : Draws) (salt : Option Bytes) (aad data : Bytes) : Prog Bytes := do
  let bundle ← lift (SaltAADIV.new H.cfg salt aad none d.salt d.iv)
  let session ← H.startSession obj bundle .encryption
  let padded ← lift (H.cfg.padPlaintext d.reading d.sivKey d.extra data)
  let (blocks, session) ← H.run session (Text.batch H.cfg.blocksize padded)
  let (shmac, _) ← session.shmac.finalize H.toEnv
  return shmac ++ bundle.salt ++ bundle.iv ++ blocks.flatten

/-- cipher_interface.py:240-317 `abytes_decrypt`, `bytes_decrypt`. -/
def bytesDecrypt (obj : CipherObj ρ) (saltDraw : Bytes) (now : Int) (ttl : Option Int) (aad data : Bytes) : Prog Bytes := do
  let parts ← lift (Ciphertext.parse H.cfg data)
  let bundle ← lift (SaltAADIV.new H.cfg (some parts.salt) aad (some parts.iv) saltDraw [])
  let session ← H.startSession obj bundle .decryption
  let (blocks, session) ← H.run session (Text.batch H.cfg.blocksize parts.ciphertext)
  let (_, shmac) ← session.shmac.finalize H.toEnv
  shmac.testShmac parts.shmac
  lift (H.cfg.depadPlaintext now ttl blocks.flatten)

end CipherClass

/-- The cipher object of a call: one of those that all calls have, or a new one. -/
inductive Source where
  | shared (i : Nat)
  | fresh (key : Bytes)

/-- A call of `(a)bytes_encrypt` or `(a)bytes_decrypt` with what `token_bytes` and the clock return to it. -/
inductive CipherCall where
  | encrypt (on : Source) (d : Draws) (salt : Option Bytes) (aad data : Bytes)
  | decrypt (on : Source) (saltDraw : Bytes) (now : Int) (ttl : Option Int) (aad data : Bytes)

/-- The cipher object (cipher_interface.py:114-121 if it is new). -/
def Source.obj {ρ σ : Type} (H : CipherClass ρ σ) (objs : List (CipherObj ρ)) : Source → Prog (CipherObj ρ)
  | .shared i => lift (attr objs[i]?)
  | .fresh key => H.make key

/-- The call before its first use of a hash object. -/
def CipherCall.start {ρ σ : Type} (H : CipherClass ρ σ) (objs : List (CipherObj ρ)) : CipherCall → Prog Bytes
  | .encrypt on d salt aad data => do H.bytesEncrypt (← on.obj H objs) d salt aad data
  | .decrypt on saltDraw now ttl aad data => do H.bytesDecrypt (← on.obj H objs) saltDraw now ttl aad data

/-! ### threads and coroutines -/

/-- The hash objects that there are, and the calls that have been begun. -/
structure Calls where
  heap : List Hasher
  calls : List (Prog Bytes)

namespace Prog

/-- A call goes on to its next use of a hash object. A new hash object gets a new reference. (No call has a reference to nothing.) -/
def step {α : Type} (heap : List Hasher) : Prog α → List Hasher × Prog α
  | .done r => (heap, .done r)
  | .copy a next =>
    match heap[a]? with
    | none => (heap, .done (.error .attribute))
    | some h => (heap ++ [h], next heap.length)
  | .update a data next =>
    match heap[a]? with
    | none => (heap, .done (.error .attribute))
    | some h => (heap.set a { h with absorbed := h.absorbed ++ data }, next)
  | .digest a size next =>
    match heap[a]? with
    | none => (heap, .done (.error .attribute))
    | some h => (heap, next (h.xof.digest h.absorbed size))

/-- A call that is alone. -/
def alone {α : Type} (heap : List Hasher) : Prog α → Except Err α × List Hasher
  | .done r => (r, heap)
  | .copy a next =>
    match heap[a]? with
    | none => (.error .attribute, heap)
    | some h => (next heap.length).alone (heap ++ [h])
  | .update a data next =>
    match heap[a]? with
    | none => (.error .attribute, heap)
    | some h => next.alone (heap.set a { h with absorbed := h.absorbed ++ data })
  | .digest a size next =>
    match heap[a]? with
    | none => (.error .attribute, heap)
    | some h => (next (h.xof.digest h.absorbed size)).alone heap

end Prog

namespace Calls

/-- Call `i` goes on to its next use of a hash object. -/
def step (w : Calls) (i : Nat) : Calls :=
  match w.calls[i]? with
  | none => w
  | some p => ⟨(p.step w.heap).1, w.calls.set i (p.step w.heap).2⟩

/-- The calls go on in the order of the schedule. -/
def run (w : Calls) (schedule : List Nat) : Calls := schedule.foldl step w

/-- How call `i` ended, if it did. -/
def result (w : Calls) (i : Nat) : Option (Except Err Bytes) :=
  match w.calls[i]? with
  | some (.done r) => some r
  | _ => none

end Calls

end Aiootp.Cipher
