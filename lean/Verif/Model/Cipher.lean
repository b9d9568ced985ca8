import Verif.Model.Shmac
import Verif.Model.Padding
import Verif.Model.Text

/-
`aiootp/ciphers/shake_permute_cipher.py`, `dual_output_shake_cipher.py`, `synthetic_iv.py`, `stream_junction.py` and
`cipher_interface.py`.

The class attributes in which the two ciphers differ (`_KDFs`, `_KeyAADBundle`, `_StreamHMAC`, `_Junction`) are the
fields of the structure `Cipher`. `κ` is the type of the hash objects of a session besides the one of the stream-hmac.
-/

namespace Aiootp.Cipher

/-! ### shake_permute_cipher.py -/

/-- shake_permute_cipher.py:145-171 `_encipher_then_hash`. -/
def permuteEncipher (E : Env) (s : Shmac) (plaintext : Bytes) : Except Err (Bytes × Shmac) := do
  let current ← attr s.current
  let digest := E.cfg.permutationDigestSlice.of current
  let inKey := fromBE (E.cfg.inKeySlice.of current)
  let outKey := fromBE (E.cfg.outKeySlice.of current)
  let permuted ← terminates (s.perm.uncappedPermute (inKey ^^^ fromBE plaintext))
  let ciphertext ← toBytesBE E.cfg.blocksize (outKey ^^^ permuted)
  let s ← s.update E (plaintext ++ ciphertext ++ digest)
  return (ciphertext, s)

/-- shake_permute_cipher.py:201-227 `_hash_then_decipher`. -/
def permuteDecipher (E : Env) (s : Shmac) (ciphertext : Bytes) : Except Err (Bytes × Shmac) := do
  let current ← attr s.current
  let digest := E.cfg.permutationDigestSlice.of current
  let inKey := fromBE (E.cfg.inKeySlice.of current)
  let outKey := fromBE (E.cfg.outKeySlice.of current)
  let inverted ← terminates (s.perm.uncappedInvert (outKey ^^^ fromBE ciphertext))
  let plaintext ← toBytesBE E.cfg.blocksize (inKey ^^^ inverted)
  let s ← s.update E (plaintext ++ ciphertext ++ digest)
  return (plaintext, s)

/-- shake_permute_cipher.py:254-268 `combine_streams`: one turn of the loop. The transform is the one that was bound
when the mode was declared (stream_hmac.py:132, 148). -/
def permuteTurn (E : Env) (s : Shmac) (_ : Unit) (block : Bytes) : Except Err (Bytes × Shmac × Unit) := do
  let (out, s) ← match s.mode with
    | some .encryption => permuteEncipher E s block
    | some .decryption => permuteDecipher E s block
    | none => .error .attribute
  return (out, s, ())

/-! ### dual_output_shake_cipher.py -/

/-- The parts of a dual-output configuration that the ratchet needs: the two hash functions and how a ratchet key is
divided between them (dual_output_shake_cipher_config.py:320-323). -/
structure DualEnv extends Env where
  leftKdf : KdfConfig
  rightKdf : KdfConfig
  leftSlice : Bytes → Bytes
  rightSlice : Bytes → Bytes

/-- The left and right hash objects, and whether the first block has been processed. -/
structure DualKeys where
  left : Bytes
  right : Bytes
  started : Bool
  deriving DecidableEq, Repr

/-- dual_output_shake_cipher.py:152-173 `_new_keystream`: one turn of the loop. -/
def keystream (E : DualEnv) (k : DualKeys) (ratchetKey : Bytes) : Bytes × DualKeys :=
  let left := k.left ++ E.leftSlice ratchetKey
  let right := k.right ++ E.rightSlice ratchetKey
  (E.leftKdf.xof.digest left E.cfg.shmacBlocksize ++ E.rightKdf.xof.digest right E.cfg.shmacBlocksize,
    { k with left, right })

/-- dual_output_shake_cipher.py:252-276 `_encipher_then_hash`. -/
def dualEncipher (E : DualEnv) (s : Shmac) (plaintext key : Bytes) : Except Err (Bytes × Shmac) := do
  let ciphertext ← toBytesBE E.cfg.blocksize
    (fromBE (E.cfg.embeddedCiphertextSlice.of key) ^^^ fromBE plaintext)
  let s ← s.update E.toEnv (E.cfg.embeddedLeftSlice.of key ++ ciphertext ++ E.cfg.embeddedRightSlice.of key)
  return (ciphertext, s)

/-- dual_output_shake_cipher.py:303-326 `_hash_then_decipher`. -/
def dualDecipher (E : DualEnv) (s : Shmac) (ciphertext key : Bytes) : Except Err (Bytes × Shmac) := do
  let s ← s.update E.toEnv (E.cfg.embeddedLeftSlice.of key ++ ciphertext ++ E.cfg.embeddedRightSlice.of key)
  let plaintext ← toBytesBE E.cfg.blocksize
    (fromBE (E.cfg.embeddedCiphertextSlice.of key) ^^^ fromBE ciphertext)
  return (plaintext, s)

/-- dual_output_shake_cipher.py:445-474 `_unique_cipher`. -/
def uniqueCipher (E : DualEnv) (s : Shmac) (k : DualKeys) (block : Bytes) :
    Except Err (Bytes × Shmac × DualKeys) := do
  let header := E.cfg.innerHeaderSlice.of block
  let masked ← terminates (s.perm.permute (fromBE header))
  let maskedHeader ← toBytesBE E.cfg.innerHeaderBytes masked
  let mac ← attr s.mac
  let current ← attr s.current
  let mac := mac ++ (header ++ maskedHeader ++ E.cfg.sivDigestSlice.of current)
  let s := { s with mac := some mac }
  let (key, k) := keystream E k (E.shmacKdf.xof.digest mac E.cfg.shmacDoubleBlocksize)
  let content ← Sizes.toBytesSigned E.cfg.firstContentBytes
    (fromBE (E.cfg.firstKeySlice.of key) ^^^ fromBE (E.cfg.firstContentSlice.of block))
  let ciphertext := maskedHeader ++ content
  let s ← s.update E.toEnv (E.cfg.embeddedLeftSlice.of key ++ ciphertext ++ E.cfg.embeddedRightSlice.of key)
  return (ciphertext, s, { k with started := true })

/-- dual_output_shake_cipher.py:513-542 `_unique_decipher`. -/
def uniqueDecipher (E : DualEnv) (s : Shmac) (k : DualKeys) (block : Bytes) :
    Except Err (Bytes × Shmac × DualKeys) := do
  let maskedHeader := E.cfg.innerHeaderSlice.of block
  let unmasked ← terminates (s.perm.invert (fromBE maskedHeader))
  let header ← toBytesBE E.cfg.innerHeaderBytes unmasked
  let mac ← attr s.mac
  let current ← attr s.current
  let mac := mac ++ (header ++ maskedHeader ++ E.cfg.sivDigestSlice.of current)
  let s := { s with mac := some mac }
  let (key, k) := keystream E k (E.shmacKdf.xof.digest mac E.cfg.shmacDoubleBlocksize)
  let content ← Sizes.toBytesSigned E.cfg.firstContentBytes
    (fromBE (E.cfg.firstKeySlice.of key) ^^^ fromBE (E.cfg.firstContentSlice.of block))
  let plaintext := header ++ content
  let s ← s.update E.toEnv (E.cfg.embeddedLeftSlice.of key ++ block ++ E.cfg.embeddedRightSlice.of key)
  return (plaintext, s, { k with started := true })

/-- dual_output_shake_cipher.py:215-224 `_ratchet_key`. -/
def ratchetKey (s : Shmac) : Except Err Bytes := do
  let current ← attr s.current
  let previous ← attr s.previous
  return current ++ previous

/-- dual_output_shake_cipher.py:583-600 `combine_streams` with synthetic_iv.py:65-88 `validated_transform`: one block. -/
def dualTurn (E : DualEnv) (s : Shmac) (k : DualKeys) (block : Bytes) : Except Err (Bytes × Shmac × DualKeys) :=
  match k.started, s.mode with
  | _, none => .error .attribute
  | false, some .encryption => uniqueCipher E s k block
  | false, some .decryption => uniqueDecipher E s k block
  | true, some .encryption => do
    let ratchet ← ratchetKey s
    let (key, k) := keystream E k ratchet
    let (out, s) ← dualEncipher E s block key
    return (out, s, k)
  | true, some .decryption => do
    let ratchet ← ratchetKey s
    let (key, k) := keystream E k ratchet
    let (out, s) ← dualDecipher E s block key
    return (out, s, k)

/-! ### both ciphers -/

/-- The class attributes of a cipher (cipher_interface.py:92-104). `configId` is `PERMUTATION_CONFIG_ID`, `sessionKdfs
key summary` the further hash objects of a session, `turn` one block of `_Junction.combine_streams`. -/
structure Cipher (κ : Type) extends Env where
  configId : Nat
  sessionKdfs : Bytes → Bytes → Except Err κ
  turn : Shmac → κ → Bytes → Except Err (Bytes × Shmac × κ)

/-- `Slick256` and every other shake-permute cipher (shake_permute_cipher.py:41-65, slick_256.py). -/
def permuteCipher (E : Env) : Cipher Unit where
  toEnv := E
  configId := E.cfg.blocksize
  sessionKdfs := fun _ _ => .ok ()
  turn := permuteTurn E

/-- `Chunky2048` and every other dual-output cipher (dual_output_shake_cipher.py:43-71, chunky_2048.py). -/
def dualCipher (E : DualEnv) : Cipher DualKeys where
  toEnv := E.toEnv
  configId := E.cfg.innerHeaderBytes
  sessionKdfs := fun key summary => do
    let left ← E.leftKdf.keyed key
    let right ← E.rightKdf.keyed key
    let left ← E.leftKdf.newSessionCopy left summary
    let right ← E.rightKdf.newSessionCopy right summary
    return { left, right, started := false }
  turn := dualTurn E

/-- The draws of one encryption: the results of `token_bytes` and of the clock. -/
structure Draws where
  salt : Bytes
  iv : Bytes
  reading : Int
  sivKey : Bytes
  extra : Bytes

/-- The draws have the sizes that were asked for (key_bundle.py:56, 69; padding.py:126, 199) and the clock reading fits
into the timestamp. -/
structure Draws.Fit (d : Draws) (c : Sizes) : Prop where
  salt : d.salt.length = c.saltBytes
  iv : d.iv.length = c.ivBytes
  sivKey : d.sivKey.length = c.sivKeyBytes
  extra : d.extra.length = c.paddingFrame
  reading_nonneg : 0 ≤ d.reading
  reading_lt : d.reading < 256 ^ c.timestampBytes

namespace Cipher

variable {κ : Type} (C : Cipher κ)

/-- A registered stream-hmac with the other hash objects of its session. -/
structure Session (κ : Type) where
  shmac : Shmac
  keys : κ

/-- A cipher object with key `key` (cipher_interface.py:114-121) makes a key bundle (key_bundle.py:187-233), chooses the
sync mode and makes a stream-hmac (cipher_interface.py:219-224, 304-310). -/
def startSession (key : Bytes) (b : SaltAADIV) (direction : Direction) : Except Err (Session κ) := do
  testKeyValidity key
  let kdf ← C.shmacKdf.keyed key
  let summary ← b.summary
  let mac ← C.shmacKdf.newSessionCopy kdf summary
  let keys ← C.sessionKdfs key summary
  let shmac ← Shmac.new C.toEnv C.configId mac (!b.ivIsFresh)
  let shmac ← match direction with
    | .encryption => shmac.forEncryption
    | .decryption => shmac.forDecryption
  return { shmac, keys }

/-- stream_junction.py:68-96, 125-148 `bytes_encipher`, `bytes_decipher` driven over all blocks. -/
def run : Session κ → List Bytes → Except Err (List Bytes × Session κ)
  | s, [] => .ok ([], s)
  | s, block :: blocks => do
    let (out, shmac, keys) ← C.turn s.shmac s.keys block
    let (outs, s) ← run { shmac, keys } blocks
    return (out :: outs, s)

/-- cipher_interface.py:183-238 `bytes_encrypt`. -/
def bytesEncrypt (key : Bytes) (d : Draws) (salt : Option Bytes) (aad data : Bytes) : Except Err Bytes := do
  let bundle ← SaltAADIV.new C.cfg salt aad none d.salt d.iv
  let session ← C.startSession key bundle .encryption
  let padded ← C.cfg.padPlaintext d.reading d.sivKey d.extra data
  let (blocks, session) ← C.run session (Text.batch C.cfg.blocksize padded)
  let (shmac, _) ← session.shmac.finalize C.toEnv
  return shmac ++ bundle.salt ++ bundle.iv ++ blocks.flatten

/-- cipher_interface.py:282-317 `bytes_decrypt`. `saltDraw` is what `token_bytes` would return for an empty salt. -/
def bytesDecrypt (key saltDraw : Bytes) (now : Int) (ttl : Option Int) (aad data : Bytes) : Except Err Bytes := do
  let parts ← Ciphertext.parse C.cfg data
  let bundle ← SaltAADIV.new C.cfg (some parts.salt) aad (some parts.iv) saltDraw []
  let session ← C.startSession key bundle .decryption
  let (blocks, session) ← C.run session (Text.batch C.cfg.blocksize parts.ciphertext)
  let (_, shmac) ← session.shmac.finalize C.toEnv
  shmac.testShmac parts.shmac
  C.cfg.depadPlaintext now ttl blocks.flatten

end Cipher

end Aiootp.Cipher
