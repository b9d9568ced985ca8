import Verif.Model.CipherConfig
import Verif.Model.Clock

/-
`aiootp/ciphers/padding.py` and `aiootp/ciphers/ciphertext_formatting.py`.
-/

namespace Aiootp.Cipher

namespace Sizes

variable (c : Sizes)

/-- padding.py:103-109, 120-126, 147-164 `start_padding`. `reading` is `clock.time()`, `sivKey` what `token_bytes`
returned. -/
def startPadding (reading : Int) (sivKey : Bytes) : Except Err Bytes := do
  let timestamp ← Clock.makeTimestamp reading c.timestampBytes .big
  return timestamp ++ sivKey

/-- padding.py:220-232 `_data_measurements`: the padding size and the encoded sentinel. `ZeroDivisionError` for an
empty frame. -/
def dataMeasurements (size : Nat) : Except Err (Nat × Bytes) := do
  if c.paddingFrame = 0 then throw .zeroDivision
  let remainder := (c.innerHeaderBytes + size) % c.paddingFrame
  let paddingSize := c.paddingFrame - remainder
  let sentinel := paddingSize % c.paddingFrame
  let padSentinel ← toBytesBE c.sentinelBytes sentinel
  return (paddingSize, padSentinel)

/-- padding.py:247-254, 268-278 `_make_end_padding`, `end_padding`. `extra` is what `token_bytes(PADDING_FRAME)`
returned. -/
def endPadding (extra : Bytes) (size : Nat) : Except Err Bytes := do
  let report ← c.dataMeasurements size
  let padding := extra ++ report.2
  return Slice.of ⟨some (-report.1), none⟩ padding

/-- padding.py:311-340 `pad_plaintext`. -/
def padPlaintext (reading : Int) (sivKey extra data : Bytes) : Except Err Bytes := do
  let startPadding ← c.startPadding reading sivKey
  let endPadding ← c.endPadding extra data.length
  return startPadding ++ data ++ endPadding

/-- padding.py:349-354 `depadding_start_index`. -/
def depaddingStartIndex : Int := c.innerHeaderBytes

/-- padding.py:366-374 `depadding_end_index`. -/
def depaddingEndIndex (data : Bytes) : Int :=
  let sentinel := fromBE (c.sentinelSlice.of data);
  -(if sentinel = 0 then c.paddingFrame else sentinel)

/-- padding.py:396-414 `depad_plaintext`. `now` is `clock.time()` at the time of the call. -/
def depadPlaintext (now : Int) (ttl : Option Int) (data : Bytes) : Except Err Bytes := do
  Clock.testTimestamp now (c.timestampSlice.of data) ttl .big
  return Slice.of ⟨some c.depaddingStartIndex, some (c.depaddingEndIndex data)⟩ data

end Sizes

/-- ciphertext_formatting.py:28-36 `Ciphertext`. -/
structure Ciphertext where
  shmac : Bytes
  salt : Bytes
  iv : Bytes
  ciphertext : Bytes
  deriving DecidableEq, Repr

/-- ciphertext_formatting.py:40-63 `__init__`, `_ensure_valid_size`. -/
def Ciphertext.parse (c : Sizes) (data : Bytes) : Except Err Ciphertext :=
  let size : Int := (data.length : Int) - c.headerBytes
  if size ≤ 0 ∨ size % c.blocksize ≠ 0 then .error .ciphertextSize
  else
    let (shmac, rest) := (data.take c.shmacBytes, data.drop c.shmacBytes)
    let (salt, rest) := (rest.take c.saltBytes, rest.drop c.saltBytes)
    let (iv, rest) := (rest.take c.ivBytes, rest.drop c.ivBytes)
    .ok { shmac, salt, iv, ciphertext := rest }

end Aiootp.Cipher
