import Verif.Model.Slice
import Verif.Model.Perm

/-
`aiootp/ciphers/shake_permute_cipher_config.py`, `dual_output_shake_cipher_config.py`, `slick_256_config.py`,
`chunky_2048_config.py`: the measurements derived from the constants of a cipher and the checks made on them.

Simplifications: the sizes are naturals; `PACKED_METADATA` is not computed here (of its construction only the
`to_bytes` calls that can refuse a size are modelled; the one-byte length fields that limit the length of the name
and of the config id are not); the type checks of the slots are not modelled.
-/

namespace Aiootp.Cipher

/-- The integer constants given to both config constructors (shake_permute_cipher_config.py:147-191,
dual_output_shake_cipher_config.py:176-228). `shmacBlocksize` is `shmac_kdf_config.blocksize`, the block size of the
hash object (cipher_kdfs.py:79). -/
structure Sizes where
  blocksize : Nat
  minPaddingBlocks : Nat
  epochNs : Nat
  timestampBytes : Nat
  sivKeyBytes : Nat
  shmacBytes : Nat
  blockIdBytes : Nat
  maxBlockIdBytes : Nat
  minBlockIdBytes : Nat
  saltBytes : Nat
  ivBytes : Nat
  shmacBlocksize : Nat
  deriving DecidableEq, Repr

namespace Sizes

variable (c : Sizes)

/-- `INNER_HEADER_BYTES` (shake_permute:219, dual_output:258). -/
def innerHeaderBytes : Nat := c.timestampBytes + c.sivKeyBytes
/-- `INNER_HEADER_SLICE` (220 / 259). -/
def innerHeaderSlice : Slice := ⟨some 0, some c.innerHeaderBytes⟩
/-- `TIMESTAMP_SLICE` (222 / 261). -/
def timestampSlice : Slice := ⟨some 0, some c.timestampBytes⟩
/-- `HEADER_BYTES` (233-235 / 272-274). -/
def headerBytes : Nat := c.shmacBytes + c.saltBytes + c.ivBytes
/-- `PACKETSIZE` (281 / 313). -/
def packetsize : Nat := c.blockIdBytes + c.blocksize
/-- `MIN_STREAM_QUEUE` (283 / 315). -/
def minStreamQueue : Nat := c.minPaddingBlocks + 1
/-- `PADDING_FRAME` (284 / 316). -/
def paddingFrame : Nat := c.blocksize * c.minStreamQueue
/-- `SENTINEL_BYTES` (285 / 317). -/
def sentinelBytes : Nat := ceilDiv c.paddingFrame 256
/-- `SENTINEL_SLICE` (286 / 318). -/
def sentinelSlice : Slice := ⟨some (-c.sentinelBytes), none⟩
/-- `SHMAC_DOUBLE_BLOCKSIZE` (206 / 245, cipher_kdfs.py:80). -/
def shmacDoubleBlocksize : Nat := 2 * c.shmacBlocksize
/-- `SHMAC_RESULT_SLICE` (207 / 246). -/
def shmacResultSlice : Slice := ⟨some (-c.shmacBytes), none⟩
/-- `FIRST_DIGEST_SLICE` (254 / 295). -/
def firstDigestSlice : Slice := ⟨some 0, some c.shmacBlocksize⟩

/-- The config ids of `FastAffineXORChain` (fast_affine_xor_chain.py:62-74). -/
def permutationSizes : List Nat := List.range' 1 32 ++ [48, 64, 128, 192, 256]

/-- `Permutation.key_size(config_id)` (affine_xor_chain.py:95-102): `KeyError` for an unknown id, otherwise `5 * size`
(affine_xor_chain_config.py:59-72, 153-155 with the key types of the fast chain). -/
def permutationKeySize (configId : Nat) : Except Err Nat :=
  if permutationSizes.contains configId then .ok (5 * configId) else .error .key

/-- `PERMUTATION_KEY_SLICE` (262-266 / 300-304), from `PERMUTATION_KEY_BYTES`. -/
def permutationKeySlice (keyBytes : Nat) : Slice := ⟨some (-keyBytes), none⟩

/-- `PRIMER_KEY_BYTES` (267-269 / 305-307): `SHMAC_BLOCKSIZE * ceil(1 + key / SHMAC_BLOCKSIZE)`. -/
def primerKeyBytes (keyBytes : Nat) : Nat := c.shmacBlocksize * (1 + ceilDiv keyBytes c.shmacBlocksize)

/-! ### the shake-permute cipher -/

/-- `PERMUTATION_DIGEST_SLICE` (shake_permute_cipher_config.py:255-259). -/
def permutationDigestSlice : Slice := ⟨some (2 * c.blocksize), some c.shmacBlocksize⟩
/-- `IN_KEY_SLICE` (260). -/
def inKeySlice : Slice := ⟨some 0, some c.blocksize⟩
/-- `OUT_KEY_SLICE` (261). -/
def outKeySlice : Slice := ⟨some c.blocksize, some (2 * c.blocksize)⟩

/-- The `to_bytes` calls of `_construct_metadata_constant` that can overflow (302-315 / 371-384). -/
def metadataFits (keyBytes : Nat) : Except Err Unit := do
  let _ ← toBytesBE 16 c.epochNs
  let _ ← toBytesBE 2 c.blocksize
  let _ ← toBytesBE 2 c.minPaddingBlocks
  let _ ← toBytesBE 2 (c.primerKeyBytes keyBytes)
  return ()

/-- `_ensure_inner_header_leaves_adequate_space` (397-413 / 496-512). `%` is Python's. -/
def headerLeavesSpace : Except Err Unit :=
  let remainder := ((c.blocksize : Int) - c.innerHeaderBytes - c.sentinelBytes) % c.blocksize
  if remainder < 16 ∧ remainder ≥ 0 then .error .value else .ok ()

/-- shake_permute_cipher_config.py:147-424 `__init__`: which constants are accepted. -/
def acceptPermute : Except Err Unit := do
  let keyBytes ← permutationKeySize c.blocksize
  c.metadataFits keyBytes
  raiseIf (c.blocksize ≤ 0) .value
  raiseIf (c.blocksize > c.shmacBlocksize) .value
  raiseIf (c.minBlockIdBytes > c.maxBlockIdBytes) .value
  raiseIf (c.shmacBlocksize < 2 * c.blocksize + 32) .value
  c.headerLeavesSpace

/-! ### the dual-output cipher -/

/-- `EMBEDDED_CAPACITY_BYTES` (dual_output_shake_cipher_config.py:324-326). Negative when the block does not fit. -/
def embeddedCapacity : Int := ((c.shmacDoubleBlocksize : Int) - c.blocksize) / 2
/-- `EMBEDDED_LEFT_CAPACITY_SLICE` (327-331). -/
def embeddedLeftSlice : Slice := ⟨some 0, some c.embeddedCapacity⟩
/-- `EMBEDDED_RIGHT_CAPACITY_SLICE` (332-336). -/
def embeddedRightSlice : Slice := ⟨some (-c.embeddedCapacity), none⟩
/-- `EMBEDDED_CIPHERTEXT_SLICE` (337-341). -/
def embeddedCiphertextSlice : Slice := ⟨some c.embeddedCapacity, some (-c.embeddedCapacity)⟩
/-- `FIRST_CONTENT_BYTES` (342). Negative when the header does not fit. -/
def firstContentBytes : Int := (c.blocksize : Int) - c.innerHeaderBytes
/-- `FIRST_CONTENT_SLICE` (343). -/
def firstContentSlice : Slice := ⟨some c.innerHeaderBytes, none⟩
/-- `FIRST_KEY_SLICE` (344-348). -/
def firstKeySlice : Slice :=
  ⟨some (c.embeddedCapacity + (c.innerHeaderBytes / 2 : Nat)), some (-c.embeddedCapacity - (c.innerHeaderBytes / 2 : Nat))⟩
/-- `SIV_DIGEST_SLICE` (349). -/
def sivDigestSlice : Slice := ⟨some (2 * c.innerHeaderBytes), none⟩

/-- `n.to_bytes(size, "big")` where the size may be negative (`ValueError`). -/
def toBytesSigned (size : Int) (n : Nat) : Except Err Bytes :=
  if size < 0 then .error .value else toBytesBE size.toNat n

/-- The random strings drawn by `_ensure_siv_measurements_are_correct`. -/
structure SivSample where
  block : Bytes
  maskedHeader : Bytes
  key : Bytes
  digest : Bytes

/-- The lengths asked of `token_bytes` (519-522, 544). -/
def SivSample.Drawn (s : SivSample) (c : Sizes) : Prop :=
  s.block.length = c.blocksize ∧ s.maskedHeader.length = c.innerHeaderBytes ∧
  s.key.length = c.shmacDoubleBlocksize ∧ s.digest.length = c.shmacBlocksize

/-- dual_output_shake_cipher_config.py:514-550 `_ensure_siv_measurements_are_correct`. -/
def sivMeasurements (s : SivSample) : Except Err Unit := do
  let header := c.innerHeaderSlice.of s.block
  let lCapacity := c.embeddedLeftSlice.of s.key
  let rCapacity := c.embeddedRightSlice.of s.key
  let content ← toBytesSigned c.firstContentBytes
    (fromBE (c.firstKeySlice.of s.key) ^^^ fromBE (c.firstContentSlice.of s.block))
  let ciphertext := s.maskedHeader ++ content
  raiseIf (ciphertext.length ≠ c.blocksize) .value
  raiseIf ((lCapacity ++ ciphertext ++ rCapacity).length ≠ c.shmacDoubleBlocksize) .value
  raiseIf ((header ++ s.maskedHeader ++ c.sivDigestSlice.of s.digest).length ≠ c.shmacBlocksize) .value
  return ()

/-- dual_output_shake_cipher_config.py:176-565 `__init__`: which constants are accepted. `left` and `right` are the
block sizes of the left and right hash objects. -/
def acceptDual (left right : Nat) (s : SivSample) : Except Err Unit := do
  let keyBytes ← permutationKeySize c.innerHeaderBytes
  c.metadataFits keyBytes
  raiseIf (c.innerHeaderBytes % 2 ≠ 0) .value
  raiseIf (c.blocksize % 2 ≠ 0) .value
  raiseIf (c.blocksize ≤ 0) .value
  raiseIf (left ≠ right) .value
  raiseIf (c.blocksize > left + right) .value
  c.headerLeavesSpace
  raiseIf (c.minBlockIdBytes > c.maxBlockIdBytes) .value
  c.headerLeavesSpace
  c.sivMeasurements s

end Sizes

/-- aiootp/ciphers/slick_256_config.py:45-77 (`EPOCH_NS` is a parameter; the block size of `shake_128` is 168). -/
def slick256 (epochNs : Nat) : Sizes where
  blocksize := 32
  minPaddingBlocks := 0
  epochNs := epochNs
  timestampBytes := 4
  sivKeyBytes := 8
  shmacBytes := 24
  blockIdBytes := 16
  maxBlockIdBytes := 32
  minBlockIdBytes := 16
  saltBytes := 8
  ivBytes := 8
  shmacBlocksize := 168

/-- aiootp/ciphers/chunky_2048_config.py:47-95. -/
def chunky2048 (epochNs : Nat) : Sizes where
  blocksize := 256
  minPaddingBlocks := 0
  epochNs := epochNs
  timestampBytes := 4
  sivKeyBytes := 16
  shmacBytes := 32
  blockIdBytes := 24
  maxBlockIdBytes := 32
  minBlockIdBytes := 16
  saltBytes := 8
  ivBytes := 8
  shmacBlocksize := 168

end Aiootp.Cipher
