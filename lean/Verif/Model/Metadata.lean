import Verif.Model.CipherConfig
import Verif.Model.Domains
import Verif.Model.Passcrypt

/-
`_construct_metadata_constant` of the three config classes: what a configuration is reduced to before it is hashed with every use.
`aiootp/keygens/passcrypt/config.py`, `aiootp/ciphers/shake_permute_cipher_config.py`, `aiootp/ciphers/dual_output_shake_cipher_config.py`.

Simplifications: the integers that are given are naturals (negative ones are refused by `to_bytes` for all but the sizes that appear in slices
only); the permutation of a cipher is `FastAffineXORChain`, as in all configs of the package.
-/

namespace Aiootp.Metadata

open Canon
open Database (utf8)

/-- `str` of an int. -/
def intText : Int → String
  | .ofNat n => n.repr
  | .negSucc n => "-" ++ (n + 1).repr

/-- `str` of an int or `None`. -/
def optText : Option Int → String
  | none => "None"
  | some i => intText i

/-- A `slice` object. -/
structure PySlice where
  start : Option Int
  stop : Option Int
  step : Option Int
  deriving DecidableEq, Repr

/-- `str` of a slice, as "slice(0, 8, 1)". -/
def PySlice.text (s : PySlice) : String := "slice(" ++ optText s.start ++ ", " ++ optText s.stop ++ ", " ++ optText s.step ++ ")"

/-- `str(slice).encode()`. -/
def PySlice.bytes (s : PySlice) : Bytes := utf8 s.text

/-- `slice(start, stop, 1)` in bytes. -/
def sliceBytes (s : Slice) : Bytes := (⟨s.start, s.stop, some 1⟩ : PySlice).bytes

/-- `str(range(start, stop)).encode()`, as "range(1, 512)". -/
def rangeBytes (start stop : Nat) : Bytes := utf8 ("range(" ++ start.repr ++ ", " ++ stop.repr ++ ")")

/-- `slice(start, stop, 1)` with naturals, in bytes. -/
def natSliceBytes (start stop : Nat) : Bytes := sliceBytes ⟨some start, some stop⟩

/-! ### passcrypt -/

/-- config.py:164-188: the values that a `PasscryptConfig` is made of. -/
structure Passcrypt where
  configId : Bytes
  pad : Bytes
  minCores : Nat
  maxCores : Nat
  defaultCores : Nat
  coresBytes : Nat
  minCpu : Nat
  maxCpu : Nat
  defaultCpu : Nat
  ratio : Nat
  cpuBytes : Nat
  minMb : Nat
  maxMb : Nat
  defaultMb : Nat
  mbBytes : Nat
  minSaltSize : Nat
  maxSaltSize : Nat
  defaultSaltSize : Nat
  saltSizeBytes : Nat
  minTagSize : Nat
  minPassphrase : Nat
  timeUnit : String
  timestampBytes : Nat
  epochNs : Nat
  deriving DecidableEq, Repr

/-- config.py:238-283 `_construct_metadata_constant`, with the values of 190-236. -/
def Passcrypt.metadata (c : Passcrypt) : Except Err Bytes := do
  let ratio ← toBytesBE 8 c.ratio
  let defaultCores ← toBytesBE 8 c.defaultCores
  let defaultCpu ← toBytesBE 8 c.defaultCpu
  let defaultMb ← toBytesBE 8 c.defaultMb
  let defaultSaltSize ← toBytesBE 8 c.defaultSaltSize
  let epochNs ← toBytesBE 16 c.epochNs
  let maxCores ← toBytesBE 8 c.maxCores
  let maxCpu ← toBytesBE 8 c.maxCpu
  let maxMb ← toBytesBE 8 c.maxMb
  let maxSaltSize ← toBytesBE 8 c.maxSaltSize
  let mbBytes ← toBytesBE 8 c.mbBytes
  let minCores ← toBytesBE 8 c.minCores
  let minCpu ← toBytesBE 8 c.minCpu
  let minMb ← toBytesBE 8 c.minMb
  let minPassphrase ← toBytesBE 8 c.minPassphrase
  let minSaltSize ← toBytesBE 8 c.minSaltSize
  let headerBytes := c.timestampBytes + c.mbBytes + c.cpuBytes + c.coresBytes + c.saltSizeBytes
  let minSchema ← toBytesBE 8 (headerBytes + c.minSaltSize + c.minTagSize)
  let minTagSize ← toBytesBE 8 c.minTagSize
  canonicalPack
    [c.configId,
     rangeBytes c.minCores 9,
     natSliceBytes (c.timestampBytes + c.mbBytes + c.cpuBytes) (c.timestampBytes + c.mbBytes + c.cpuBytes + c.coresBytes),
     rangeBytes c.minCpu 33,
     natSliceBytes (c.timestampBytes + c.mbBytes) (c.timestampBytes + c.mbBytes + c.cpuBytes),
     ratio, defaultCores, defaultCpu, defaultMb, defaultSaltSize, epochNs,
     natSliceBytes 0 headerBytes,
     maxCores, maxCpu, maxMb, maxSaltSize, mbBytes,
     rangeBytes c.minMb 512,
     natSliceBytes c.timestampBytes (c.timestampBytes + c.mbBytes),
     minCores, minCpu, minMb, minPassphrase, minSaltSize, minSchema, minTagSize,
     c.pad,
     natSliceBytes (c.timestampBytes + c.mbBytes + c.cpuBytes + c.coresBytes) headerBytes,
     utf8 c.timeUnit,
     natSliceBytes 0 c.timestampBytes]
    1 [0] 1

/-- config.py:164-236: the config, with its metadata. `perSecond` is `per_s` of the time unit. -/
def Passcrypt.config (perSecond : String → Nat) (c : Passcrypt) : Except Err Aiootp.Passcrypt.Config := do
  let metadata ← c.metadata
  .ok
    { minCores := c.minCores, maxCores := c.maxCores, coresBytes := c.coresBytes, minCpu := c.minCpu, maxCpu := c.maxCpu, ratio := c.ratio
      cpuBytes := c.cpuBytes, minMb := c.minMb, maxMb := c.maxMb, mbBytes := c.mbBytes, minSaltSize := c.minSaltSize, maxSaltSize := c.maxSaltSize
      saltSizeBytes := c.saltSizeBytes, minTagSize := c.minTagSize, minPassphrase := c.minPassphrase, timestampBytes := c.timestampBytes
      unitsPerSecond := perSecond c.timeUnit, pad := c.pad, packedMetadata := metadata }

/-! ### the ciphers -/

/-- cipher_kdfs.py:58-82 `ShakeConfig.__init__`: the values that a `ShakeConfig` is made of. `hasher` is the name of the hash objects. -/
structure Kdf where
  name : String
  pad : Bytes
  offsetAmount : Nat
  hasher : String
  keySlice : PySlice
  deriving DecidableEq, Repr

/-- The items that a KDF adds to the metadata (shake_permute_cipher_config.py:324-329, dual_output_shake_cipher_config.py:396-407). -/
def Kdf.items (k : Kdf) : List Bytes := [k.pad, utf8 k.hasher, k.keySlice.bytes]

/-- The values that both cipher configs are made of (shake_permute_cipher_config.py:147-191, dual_output_shake_cipher_config.py:176-228). -/
structure Cipher where
  name : String
  configId : Bytes
  timeUnit : String
  sizes : Cipher.Sizes
  blockIdKdf : Kdf
  shmacKdf : Kdf
  deriving DecidableEq, Repr

/-- The first items of the metadata, which both ciphers have in common (shake_permute_cipher_config.py:303-319, dual_output_shake_cipher_config.py:
372-388). `size` is `PERMUTATION_CONFIG_ID`, `keyBytes` is `PERMUTATION_KEY_BYTES`, `vector` is `PERMUTATION_TEST_VECTOR`. -/
def Cipher.firstItems (c : Cipher) (size keyBytes : Nat) (vector : Bytes) : Except Err (List Bytes) := do
  let s := c.sizes
  let epochNs ← toBytesBE 16 s.epochNs
  let blocksize ← toBytesBE 2 s.blocksize
  let minPaddingBlocks ← toBytesBE 2 s.minPaddingBlocks
  let primerKeyBytes ← toBytesBE 2 (s.primerKeyBytes keyBytes)
  .ok
    [utf8 c.name, c.configId, epochNs, blocksize, minPaddingBlocks,
     natSliceBytes 0 s.shmacBytes,
     natSliceBytes 0 s.blockIdBytes,
     natSliceBytes s.shmacBytes (s.shmacBytes + s.saltBytes),
     natSliceBytes (s.shmacBytes + s.saltBytes) s.headerBytes,
     sliceBytes s.timestampSlice,
     natSliceBytes s.timestampBytes s.innerHeaderBytes,
     sliceBytes s.sentinelSlice,
     primerKeyBytes,
     sliceBytes s.firstDigestSlice,
     vector,
     utf8 size.repr,
     sliceBytes (Cipher.Sizes.permutationKeySlice keyBytes)]

/-- The test vector: `FastAffineXORChain(key=shake_128(config_id).digest(key_bytes), config_id=size).permute(0)` as bytes
(shake_permute_cipher_config.py:271-274, dual_output_shake_cipher_config.py:351-354), from the id of the config and the size. -/
abbrev Vector := Bytes → Nat → Bytes

/-- shake_permute_cipher_config.py:288-331 `_construct_metadata_constant`. -/
def Cipher.permuteMetadata (V : Vector) (c : Cipher) : Except Err Bytes := do
  let s := c.sizes
  let keyBytes ← Cipher.Sizes.permutationKeySize s.blocksize
  let first ← c.firstItems s.blocksize keyBytes (V c.configId s.blocksize)
  canonicalPack
    (first ++
     [sliceBytes s.permutationDigestSlice,
      sliceBytes s.inKeySlice,
      sliceBytes s.outKeySlice,
      sliceBytes s.shmacResultSlice] ++ c.blockIdKdf.items ++ c.shmacKdf.items)
    1 [0] 1

/-- dual_output_shake_cipher_config.py:357-409 `_construct_metadata_constant`. `left` and `right` are the two KDFs of the key stream. -/
def Cipher.dualMetadata (V : Vector) (c : Cipher) (left right : Kdf) : Except Err Bytes := do
  let s := c.sizes
  let keyBytes ← Cipher.Sizes.permutationKeySize s.innerHeaderBytes
  let first ← c.firstItems s.innerHeaderBytes keyBytes (V c.configId s.innerHeaderBytes)
  canonicalPack
    (first ++
     [sliceBytes s.embeddedLeftSlice,
      sliceBytes s.embeddedRightSlice,
      sliceBytes s.embeddedCiphertextSlice,
      sliceBytes s.firstContentSlice,
      sliceBytes s.firstKeySlice,
      sliceBytes s.sivDigestSlice,
      sliceBytes s.shmacResultSlice] ++ c.blockIdKdf.items ++ c.shmacKdf.items ++ left.items ++ right.items)
    1 [0] 1

/-- cipher_kdfs.py:84-102 `prepare_factory`: the call of `encode_constant` that gives the first input of the KDF. `blocksize` is the block size of its
hash objects. -/
def Kdf.saltCall (k : Kdf) (blocksize : Nat) (configId metadata : Bytes) : Domains.Call := ⟨utf8 (k.name ++ "_salt"), 2 * blocksize, configId, metadata, [0]⟩

end Aiootp.Metadata
