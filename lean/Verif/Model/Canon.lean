import Verif.Model.Py

/-
Model of aiootp/generics/canon.py and aiootp/generics/hashing.py (sync versions; the
async ones interleave `asleep()` calls and are otherwise line-by-line identical).
-/

namespace Aiootp.Canon

/-- `bytes.ljust(width, fillbyte)`: `TypeError` unless the fill byte string has
length one. -/
def ljust (data : Bytes) (width : Nat) (pad : Bytes) : Except Err Bytes :=
  match pad with
  | [p] => .ok (data ++ List.replicate (width - data.length) p)
  | _ => .error .type

/-- aiootp/generics/canon.py:72-82 `fullblock_ljust`. `len(data) / blocksize` raises
`ZeroDivisionError` for a zero blocksize before `ljust` is called. -/
def fullblockLjust (data : Bytes) (blocksize : Nat) (pad : Bytes) : Except Err Bytes :=
  if blocksize = 0 then .error .zeroDivision
  else ljust data (blocksize * ceilDiv data.length blocksize) pad

/-- aiootp/generics/canon.py:107-126 `encode_key`. -/
def encodeKey (key : Bytes) (blocksize : Nat) (pad : Bytes) : Except Err Bytes := do
  if key.isEmpty then throw .value
  let keyLength ← toBytesLE 8 key.length
  let bsize ← toBytesLE 8 blocksize
  fullblockLjust (key ++ keyLength ++ bsize ++ pad) blocksize pad

/-- aiootp/generics/canon.py:151-153, the loop of `encode_items`. -/
def encodeBody (intBytes : Nat) : List Bytes → Except Err Bytes
  | [] => .ok []
  | item :: items => do
    let size ← toBytesBE intBytes item.length
    let rest ← encodeBody intBytes items
    .ok (size ++ item ++ rest)

/-- aiootp/generics/canon.py:143-153 `encode_items`, with the yielded values joined. -/
def encodeItems (items : List Bytes) (intBytes : Nat) : Except Err Bytes := do
  let declared ← toBytesBE 1 intBytes
  let count ← toBytesBE intBytes items.length
  let body ← encodeBody intBytes items
  .ok (declared ++ count ++ body)

/-- aiootp/generics/canon.py:209-251 `canonical_pack`. -/
def canonicalPack (items : List Bytes) (blocksize : Nat) (pad : Bytes) (intBytes : Nat) :
    Except Err Bytes := do
  let blocksizeBlob ← toBytesBE intBytes blocksize
  let joined ← encodeItems (blocksizeBlob :: pad :: items) intBytes
  fullblockLjust joined blocksize pad

/-- `io.BytesIO(..).read(n)`: at most `n` bytes from the remaining ones, and what remains.
Raises `OverflowError` for `n >= 2**63`. -/
def read (n : Nat) (rest : Bytes) : Except Err (Bytes × Bytes) :=
  if n < ssizeLimit then .ok (rest.take n, rest.drop n) else .error .overflow

/-- aiootp/generics/canon.py:275-293 `decode_items`; returns the decoded items and the
unread bytes. -/
def decodeItems (intBytes : Nat) : (itemCount : Nat) → Bytes → Except Err (List Bytes × Bytes)
  | 0, rest => .ok ([], rest)
  | k + 1, rest => do
    let (sizeBlob, rest) ← read intBytes rest
    let itemSize := fromBE sizeBlob
    let (item, rest) ← read itemSize rest
    if item.length ≠ itemSize then throw .canonical
    let (items, rest) ← decodeItems intBytes k rest
    .ok (item :: items, rest)

/-- aiootp/generics/canon.py:296-313 `test_canonical_padding`; returns the deque after its two
`popleft`s. `set(pad).issuperset(read())` with a one-byte `pad` means every unread byte is
that byte. -/
def testCanonicalPadding (items : List Bytes) (rest : Bytes) (totalSize : Nat) :
    Except Err (List Bytes) :=
  match items with
  | blob :: pad :: items =>
    let blocksize := fromBE blob
    if blocksize = 0 then .error .zeroDivision
    else if totalSize % blocksize ≠ 0 then .error .canonical
    else if pad.length ≠ 1 ∨ ¬ (rest.all (fun b => pad.contains b)) then .error .canonical
    else .ok items
  | _ => .error .canonical

/-- aiootp/generics/canon.py:336-353 `canonical_unpack`. -/
def canonicalUnpack (data : Bytes) : Except Err (List Bytes) := do
  let totalSize := data.length
  let (declared, rest) ← read 1 data
  let intBytes := fromBE declared
  let (count, rest) ← read intBytes rest
  let itemCount := fromBE count
  if totalSize < intBytes * (itemCount + 1) + 3 then throw .canonical
  let (items, rest) ← decodeItems intBytes itemCount rest
  testCanonicalPadding items rest totalSize

/-- aiootp/generics/hashing.py:79-80: the encoded key is absorbed first if there is one. -/
def keyPrefix (key : Option Bytes) (blockSize : Nat) (pad : Bytes) : Except Err Bytes :=
  match key with
  | none => .ok []
  | some k => encodeKey k blockSize pad

/-- aiootp/generics/hashing.py:82 `size or obj.digest_size`: `None` and `0` both select the
digest size of the hash object. -/
def sizeOr (size : Option Nat) (digestSize : Nat) : Nat :=
  match size with
  | none => digestSize
  | some 0 => digestSize
  | some n => n

/-- The bytes absorbed by the hash object in aiootp/generics/hashing.py:62-91 `hash_bytes`.
`size` is `none` for Python's `None`.
`blockSize`/`digestSize` are the attributes of the hash object. -/
def hashBytesInput (collection : List Bytes) (blockSize digestSize : Nat) (pad : Bytes)
    (size : Option Nat) (key : Option Bytes) : Except Err Bytes := do
  let prefix_ ← keyPrefix key blockSize pad
  let sizeBlob ← toBytesBE 8 (sizeOr size digestSize)
  let packed ← canonicalPack (sizeBlob :: collection) blockSize pad 8
  .ok (prefix_ ++ packed)

end Aiootp.Canon
