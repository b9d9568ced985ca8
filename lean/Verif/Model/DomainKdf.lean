import Verif.Model.Canon

/-
Model of aiootp/keygens/domain_kdf.py. A `hashlib` XOF object is the list of bytes it has absorbed; its
digest is an arbitrary function of these bytes (`Hasher.digest`).
-/

namespace Aiootp.Kdf

open Canon

/-- A hash type: `block_size`, `digest_size` (0 for an XOF) and the digest of the absorbed bytes,
with the requested size for an XOF. -/
structure Hasher where
  blockSize : Nat
  digestSize : Nat
  digest : Bytes → Nat → Bytes

/-- aiootp/generics/hashing.py:62-91 `hash_bytes`. -/
def hashBytes (h : Hasher) (collection : List Bytes) (pad : Bytes) (size : Option Nat)
    (key : Option Bytes) : Except Err Bytes := do
  let x ← hashBytesInput collection h.blockSize h.digestSize pad size key
  .ok (h.digest x (sizeOr size h.digestSize))

/-- aiootp/keygens/domain_kdf.py:60-82 `_initialize_payload`: the bytes absorbed by a new payload. `salt` is
the class constant absorbed by `_new_payload` (lines 55-58), `kdfDomain` is `Domains.KDF`. -/
def initialPayload (xof : Hasher) (salt kdfDomain domain : Bytes) (data : List Bytes) (key : Bytes) :
    Except Err Bytes := do
  let h ← hashBytes xof (kdfDomain :: domain :: data) [0] (some xof.blockSize) (some (key ++ domain))
  .ok (salt ++ h)

/-- aiootp/keygens/domain_kdf.py:190-193, the new absorbed bytes of `update`. -/
def absorbUpdate (blockSize : Nat) (payload : Bytes) (data : List Bytes) : Except Err Bytes :=
  if data.isEmpty then .error .value
  else do
    let packed ← canonicalPack data blockSize [0] 8
    .ok (payload ++ packed)

/-- aiootp/keygens/domain_kdf.py:106-126 `_run_kdf`: the output derived from a payload. `xof` is the payload's
type, `obj` the output hash type. -/
def runKdf (xof obj : Hasher) (payload : Bytes) (data : List Bytes) (size : Option Nat) (aad : Bytes) :
    Except Err Bytes :=
  hashBytes obj (aad :: data) [0] (if obj.digestSize ≠ 0 then none else size)
    (some (xof.digest payload obj.blockSize))

/-- The Python heap, as far as `DomainKDF` objects are concerned: payload objects (absorbed bytes) and
kdf objects (each holds a reference to a payload object). -/
structure Heap where
  payloads : List Bytes
  kdfs : List Nat

/-- Calls on kdf objects; `i` is the index of the object. -/
inductive Call where
  | update (i : Nat) (data : List Bytes)
  | copy (i : Nat)

/-- aiootp/keygens/domain_kdf.py:159-194 `copy` and `update` on the heap. A call which raises leaves the
heap as it is. Indexes that are not objects raise. -/
def step (blockSize : Nat) (h : Heap) : Call → Except Err Heap
  | .update i data =>
    match h.kdfs[i]? with
    | none => .error .attribute
    | some ref =>
      match h.payloads[ref]? with
      | none => .error .attribute
      | some payload => do
        let payload ← absorbUpdate blockSize payload data
        .ok { h with payloads := h.payloads.set ref payload }
  | .copy i =>
    match h.kdfs[i]? with
    | none => .error .attribute
    | some ref =>
      match h.payloads[ref]? with
      | none => .error .attribute
      | some payload =>
        .ok { payloads := h.payloads ++ [payload], kdfs := h.kdfs ++ [h.payloads.length] }

/-- A program: calls run one after another, those that raise are skipped. -/
def run (blockSize : Nat) (h : Heap) : List Call → Heap
  | [] => h
  | c :: cs =>
    match step blockSize h c with
    | .ok h' => run blockSize h' cs
    | .error _ => run blockSize h cs

/-- The heap right after the construction of one kdf whose payload absorbed `payload`. -/
def Heap.start (payload : Bytes) : Heap := { payloads := [payload], kdfs := [0] }

/-- The bytes absorbed by the payload of kdf object `i`. -/
def Heap.absorbed (h : Heap) (i : Nat) : Option Bytes :=
  match h.kdfs[i]? with
  | none => none
  | some ref => h.payloads[ref]?

end Aiootp.Kdf
