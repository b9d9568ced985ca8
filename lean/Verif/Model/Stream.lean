import Verif.Model.Cipher

/-
`aiootp/ciphers/cipher_streams.py` and `decipher_streams.py`: streamed encryption and decryption.

Simplifications: the sync classes only; calls are made one at a time (the `ConcurrencyGuard` that enforces this is
modelled in `Guard`). `pull n` stands for advancing an iterator of the stream `n` times, or until it is exhausted. It
does not matter whether it is a new or a suspended iterator, because `__iter__` keeps all its state in the stream object.
The generator that `finalize` returns is always run to its end.
-/

namespace Aiootp.Cipher

namespace Cipher

variable {κ : Type} (C : Cipher κ)

/-- A block id and a block of ciphertext. -/
abbrev Packet := Bytes × Bytes

/-- cipher_streams.py:403-404, 439-441: one block is encrypted and its block id is made. -/
def emit (s : Session κ) (block : Bytes) : Except Err (Packet × Session κ) := do
  let (out, shmac, keys) ← C.turn s.shmac s.keys block
  let blockId ← shmac.nextBlockId C.toEnv out 0 []
  return ((blockId, out), { shmac, keys })

/-- decipher_streams.py:558-570: the block id is tested, then the block is decrypted. -/
def accept (s : Session κ) (blockId block : Bytes) : Except Err (Bytes × Session κ) := do
  s.shmac.testNextBlockId C.toEnv blockId block []
  let (out, shmac, keys) ← C.turn s.shmac s.keys block
  return (out, { shmac, keys })

end Cipher

open Cipher

/-! ### cipher_streams.py -/

/-- cipher_streams.py:303-313. `closed` tells whether `_finalizing_now` has an entry; `extra` is what
`token_bytes(PADDING_FRAME)` returns in `finalize`. -/
structure CipherStream (κ : Type) where
  session : Session κ
  buffer : List Bytes
  byteCount : Nat
  closed : Bool
  extra : Bytes

namespace CipherStream

variable {κ : Type} (C : Cipher κ)

/-- cipher_streams.py:315-366 `__init__`. Also returns the bundle, whose salt and iv are sent to the recipient. -/
def new (key : Bytes) (d : Draws) (salt : Option Bytes) (aad : Bytes) :
    Except Err (SaltAADIV × CipherStream κ) := do
  let start ← C.cfg.startPadding d.reading d.sivKey
  let bundle ← SaltAADIV.new C.cfg salt aad none d.salt d.iv
  let session ← C.startSession key bundle .encryption
  return (bundle, { session, buffer := [start], byteCount := 0, closed := false, extra := d.extra })

/-- cipher_streams.py:461-465: reads of `size` bytes until one is short; the short one is kept, even if it is empty. -/
def readBlocks (size : Nat) (data : Bytes) : List Bytes :=
  if h : size = 0 ∨ data.length < size then [data]
  else data.take size :: readBlocks size (data.drop size)
termination_by data.length
decreasing_by
  simp only [List.length_drop]
  omega

/-- cipher_streams.py:444-465 `_digest_data`. Reading a negative number of bytes reads everything. -/
def digestData (size : Nat) (buffer : List Bytes) (data : Bytes) : List Bytes :=
  match buffer.getLast? with
  | none => buffer ++ readBlocks size data
  | some last =>
    if last.length = size then buffer ++ readBlocks size data
    else if last.length > size then buffer.dropLast ++ [last ++ data]
    else
      let missing := size - last.length
      let chunk := data.take missing
      let buffer := buffer.dropLast ++ [last ++ chunk]
      if chunk.length ≠ missing then buffer else buffer ++ readBlocks size (data.drop missing)

/-- cipher_streams.py:467-494 `buffer`. -/
def bufferData (st : CipherStream κ) (data : Bytes) : Except Err Unit × CipherStream κ :=
  if st.closed then (.error .streamClosed, st)
  else (.ok (), { st with byteCount := st.byteCount + data.length
                          buffer := digestData C.cfg.blocksize st.buffer data })

/-- cipher_streams.py:402-404, 438-441: blocks are encrypted while more than `keep` of them are left, at most `n`. The
packets made before an exception have been given out. -/
def drain (keep : Nat) (st : CipherStream κ) : Nat → (List Packet × Option Err) × CipherStream κ
  | 0 => (([], none), st)
  | n + 1 =>
    match st.buffer with
    | [] => (([], none), st)
    | block :: rest =>
      if st.buffer.length > keep then
        match C.emit st.session block with
        | .error e => (([], some e), { st with buffer := rest })
        | .ok (packet, session) =>
          let r := drain keep { st with buffer := rest, session } n
          ((packet :: r.1.1, r.1.2), r.2)
      else (([], none), st)

/-- cipher_streams.py:394-404 `__iter__`. -/
def pull (st : CipherStream κ) (n : Nat) : (List Packet × Option Err) × CipherStream κ :=
  drain C C.cfg.minStreamQueue st n

/-- cipher_streams.py:406-442 `finalize`. -/
def finalize (st : CipherStream κ) : (List Packet × Option Err) × CipherStream κ :=
  if st.closed then (([], some .streamClosed), st)
  else
    let st := { st with closed := true }
    match C.cfg.endPadding st.extra st.byteCount, st.buffer.getLast? with
    | .error e, _ => (([], some e), st)
    | .ok _, none => (([], some .index), st)
    | .ok endPadding, some last =>
      let buffer := st.buffer.dropLast ++ Text.batch C.cfg.blocksize (last ++ endPadding)
      let r := drain C 0 { st with buffer } buffer.length
      match r.1.2, r.2.session.shmac.finalize C.toEnv with
      | some e, _ => r
      | none, .error e => ((r.1.1, some e), r.2)
      | none, .ok (_, shmac) => (r.1, { r.2 with session := { r.2.session with shmac } })

end CipherStream

/-- The calls on a `CipherStream`. -/
inductive StreamCall where
  | buffer (data : Bytes)
  | pull (n : Nat)
  | finalize
  deriving DecidableEq, Repr

/-- One call: the packets it gives out and the exception it raises, if any. -/
def CipherStream.exec {κ : Type} (C : Cipher κ) (st : CipherStream κ) :
    StreamCall → (List Packet × Option Err) × CipherStream κ
  | .buffer data =>
    match st.bufferData C data with
    | (.ok _, st) => (([], none), st)
    | (.error e, st) => (([], some e), st)
  | .pull n => st.pull C n
  | .finalize => st.finalize C

/-- A history of calls: all packets given out, the exceptions raised by the calls, and the final state. -/
def CipherStream.execAll {κ : Type} (C : Cipher κ) (st : CipherStream κ) :
    List StreamCall → List Packet × List (Option Err) × CipherStream κ
  | [] => ([], [], st)
  | call :: calls =>
    let r := st.exec C call
    let rest := r.2.execAll C calls
    (r.1.1 ++ rest.1, r.1.2 :: rest.2.1, rest.2.2)

/-! ### decipher_streams.py -/

/-- decipher_streams.py:356-369. `_buffer` is left out: what is put into it is taken out at once. -/
structure DecipherStream (κ : Type) where
  session : Session κ
  ttl : Option Int
  isStreaming : Bool
  queue : List Bytes
  bytesToTrim : Nat
  closed : Bool

/-- What `buffer` of a `DecipherStream` does: it returns, it raises `InvalidBlockID` with the failure state
(cipher_stream_properties.py:28-49; `rest` is what can still be read from the data), or it raises something else. -/
inductive BufferReply where
  | ok
  | refused (blockId block rest : Bytes)
  | raised (e : Err)
  deriving DecidableEq, Repr

namespace DecipherStream

variable {κ : Type} (C : Cipher κ)

/-- decipher_streams.py:371-435 `__init__`. -/
def new (key saltDraw : Bytes) (salt : Option Bytes) (aad iv : Bytes) (ttl : Option Int) :
    Except Err (DecipherStream κ) := do
  let bundle ← SaltAADIV.new C.cfg salt aad (some iv) saltDraw []
  let session ← C.startSession key bundle .decryption
  return { session, ttl, isStreaming := false, queue := [], bytesToTrim := C.cfg.innerHeaderBytes, closed := false }

/-- decipher_streams.py:543-567 `_digest_data`. -/
def digestData (st : DecipherStream κ) (data : Bytes) : BufferReply × DecipherStream κ :=
  let blockId := data.take C.cfg.blockIdBytes
  let block := (data.drop C.cfg.blockIdBytes).take C.cfg.blocksize
  let rest := (data.drop C.cfg.blockIdBytes).drop C.cfg.blocksize
  if h : blockId = [] then (.ok, st)
  else
    match C.accept st.session blockId block with
    | .error .invalidBlockID => (.refused blockId block rest, st)
    | .error e => (.raised e, st)
    | .ok (out, session) => digestData { st with session, queue := st.queue ++ [out] } rest
termination_by data.length
decreasing_by
  have h1 : data ≠ [] := by rintro rfl; simp [blockId] at h
  have h2 : C.cfg.blockIdBytes ≠ 0 := by intro h0; simp [blockId, h0] at h
  have : 0 < data.length := List.length_pos_iff.2 h1
  simp only [rest, List.length_drop]
  omega

/-- decipher_streams.py:569-596 `buffer`. -/
def bufferData (st : DecipherStream κ) (data : Bytes) : BufferReply × DecipherStream κ :=
  if data = [] ∨ data.length % C.cfg.packetsize ≠ 0 then (.raised .value, st)
  else if st.closed then (.raised .streamClosed, st)
  else digestData C st data

/-- decipher_streams.py:468-480 `_test_timestamp`: `queue[0]` of an empty queue raises `IndexError` after
`_is_streaming` was set, and only `TimestampExpired` resets it. -/
def testTimestamp (st : DecipherStream κ) (now : Int) : Option Err × DecipherStream κ :=
  match st.queue with
  | [] => (some .index, { st with isStreaming := true })
  | first :: _ =>
    match Clock.testTimestamp now (C.cfg.timestampSlice.of first) st.ttl .big with
    | .error e => (some e, { st with isStreaming := false })
    | .ok _ => (none, { st with isStreaming := true })

/-- decipher_streams.py:482-493, 505-506 `_remove_inner_header` in its loop: the first `n` bytes are removed, and so are
the blocks that become empty. -/
def trim : Nat → List Bytes → Nat × List Bytes
  | 0, queue => (0, queue)
  | n + 1, [] => (n + 1, [])
  | n + 1, block :: queue =>
    if block.drop (n + 1) = [] then trim (n + 1 - (block.take (n + 1)).length) queue
    else (n + 1 - (block.take (n + 1)).length, block.drop (n + 1) :: queue)

/-- decipher_streams.py:507-508: results are taken while more than `keep` are left, at most `n`. -/
def take (keep : Nat) : Nat → List Bytes → List Bytes × List Bytes
  | 0, queue => ([], queue)
  | _ + 1, [] => ([], [])
  | n + 1, block :: queue =>
    if (block :: queue).length > keep then
      let r := take keep n queue
      (block :: r.1, r.2)
    else ([], block :: queue)

/-- decipher_streams.py:505-508: the part of `__iter__` after the test of the timestamp. -/
def release (st : DecipherStream κ) (n : Nat) : List Bytes × DecipherStream κ :=
  let (bytesToTrim, queue) := trim st.bytesToTrim st.queue
  let (outs, queue) := take C.cfg.minStreamQueue n queue
  (outs, { st with bytesToTrim, queue })

/-- decipher_streams.py:495-508 `__iter__`, advanced `n` times; `now` is `clock.time()` during the call. -/
def pull (st : DecipherStream κ) (now : Int) (n : Nat) : (List Bytes × Option Err) × DecipherStream κ :=
  if n = 0 then (([], none), st)
  else if st.isStreaming then
    let (outs, st) := st.release C n
    ((outs, none), st)
  else
    match st.testTimestamp C now with
    | (some e, st) => (([], some e), st)
    | (none, st) =>
      let (outs, st) := st.release C n
      ((outs, none), st)

/-- decipher_streams.py:510-541 `finalize`. Iterating to the end takes at most as many results as the queue has, and at
least one step is made. -/
def finalize (st : DecipherStream κ) (now : Int) : (List Bytes × Option Err) × DecipherStream κ :=
  if st.closed then (([], some .streamClosed), st)
  else
    let st := { st with closed := true }
    match st.session.shmac.finalize C.toEnv with
    | .error e => (([], some e), st)
    | .ok (_, shmac) =>
      let st := { st with session := { st.session with shmac } }
      match st.pull C now (st.queue.length + 1) with
      | ((outs, some e), st) => ((outs, some e), st)
      | ((outs, none), st) =>
        match st.queue.getLast? with
        | none => ((outs, some .index), st)
        | some last =>
          let plaintext := Slice.of ⟨none, some (C.cfg.depaddingEndIndex last)⟩ st.queue.flatten
          ((outs ++ Text.batch C.cfg.blocksize plaintext, none), st)

end DecipherStream

/-- The calls on a `DecipherStream`, with the clock readings of the calls that test the timestamp. -/
inductive UnstreamCall where
  | buffer (data : Bytes)
  | pull (now : Int) (n : Nat)
  | finalize (now : Int)
  deriving DecidableEq, Repr

/-- The effect of one call: the plaintext it gives out, the exception it raises, or the refusal of a packet. -/
structure UnstreamReply where
  outs : List Bytes
  err : Option Err
  refusal : Option (Bytes × Bytes × Bytes)
  deriving DecidableEq, Repr

def DecipherStream.exec {κ : Type} (C : Cipher κ) (st : DecipherStream κ) : UnstreamCall → UnstreamReply × DecipherStream κ
  | .buffer data =>
    match st.bufferData C data with
    | (.ok, st) => (⟨[], none, none⟩, st)
    | (.refused blockId block rest, st) => (⟨[], some .invalidBlockID, some (blockId, block, rest)⟩, st)
    | (.raised e, st) => (⟨[], some e, none⟩, st)
  | .pull now n =>
    let r := st.pull C now n
    (⟨r.1.1, r.1.2, none⟩, r.2)
  | .finalize now =>
    let r := st.finalize C now
    (⟨r.1.1, r.1.2, none⟩, r.2)

/-- A history of calls: the replies and the final state. -/
def DecipherStream.execAll {κ : Type} (C : Cipher κ) (st : DecipherStream κ) :
    List UnstreamCall → List UnstreamReply × DecipherStream κ
  | [] => ([], st)
  | call :: calls =>
    let r := st.exec C call
    let rest := r.2.execAll C calls
    (r.1 :: rest.1, rest.2)

end Aiootp.Cipher
