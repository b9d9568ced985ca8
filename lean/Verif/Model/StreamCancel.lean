import Verif.Model.Stream

/-
`aiootp/ciphers/cipher_streams.py` and `decipher_streams.py`, the asynchronous classes: calls that are cancelled while they wait.

A call of an `AsyncCipherStream` or `AsyncDecipherStream` waits at many places, if only for the event loop (`await asleep()`), and at each of them the coroutine that made the call
may be cancelled: `CancelledError` is raised there. Calls are made one at a time. What a cancelled call leaves behind:
- an asynchronous generator that an exception has left is at its end: `asend` raises `StopAsyncIteration` from then on, which becomes `RuntimeError` in the generators of the stream. So a
  cancellation inside of `_stream.asend` ends the stream (`ended`).
  An exception of the cipher itself does so too.
- `ConcurrencyGuard.__aexit__` waits before it leaves the queue (asynchs/guards/concurrency_guard.py:375-378); if it is cancelled there, then the guard stays in the queue, and everybody who
  comes later waits for ever (`stuck`).

Simplifications: a coroutine is cancelled at most once in a call; an exception of the cipher does not end the `_stream` of a receiver here (blocks of the right size raise none).
-/

namespace Aiootp.Cipher.Cancel

open Cipher

/-- What a call gives back. -/
inductive Outcome where
  | returned
  | raised (e : Err)
  /-- `RuntimeError` or `StopAsyncIteration`, from a generator that has ended -/
  | ended
  /-- `CancelledError` -/
  | cancelled
  /-- waits for ever -/
  | hangs
  deriving DecidableEq, Repr

/-- `Outcome` of a call that was not cancelled. -/
def Outcome.of : Option Err → Outcome
  | none => .returned
  | some e => .raised e

/-! ### cipher_streams.py -/

/-- Where a call of `abuffer` is cancelled (cipher_streams.py:238-265, 213-236). -/
inductive BufferCut where
  /-- in `__aenter__` of the guard, before it is in the queue -/
  | entering
  /-- in `_adigest_data`, after `k` reads -/
  | reading (k : Nat)
  /-- in `__aexit__` of the guard -/
  | leaving

/-- Where taking a packet is cancelled (cipher_streams.py:170-172, 207-210). -/
inductive TakeCut (κ : Type) where
  /-- inside of `_stream.asend`, before or after a block was taken from the queue; `session` is what it leaves of the stream-hmac and the keys, about which nothing is assumed -/
  | cipher (popped : Bool) (session : Session κ)
  /-- in `anext_block_id` -/
  | blockId

/-- Where a call of `afinalize` is cancelled (cipher_streams.py:193-211). -/
inductive FinalizeCut (κ : Type) where
  /-- in `__aenter__` of the guard or in `aend_padding` -/
  | padding
  /-- while the last blocks are put into the queue, after `k` of them -/
  | appending (k : Nat)
  /-- while packets are taken, after `n` of them -/
  | taking (n : Nat) (cut : TakeCut κ)
  /-- in `shmac.afinalize` -/
  | tag
  /-- in `__aexit__` of the guard -/
  | leaving

/-- The calls on an `AsyncCipherStream`, cancelled or not. -/
inductive Call (κ : Type) where
  | buffer (data : Bytes)
  | bufferCut (data : Bytes) (cut : BufferCut)
  | pull (n : Nat)
  /-- iterates; `n` packets are taken, then it is cancelled -/
  | pullCut (n : Nat) (cut : TakeCut κ)
  | finalize
  | finalizeCut (cut : FinalizeCut κ)

/-- An `AsyncCipherStream`. `ended`: `_stream` is at its end; `stuck`: a guard was left in the queue. -/
structure Sender (κ : Type) where
  stream : CipherStream κ
  ended : Bool := false
  stuck : Bool := false

/-- cipher_streams.py:231-236: at most `k` reads of `size` bytes, until one is short. -/
def readBlocks (size : Nat) : (k : Nat) → Bytes → List Bytes
  | 0, _ => []
  | k + 1, data => if data.length < size then [data] else data.take size :: readBlocks size k (data.drop size)

/-- cipher_streams.py:213-236 `_adigest_data`, cancelled after `k` reads. -/
def digestData (size : Nat) (buffer : List Bytes) (data : Bytes) (k : Nat) : List Bytes :=
  match buffer.getLast? with
  | none => buffer ++ readBlocks size k data
  | some last =>
    if last.length = size then buffer ++ readBlocks size k data
    else
      match k with
      | 0 => buffer
      | k + 1 =>
        if last.length > size then buffer.dropLast ++ [last ++ data]
        else
          let missing := size - last.length
          let chunk := data.take missing
          let buffer := buffer.dropLast ++ [last ++ chunk]
          if chunk.length ≠ missing then buffer else buffer ++ readBlocks size k (data.drop missing)

namespace Sender

variable {κ : Type} (C : Cipher κ)

/-- cipher_streams.py:169-172, 207-210: packets are taken while more than `keep` blocks are left, at most `n`. -/
def drain (s : Sender κ) (keep n : Nat) : (List Packet × Outcome) × Sender κ :=
  if s.ended then (([], if n ≠ 0 ∧ s.stream.buffer.length > keep then .ended else .returned), s)
  else
    let r := s.stream.drain C keep n
    ((r.1.1, .of r.1.2), { s with stream := r.2, ended := r.1.2.isSome })

/-- cipher_streams.py:169-172, 207-210: `n` packets are taken, then it is cancelled. If there are no more packets then there is nothing to cancel. -/
def drainCut (s : Sender κ) (keep n : Nat) (cut : TakeCut κ) : (List Packet × Outcome) × Sender κ :=
  let r := s.drain C keep n
  if r.1.2 ≠ .returned then r
  else
    match r.2.stream.buffer with
    | [] => r
    | block :: rest =>
      if r.2.stream.buffer.length ≤ keep then r
      else if r.2.ended then ((r.1.1, .ended), r.2)
      else
        match cut with
        | .cipher popped session =>
          ((r.1.1, .cancelled), { r.2 with stream := { r.2.stream with buffer := if popped then rest else block :: rest, session }, ended := true })
        | .blockId =>
          match C.turn r.2.stream.session.shmac r.2.stream.session.keys block with
          | .error e => ((r.1.1, .raised e), { r.2 with stream := { r.2.stream with buffer := rest }, ended := true })
          | .ok (_, shmac, keys) => ((r.1.1, .cancelled), { r.2 with stream := { r.2.stream with buffer := rest, session := { shmac, keys } } })

/-- cipher_streams.py:193-206: the stream is closed, and the last blocks are put into the queue; the exception of the padding, if there is one. -/
def padded (st : CipherStream κ) : Option Err × List Bytes × List Bytes :=
  match C.cfg.endPadding st.extra st.byteCount, st.buffer.getLast? with
  | .error e, _ => (some e, st.buffer, [])
  | .ok _, none => (some .index, st.buffer, [])
  | .ok endPadding, some last => (none, st.buffer.dropLast, Text.batch C.cfg.blocksize (last ++ endPadding))

/-- cipher_streams.py:211: `shmac.afinalize`. -/
def tag (s : Sender κ) : Outcome × Sender κ :=
  match s.stream.session.shmac.finalize C.toEnv with
  | .error e => (.raised e, s)
  | .ok (_, shmac) => (.returned, { s with stream := { s.stream with session := { s.stream.session with shmac } } })

/-- cipher_streams.py:174-211 `afinalize`. -/
def finalize (s : Sender κ) : (List Packet × Outcome) × Sender κ :=
  if s.stream.closed then (([], .raised .streamClosed), s)
  else
    let s := { s with stream := { s.stream with closed := true } }
    if s.stuck then (([], .hangs), s)
    else
      match padded C s.stream with
      | (some e, _, _) => (([], .raised e), s)
      | (none, front, blocks) =>
        let s := { s with stream := { s.stream with buffer := front ++ blocks } }
        let r := s.drain C 0 s.stream.buffer.length
        if r.1.2 ≠ .returned then r
        else
          let t := r.2.tag C
          ((r.1.1, t.1), t.2)

/-- cipher_streams.py:174-211 `afinalize`, cancelled. -/
def finalizeCut (s : Sender κ) (cut : FinalizeCut κ) : (List Packet × Outcome) × Sender κ :=
  if s.stream.closed then (([], .raised .streamClosed), s)
  else
    let s := { s with stream := { s.stream with closed := true } }
    if s.stuck then (([], .cancelled), s)
    else
      match padded C s.stream with
      | (some e, _, _) => (([], match cut with | .padding => .cancelled | _ => .raised e), s)
      | (none, front, blocks) =>
        let full := { s with stream := { s.stream with buffer := front ++ blocks } }
        match cut with
        | .padding => (([], .cancelled), s)
        | .appending k => (([], .cancelled), { s with stream := { s.stream with buffer := front ++ blocks.take k } })
        | .taking n cut =>
          let r := full.drainCut C 0 n cut
          if r.1.2 ≠ .returned then r
          else
            let t := r.2.tag C
            ((r.1.1, t.1), t.2)
        | .tag =>
          let r := full.drain C 0 full.stream.buffer.length
          if r.1.2 ≠ .returned then r
          else
            let shmac := { r.2.stream.session.shmac with finalized := true }
            ((r.1.1, .cancelled), { r.2 with stream := { r.2.stream with session := { r.2.stream.session with shmac } } })
        | .leaving =>
          let r := full.drain C 0 full.stream.buffer.length
          let t := r.2.tag C
          ((r.1.1, .cancelled), { (if r.1.2 ≠ .returned then r.2 else t.2) with stuck := true })

/-- cipher_streams.py:238-265 `abuffer`. -/
def buffer (s : Sender κ) (data : Bytes) : (List Packet × Outcome) × Sender κ :=
  if s.stuck then (([], .hangs), s)
  else
    match s.stream.bufferData C data with
    | (.ok _, st) => (([], .returned), { s with stream := st })
    | (.error e, st) => (([], .raised e), { s with stream := st })

/-- cipher_streams.py:238-265 `abuffer`, cancelled. -/
def bufferCut (s : Sender κ) (data : Bytes) (cut : BufferCut) : (List Packet × Outcome) × Sender κ :=
  match cut with
  | .entering => (([], .cancelled), s)
  | .reading k =>
    if s.stuck then (([], .cancelled), s)
    else if s.stream.closed then (([], .raised .streamClosed), s)
    else (([], .cancelled), { s with stream := { s.stream with byteCount := s.stream.byteCount + data.length
                                                               buffer := digestData C.cfg.blocksize s.stream.buffer data k } })
  | .leaving =>
    if s.stuck then (([], .cancelled), s)
    else (([], .cancelled), { s with stream := (s.stream.bufferData C data).2, stuck := true })

/-- One call: the packets it gives out, and how it ends. -/
def exec (s : Sender κ) : Call κ → (List Packet × Outcome) × Sender κ
  | .buffer data => s.buffer C data
  | .bufferCut data cut => s.bufferCut C data cut
  | .pull n => s.drain C C.cfg.minStreamQueue n
  | .pullCut n cut => s.drainCut C C.cfg.minStreamQueue n cut
  | .finalize => s.finalize C
  | .finalizeCut cut => s.finalizeCut C cut

/-- A history of calls: all packets given out, how the calls ended, and the final state. -/
def execAll (s : Sender κ) : List (Call κ) → List Packet × List Outcome × Sender κ
  | [] => ([], [], s)
  | call :: calls =>
    let r := s.exec C call
    let rest := r.2.execAll calls
    (r.1.1 ++ rest.1, r.1.2 :: rest.2.1, rest.2.2)

end Sender

/-! ### decipher_streams.py -/

/-- Where a call of `abuffer` is cancelled (decipher_streams.py:272-299, 239-270). -/
inductive AcceptCut (κ : Type) where
  /-- in `__aenter__` of the guard, before it is in the queue -/
  | entering
  /-- in the test of the block id of the packet after the first `k` -/
  | testing (k : Nat)
  /-- inside of `_stream.asend` for the packet after the first `k` -/
  | cipher (k : Nat) (session : Session κ)
  /-- in `__aexit__` of the guard -/
  | leaving

/-- Where an iteration is cancelled (decipher_streams.py:167-193). -/
inductive ReleaseCut where
  /-- in the test of the timestamp -/
  | testing
  /-- while the inner header is removed, after `k` steps -/
  | trimming (k : Nat)
  /-- after `n + 1` results were given out -/
  | after (n : Nat)

/-- The calls on an `AsyncDecipherStream`, cancelled or not. `finalizeCut` is cancelled in the guard or in the stream-hmac, `finalizeRelease` in its iteration, and `finalizeRest` after `k` of the
blocks that are left then (decipher_streams.py:214-233); `left` tells whether it was in `__aexit__` of the guard. -/
inductive Uncall (κ : Type) where
  | buffer (data : Bytes)
  | bufferCut (data : Bytes) (cut : AcceptCut κ)
  | pull (now : Int) (n : Nat)
  | pullCut (now : Int) (cut : ReleaseCut)
  | finalize (now : Int)
  | finalizeCut (now : Int) (shmac : Bool)
  | finalizeRelease (now : Int) (cut : ReleaseCut)
  | finalizeRest (now : Int) (k : Nat) (left : Bool)

/-- An `AsyncDecipherStream`. -/
structure Receiver (κ : Type) where
  stream : DecipherStream κ
  ended : Bool := false
  stuck : Bool := false

/-- decipher_streams.py:153-165, 179-180 `_aremove_inner_header`, at most `k` times. -/
def trimSteps : (k : Nat) → Nat → List Bytes → Nat × List Bytes
  | 0, n, queue => (n, queue)
  | _ + 1, 0, queue => (0, queue)
  | _ + 1, n + 1, [] => (n + 1, [])
  | k + 1, n + 1, block :: queue =>
    trimSteps k (n + 1 - (block.take (n + 1)).length) (if block.drop (n + 1) = [] then queue else block.drop (n + 1) :: queue)

namespace Receiver

variable {κ : Type} (C : Cipher κ)

/-- What a call gives out, and how it ends. -/
abbrev Reply := List Bytes × Outcome

/-- decipher_streams.py:272-299 `abuffer`. After `_stream` has ended, the first packet whose id is right makes it raise. -/
def buffer (s : Receiver κ) (data : Bytes) : Reply × Receiver κ :=
  if data = [] ∨ data.length % C.cfg.packetsize ≠ 0 then (([], .raised .value), s)
  else if s.stuck then (([], .hangs), s)
  else if s.stream.closed then (([], .raised .streamClosed), s)
  else if s.ended then
    match s.stream.session.shmac.testNextBlockId C.toEnv (data.take C.cfg.blockIdBytes) ((data.drop C.cfg.blockIdBytes).take C.cfg.blocksize) [] with
    | .error e => (([], .raised e), s)
    | .ok _ => (([], .ended), s)
  else
    match s.stream.bufferData C data with
    | (.ok, st) => (([], .returned), { s with stream := st })
    | (.refused .., st) => (([], .raised .invalidBlockID), { s with stream := st })
    | (.raised e, st) => (([], .raised e), { s with stream := st })

/-- decipher_streams.py:272-299 `abuffer`, cancelled. -/
def bufferCut (s : Receiver κ) (data : Bytes) (cut : AcceptCut κ) : Reply × Receiver κ :=
  if data = [] ∨ data.length % C.cfg.packetsize ≠ 0 then (([], .raised .value), s)
  else
    match cut with
    | .entering => (([], .cancelled), s)
    | .leaving =>
      if s.stuck then (([], .cancelled), s)
      else
        let r := s.buffer C data
        (([], .cancelled), { r.2 with stuck := true })
    | .testing k =>
      if s.stuck then (([], .cancelled), s)
      else if k = 0 then if s.stream.closed then (([], .raised .streamClosed), s) else (([], .cancelled), s)
      else
        let r := s.buffer C (data.take (C.cfg.packetsize * k))
        if r.1.2 ≠ .returned ∨ data.length ≤ C.cfg.packetsize * k then r else (([], .cancelled), r.2)
    | .cipher k session =>
      if s.stuck then (([], .cancelled), s)
      else if k = 0 then
        if s.stream.closed then (([], .raised .streamClosed), s)
        else (([], .cancelled), { s with stream := { s.stream with session }, ended := true })
      else
        let r := s.buffer C (data.take (C.cfg.packetsize * k))
        if r.1.2 ≠ .returned ∨ data.length ≤ C.cfg.packetsize * k then r
        else (([], .cancelled), { r.2 with stream := { r.2.stream with session }, ended := true })

/-- decipher_streams.py:167-193 `__aiter__`, advanced `n` times. -/
def pull (s : Receiver κ) (now : Int) (n : Nat) : Reply × Receiver κ :=
  let r := s.stream.pull C now n
  ((r.1.1, .of r.1.2), { s with stream := r.2 })

/-- decipher_streams.py:167-193 `__aiter__`, cancelled. In the test of the timestamp, `_is_streaming` was set before (decipher_streams.py:145-151). -/
def pullCut (s : Receiver κ) (now : Int) (cut : ReleaseCut) : Reply × Receiver κ :=
  match cut with
  | .testing =>
    if s.stream.isStreaming = true ∨ s.stream.ttl = none then s.pull C now 1
    else
      match s.stream.queue with
      | [] => (([], .raised .index), { s with stream := { s.stream with isStreaming := true } })
      | _ :: _ => (([], .cancelled), { s with stream := { s.stream with isStreaming := true } })
  | .trimming k =>
    match (if s.stream.isStreaming then (none, s.stream) else s.stream.testTimestamp C now) with
    | (some e, st) => (([], .raised e), { s with stream := st })
    | (none, st) =>
      let (bytesToTrim, queue) := trimSteps k st.bytesToTrim st.queue
      (([], .cancelled), { s with stream := { st with bytesToTrim, queue } })
  | .after n =>
    let r := s.pull C now (n + 1)
    if r.1.2 = .returned ∧ r.1.1.length = n + 1 then ((r.1.1, .cancelled), r.2) else r

/-- decipher_streams.py:195-237 `afinalize`, up to and including `shmac.afinalize`. -/
def close (s : Receiver κ) : Option Outcome × Receiver κ :=
  if s.stream.closed then (some (.raised .streamClosed), s)
  else
    let s := { s with stream := { s.stream with closed := true } }
    if s.stuck then (some .hangs, s)
    else
      match s.stream.session.shmac.finalize C.toEnv with
      | .error e => (some (.raised e), s)
      | .ok (_, shmac) => (none, { s with stream := { s.stream with session := { s.stream.session with shmac } } })

/-- decipher_streams.py:225-237: the blocks that are left at the end. -/
def lastBlocks (s : Receiver κ) : Option Err × List Bytes :=
  match s.stream.queue.getLast? with
  | none => (some .index, [])
  | some last => (none, Text.batch C.cfg.blocksize (Slice.of ⟨none, some (C.cfg.depaddingEndIndex last)⟩ s.stream.queue.flatten))

/-- decipher_streams.py:195-237 `afinalize`. -/
def finalize (s : Receiver κ) (now : Int) : Reply × Receiver κ :=
  match s.close C with
  | (some o, s) => (([], o), s)
  | (none, s) =>
    let r := s.pull C now (s.stream.queue.length + 1)
    if r.1.2 ≠ .returned then r
    else
      match r.2.lastBlocks C with
      | (some e, _) => ((r.1.1, .raised e), r.2)
      | (none, blocks) => ((r.1.1 ++ blocks, .returned), r.2)

/-- decipher_streams.py:195-237 `afinalize`, cancelled in the guard or in `shmac.afinalize`. -/
def finalizeCut (s : Receiver κ) (shmac : Bool) : Reply × Receiver κ :=
  if s.stream.closed then (([], .raised .streamClosed), s)
  else
    let s := { s with stream := { s.stream with closed := true } }
    if s.stuck ∨ shmac = false then (([], .cancelled), s)
    else
      (([], .cancelled), { s with stream := { s.stream with session := { s.stream.session with shmac := { s.stream.session.shmac with finalized := true } } } })

/-- One call: what it gives out, and how it ends. -/
def exec (s : Receiver κ) : Uncall κ → Reply × Receiver κ
  | .buffer data => s.buffer C data
  | .bufferCut data cut => s.bufferCut C data cut
  | .pull now n => s.pull C now n
  | .pullCut now cut => s.pullCut C now cut
  | .finalize now => s.finalize C now
  | .finalizeCut _ shmac => s.finalizeCut shmac
  | .finalizeRelease now cut =>
    match s.close C with
    | (some o, s) => (([], o), s)
    | (none, s) => s.pullCut C now cut
  | .finalizeRest now k left =>
    match s.close C with
    | (some o, s) => (([], o), s)
    | (none, s) =>
      let r := s.pull C now (s.stream.queue.length + 1)
      if r.1.2 ≠ .returned then (r.1, { r.2 with stuck := left })
      else
        match r.2.lastBlocks C with
        | (some e, _) => ((r.1.1, .raised e), { r.2 with stuck := left })
        | (none, blocks) => ((r.1.1 ++ blocks.take k, .cancelled), { r.2 with stuck := left })

/-- A history of calls: what they give out and how they end, and the final state. -/
def execAll (s : Receiver κ) : List (Uncall κ) → List Reply × Receiver κ
  | [] => ([], s)
  | call :: calls =>
    let r := s.exec C call
    let rest := r.2.execAll calls
    (r.1 :: rest.1, rest.2)

end Receiver

end Aiootp.Cipher.Cancel
