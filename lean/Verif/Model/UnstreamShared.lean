import Verif.Model.Stream

/-
`aiootp/ciphers/decipher_streams.py`: one stream used by many threads (or coroutines) at once. Some of them give it packets, others take plaintext from it.

Each access to what the stream shares is one step, and the steps interleave in any order. The coroutines of `AsyncDecipherStream` run the same code, and change over at fewer places. The guard is a lock
here (`Guard` models how it works; any order of those who wait is allowed here). Testing the id of a packet and decrypting it is one step, because only those who have the guard do it.
Simplifications: the thread that called `finalize` runs its generator to the end, and the part after its loop is one step.
-/

namespace Aiootp.Cipher.SharedDec

open Cipher

/-- A call of `buffer`, step by step (decipher_streams.py:569-596, 543-567; async 286-313, 259-284). -/
inductive Feeder where
  /-- not begun, or waiting for the guard -/
  | outside
  /-- has the guard -/
  | inside
  /-- reads packets; `rest` is what is left to read -/
  | reading (rest : Bytes)
  /-- has decrypted a packet to `out`, which is not yet in the queue -/
  | accepted (blockId block out rest : Bytes)
  /-- about to leave the guard -/
  | leaving (r : BufferReply)
  /-- returned or raised -/
  | done (r : BufferReply)
  deriving DecidableEq

/-- A thread that takes plaintext, step by step (decipher_streams.py:468-541; async 182-257). `fin` tells whether it runs the generator of `finalize`. -/
inductive Taker where
  /-- takes nothing now; `e` is what its last call raised -/
  | ready (e : Option Err)
  /-- its iterator has given out a block and can go on -/
  | yielded
  /-- at the beginning of an iteration -/
  | entering (fin : Bool)
  /-- has seen that the timestamp was not tested -/
  | marking (fin : Bool)
  /-- has set `_is_streaming` -/
  | testing (fin : Bool)
  /-- the test has raised -/
  | expired (fin : Bool) (e : Err)
  /-- at the head of the loop that removes the header -/
  | trimming (fin : Bool)
  /-- inside that loop -/
  | cutting (fin : Bool)
  /-- at the head of the loop that gives out blocks -/
  | taking (fin : Bool)
  /-- inside that loop -/
  | popping (fin : Bool)
  /-- called `finalize`, waits for the guard -/
  | waiting
  /-- has the guard -/
  | ending
  /-- after the iteration of `finalize` -/
  | flushing
  deriving DecidableEq

/-- Who has the guard. -/
inductive Agent where
  | feeder (i : Nat)
  | taker (j : Nat)
  deriving DecidableEq

/-- A packet that was read: by which call, and whether it was taken. -/
structure Entry where
  call : Nat
  blockId : Bytes
  block : Bytes
  taken : Bool
  deriving DecidableEq, Repr

/-- A stream and its users. `out` are the blocks given out, and to whom; `log` are the packets that were put into the queue or refused, in order. -/
structure State (κ : Type) where
  stream : DecipherStream κ
  data : Nat → Bytes
  owner : Option Agent := none
  feeder : Nat → Feeder := fun _ => .outside
  taker : Nat → Taker := fun _ => .ready none
  out : List (Nat × Bytes) := []
  log : List Entry := []

/-- A new value at one place. -/
def upd {α : Type} (f : Nat → α) (k : Nat) (a : α) : Nat → α := fun n => if n = k then a else f n

namespace State

variable {κ : Type} (C : Cipher κ)

def setFeeder (s : State κ) (i : Nat) (f : Feeder) : State κ := { s with feeder := upd s.feeder i f }

def setTaker (s : State κ) (j : Nat) (t : Taker) : State κ := { s with taker := upd s.taker j t }

def setQueue (s : State κ) (q : List Bytes) : State κ := { s with stream := { s.stream with queue := q } }

/-- decipher_streams.py:569-596 `buffer`, 543-567 `_digest_data`: one step of the call `i`. -/
def feed (s : State κ) (i : Nat) : State κ :=
  match s.feeder i with
  | .outside =>
    if s.data i = [] ∨ (s.data i).length % C.cfg.packetsize ≠ 0 then s.setFeeder i (.done (.raised .value))
    else if s.owner = none then { s.setFeeder i .inside with owner := some (.feeder i) }
    else s
  | .inside => s.setFeeder i (if s.stream.closed then .leaving (.raised .streamClosed) else .reading (s.data i))
  | .reading rest =>
    let blockId := rest.take C.cfg.blockIdBytes
    let block := (rest.drop C.cfg.blockIdBytes).take C.cfg.blocksize
    let more := (rest.drop C.cfg.blockIdBytes).drop C.cfg.blocksize
    if blockId = [] then s.setFeeder i (.leaving .ok)
    else
      match C.accept s.stream.session blockId block with
      | .error .invalidBlockID =>
        { s.setFeeder i (.leaving (.refused blockId block more)) with log := s.log ++ [⟨i, blockId, block, false⟩] }
      | .error e => s.setFeeder i (.leaving (.raised e))
      | .ok (out, session) => { s.setFeeder i (.accepted blockId block out more) with stream := { s.stream with session } }
  | .accepted blockId block out rest =>
    { (s.setQueue (s.stream.queue ++ [out])).setFeeder i (.reading rest) with log := s.log ++ [⟨i, blockId, block, true⟩] }
  | .leaving r => { s.setFeeder i (.done r) with owner := none }
  | .done _ => s

/-- An exception ends the generator that the taker runs; that of `finalize` leaves the guard. -/
def raise (s : State κ) (j : Nat) (fin : Bool) (e : Err) : State κ :=
  { s.setTaker j (.ready (some e)) with owner := if fin then none else s.owner }

/-- decipher_streams.py:495-502: a new iterator of the stream is advanced. -/
def next (s : State κ) (j : Nat) : State κ :=
  match s.taker j with
  | .ready _ | .yielded => s.setTaker j (.entering false)
  | _ => s

/-- decipher_streams.py:507-508: the iterator that has given out a block is advanced. -/
def resume (s : State κ) (j : Nat) : State κ :=
  match s.taker j with
  | .yielded => s.setTaker j (.taking false)
  | _ => s

/-- decipher_streams.py:527-530: the generator of `finalize` is begun. -/
def finalize (s : State κ) (j : Nat) : State κ :=
  match s.taker j with
  | .ready _ | .yielded =>
    if s.stream.closed then s.setTaker j (.ready (some .streamClosed))
    else { s.setTaker j .waiting with stream := { s.stream with closed := true } }
  | _ => s

/-- decipher_streams.py:468-508, 532-541: one more step of the taker `j`; `now` is what the clock says. -/
def go (s : State κ) (j : Nat) (now : Int) : State κ :=
  match s.taker j with
  | .ready _ | .yielded => s
  | .entering fin => s.setTaker j (if s.stream.isStreaming then .trimming fin else .marking fin)
  | .marking fin => { s.setTaker j (.testing fin) with stream := { s.stream with isStreaming := true } }
  | .testing fin =>
    match s.stream.queue with
    | [] => s.raise j fin .index
    | first :: _ =>
      match Clock.testTimestamp now (C.cfg.timestampSlice.of first) s.stream.ttl .big with
      | .error e => s.setTaker j (.expired fin e)
      | .ok _ => s.setTaker j (.trimming fin)
  | .expired fin e => { s.raise j fin e with stream := { s.stream with isStreaming := false } }
  | .trimming fin => s.setTaker j (if s.stream.bytesToTrim ≠ 0 ∧ s.stream.queue ≠ [] then .cutting fin else .taking fin)
  | .cutting fin =>
    match s.stream.queue with
    | [] => s.raise j fin .index
    | first :: rest =>
      let header := first.take s.stream.bytesToTrim
      let block := first.drop s.stream.bytesToTrim
      { s.setTaker j (.trimming fin) with
        stream := { s.stream with
          bytesToTrim := s.stream.bytesToTrim - header.length
          queue := if block = [] then rest else block :: rest } }
  | .taking fin =>
    s.setTaker j (if s.stream.queue.length > C.cfg.minStreamQueue then .popping fin else if fin then .flushing else .ready none)
  | .popping fin =>
    match s.stream.queue with
    | [] => s.raise j fin .index
    | block :: rest => { (s.setQueue rest).setTaker j (if fin then .taking true else .yielded) with out := s.out ++ [(j, block)] }
  | .waiting => if s.owner = none then { s.setTaker j .ending with owner := some (.taker j) } else s
  | .ending =>
    match s.stream.session.shmac.finalize C.toEnv with
    | .error e => s.raise j true e
    | .ok (_, shmac) =>
      { s.setTaker j (.entering true) with stream := { s.stream with session := { s.stream.session with shmac } } }
  | .flushing =>
    match s.stream.queue.getLast? with
    | none => s.raise j true .index
    | some last =>
      let plaintext := Slice.of ⟨none, some (C.cfg.depaddingEndIndex last)⟩ s.stream.queue.flatten
      { s.setTaker j (.ready none) with
        out := s.out ++ (Text.batch C.cfg.blocksize plaintext).map (fun b => (j, b)), owner := none }

end State

/-- What may happen next. -/
inductive Move where
  /-- the call `i` of `buffer` makes a step -/
  | feed (i : Nat)
  /-- the taker `j` advances a new iterator -/
  | next (j : Nat)
  /-- the taker `j` advances its iterator -/
  | resume (j : Nat)
  /-- the taker `j` finalizes the stream -/
  | finalize (j : Nat)
  /-- the taker `j` makes a step -/
  | go (j : Nat) (now : Int)
  deriving DecidableEq, Repr

def State.move {κ : Type} (C : Cipher κ) (s : State κ) : Move → State κ
  | .feed i => s.feed C i
  | .next j => s.next j
  | .resume j => s.resume j
  | .finalize j => s.finalize j
  | .go j now => s.go C j now

def State.run {κ : Type} (C : Cipher κ) (s : State κ) (moves : List Move) : State κ := moves.foldl (State.move C) s

end Aiootp.Cipher.SharedDec
