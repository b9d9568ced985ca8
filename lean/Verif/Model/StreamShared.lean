import Verif.Model.Stream

/-
`aiootp/ciphers/cipher_streams.py`: one stream used by many threads (or coroutines) at once. Some of them give it data, others take packets from it.

Each access to what the stream shares is one step, and the steps interleave in any order. The coroutines of `AsyncCipherStream` run the same code, and change over at fewer places. The guard is a lock
here (`Guard` models how it works; any order of those who wait is allowed here). Encrypting a block is one step, because the generator `_stream` refuses to be run by two at once. Simplifications: the
thread that called `finalize` runs its generator to the end; a generator that has ended because the queue was empty could go on here, which the code's could not.
-/

namespace Aiootp.Cipher.Shared

open Cipher

/-- A call of `buffer`, step by step (cipher_streams.py:467-494, 444-465; async 238-265, 213-236). -/
inductive Feeder where
  /-- not begun, or waiting for the guard -/
  | outside
  /-- has the guard -/
  | inside
  /-- has seen that the stream is open -/
  | admitted
  /-- has counted its data -/
  | counted
  /-- has seen that the last block is not full -/
  | filling
  /-- reads blocks; `rest` is what is left to read -/
  | reading (rest : Bytes)
  /-- about to leave the guard, with or without an exception -/
  | leaving (e : Option Err)
  /-- returned or raised -/
  | done (e : Option Err)
  deriving DecidableEq

/-- A thread that takes packets, step by step (cipher_streams.py:394-442; async 159-211). `fin` tells whether it runs the generator of `finalize`. -/
inductive Taker where
  /-- takes nothing now; `e` is what its last call raised -/
  | ready (e : Option Err)
  /-- has seen that there are blocks in the queue -/
  | checked (fin : Bool)
  /-- runs the generator `_stream` -/
  | started (fin : Bool)
  /-- has taken a block from the queue -/
  | popped (fin : Bool) (block : Bytes)
  /-- has the block of ciphertext, but not the id -/
  | turned (fin : Bool) (out : Bytes)
  /-- called `finalize`, waits for the guard -/
  | waiting
  /-- has the guard -/
  | padding
  /-- puts the last blocks into the queue -/
  | appending (blocks : List Bytes)
  /-- at the head of the loop of `finalize` -/
  | flushing
  /-- after the loop -/
  | closing
  deriving DecidableEq

/-- Who has the guard. -/
inductive Agent where
  | feeder (i : Nat)
  | taker (j : Nat)
  deriving DecidableEq

/-- A stream and its users. `busy` tells whether the generator `_stream` is running; `out` are the packets given out, and to whom; `log` are the calls of `buffer` that were let in, in order. -/
structure State (κ : Type) where
  stream : CipherStream κ
  data : Nat → Bytes
  owner : Option Agent := none
  busy : Bool := false
  feeder : Nat → Feeder := fun _ => .outside
  taker : Nat → Taker := fun _ => .ready none
  out : List (Nat × Packet) := []
  log : List Nat := []

/-- A new value at one place. -/
def upd {α : Type} (f : Nat → α) (k : Nat) (a : α) : Nat → α := fun n => if n = k then a else f n

namespace State

variable {κ : Type} (C : Cipher κ)

def setFeeder (s : State κ) (i : Nat) (f : Feeder) : State κ := { s with feeder := upd s.feeder i f }

def setTaker (s : State κ) (j : Nat) (t : Taker) : State κ := { s with taker := upd s.taker j t }

def setBuffer (s : State κ) (b : List Bytes) : State κ := { s with stream := { s.stream with buffer := b } }

/-- cipher_streams.py:467-494 `buffer`, 444-465 `_digest_data`: one step of the call `i`. -/
def feed (s : State κ) (i : Nat) : State κ :=
  match s.feeder i with
  | .outside => if s.owner = none then { s.setFeeder i .inside with owner := some (.feeder i) } else s
  | .inside =>
    if s.stream.closed then s.setFeeder i (.leaving (some .streamClosed))
    else { s.setFeeder i .admitted with log := s.log ++ [i] }
  | .admitted =>
    { s.setFeeder i .counted with stream := { s.stream with byteCount := s.stream.byteCount + (s.data i).length } }
  | .counted =>
    match s.stream.buffer.getLast? with
    | none => s.setFeeder i (.reading (s.data i))
    | some last => s.setFeeder i (if last.length = C.cfg.blocksize then .reading (s.data i) else .filling)
  | .filling =>
    match s.stream.buffer.getLast? with
    | none => s.setFeeder i (.leaving (some .index))
    | some last =>
      if last.length > C.cfg.blocksize then
        (s.setBuffer (s.stream.buffer.dropLast ++ [last ++ s.data i])).setFeeder i (.leaving none)
      else
        let missing := C.cfg.blocksize - last.length
        let chunk := (s.data i).take missing
        (s.setBuffer (s.stream.buffer.dropLast ++ [last ++ chunk])).setFeeder i
          (if chunk.length ≠ missing then .leaving none else .reading ((s.data i).drop missing))
  | .reading rest =>
    let block := rest.take C.cfg.blocksize
    (s.setBuffer (s.stream.buffer ++ [block])).setFeeder i
      (if block.length ≠ C.cfg.blocksize then .leaving none else .reading (rest.drop C.cfg.blocksize))
  | .leaving e => { s.setFeeder i (.done e) with owner := none }
  | .done _ => s

/-- An exception ends the generator that the taker runs; that of `finalize` leaves the guard. -/
def raise (s : State κ) (j : Nat) (fin : Bool) (e : Err) : State κ :=
  { s.setTaker j (.ready (some e)) with owner := if fin then none else s.owner }

/-- cipher_streams.py:402: an iterator of the stream is advanced. -/
def next (s : State κ) (j : Nat) : State κ :=
  match s.taker j with
  | .ready _ => s.setTaker j (if s.stream.buffer.length > C.cfg.minStreamQueue then .checked false else .ready none)
  | _ => s

/-- cipher_streams.py:425-428: the generator of `finalize` is begun. -/
def finalize (s : State κ) (j : Nat) : State κ :=
  match s.taker j with
  | .ready _ =>
    if s.stream.closed then s.setTaker j (.ready (some .streamClosed))
    else { s.setTaker j .waiting with stream := { s.stream with closed := true } }
  | _ => s

/-- cipher_streams.py:403-404, 430-442: one more step of the taker `j`. -/
def go (s : State κ) (j : Nat) : State κ :=
  match s.taker j with
  | .ready _ => s
  | .checked fin => if s.busy then s.raise j fin .value else { s.setTaker j (.started fin) with busy := true }
  | .started fin =>
    match s.stream.buffer with
    | [] => { s.raise j fin .stopIteration with busy := false }
    | block :: rest => (s.setBuffer rest).setTaker j (.popped fin block)
  | .popped fin block =>
    match C.turn s.stream.session.shmac s.stream.session.keys block with
    | .error e => { s.raise j fin e with busy := false }
    | .ok (out, shmac, keys) =>
      { s.setTaker j (.turned fin out) with stream := { s.stream with session := { shmac, keys } }, busy := false }
  | .turned fin out =>
    match s.stream.session.shmac.nextBlockId C.toEnv out 0 [] with
    | .error e => s.raise j fin e
    | .ok blockId => { s.setTaker j (if fin then .flushing else .ready none) with out := s.out ++ [(j, blockId, out)] }
  | .waiting => if s.owner = none then { s.setTaker j .padding with owner := some (.taker j) } else s
  | .padding =>
    match C.cfg.endPadding s.stream.extra s.stream.byteCount, s.stream.buffer.getLast? with
    | .error e, _ => s.raise j true e
    | .ok _, none => s.raise j true .index
    | .ok endPadding, some last =>
      (s.setBuffer s.stream.buffer.dropLast).setTaker j (.appending (Text.batch C.cfg.blocksize (last ++ endPadding)))
  | .appending [] => s.setTaker j .flushing
  | .appending (block :: blocks) => (s.setBuffer (s.stream.buffer ++ [block])).setTaker j (.appending blocks)
  | .flushing => s.setTaker j (if s.stream.buffer ≠ [] then .checked true else .closing)
  | .closing =>
    match s.stream.session.shmac.finalize C.toEnv with
    | .error e => s.raise j true e
    | .ok (_, shmac) =>
      { s.setTaker j (.ready none) with
        stream := { s.stream with session := { s.stream.session with shmac } }, owner := none }

end State

/-- What may happen next. -/
inductive Move where
  /-- the call `i` of `buffer` makes a step -/
  | feed (i : Nat)
  /-- the taker `j` advances an iterator -/
  | next (j : Nat)
  /-- the taker `j` finalizes the stream -/
  | finalize (j : Nat)
  /-- the taker `j` makes a step -/
  | go (j : Nat)
  deriving DecidableEq, Repr

def State.move {κ : Type} (C : Cipher κ) (s : State κ) : Move → State κ
  | .feed i => s.feed C i
  | .next j => s.next C j
  | .finalize j => s.finalize j
  | .go j => s.go C j

def State.run {κ : Type} (C : Cipher κ) (s : State κ) (moves : List Move) : State κ := moves.foldl (State.move C) s

end Aiootp.Cipher.Shared
