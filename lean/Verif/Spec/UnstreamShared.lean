import Verif.Model.UnstreamShared

/-
What is said about a decipher stream that many threads use (property C80).
-/

namespace Aiootp.Cipher.SharedDec

open Cipher

variable {κ : Type}

/-- Nobody has begun. The calls of `buffer` are numbered, and `data` are their arguments. -/
def begin (st : DecipherStream κ) (data : Nat → Bytes) : State κ := { stream := st, data }

/-- All plaintext is taken by one thread, number 0; any number of threads give packets. -/
def OneTaker (moves : List Move) : Prop :=
  ∀ m ∈ moves, (∃ i, m = .feed i) ∨ m = .next 0 ∨ m = .resume 0 ∨ m = .finalize 0 ∨ ∃ now, m = .go 0 now

/-- The blocks of plaintext given out so far. -/
def State.outs (s : State κ) : List Bytes := s.out.map (·.2)

/-- A packet was taken. -/
def State.hasPacket (s : State κ) : Prop := ∃ x ∈ s.log, x.taken = true

/-- The taker waits with the first iteration until a packet was taken. -/
def Patient (C : Cipher κ) (s : State κ) (moves : List Move) : Prop :=
  ∀ before after, moves = before ++ .next 0 :: after → (s.run C before).hasPacket

/-- The packets that calls of one thread buffer, and whether they were taken. -/
def heard : List UnstreamCall → List UnstreamReply → List (Bytes × Bool)
  | .buffer data :: calls, reply :: replies => (data, reply.err.isNone) :: heard calls replies
  | _ :: calls, _ :: replies => heard calls replies
  | _, _ => []

/-- The packets that were read, and whether they were taken. -/
def State.heard (s : State κ) : List (Bytes × Bool) := s.log.map fun x => (x.blockId ++ x.block, x.taken)

/-- What was taken of the data of one call. -/
def State.takenOf (s : State κ) (i : Nat) : Bytes :=
  ((s.log.filter fun x => x.call = i ∧ x.taken = true).map fun x => x.blockId ++ x.block).flatten

/-- The packets of one call were not interrupted by those of others. -/
def State.Grouped (s : State κ) : Prop :=
  ∀ before x between y after, s.log = before ++ x :: between ++ y :: after → x.call = y.call → ∀ z ∈ between, z.call = x.call

end Aiootp.Cipher.SharedDec
