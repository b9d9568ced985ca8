import Verif.Model.StreamShared

/-
What is said about a stream that many threads use (property C79).
-/

namespace Aiootp.Cipher.Shared

open Cipher

variable {κ : Type}

/-- Nobody has begun. The calls of `buffer` are numbered, and `data` are their arguments. -/
def begin (st : CipherStream κ) (data : Nat → Bytes) : State κ := { stream := st, data }

/-- All packets are taken by one thread, number 0; any number of threads give data. -/
def OneTaker (moves : List Move) : Prop :=
  ∀ m ∈ moves, (∃ i, m = .feed i) ∨ m = .next 0 ∨ m = .finalize 0 ∨ m = .go 0

/-- The packets given out so far. -/
def State.packets (s : State κ) : List Packet := s.out.map (·.2)

/-- The data of the calls that were let in, in the order in which they were let in. -/
def State.message (s : State κ) : Bytes := (s.log.map s.data).flatten

/-- What a stream that only one thread uses gives out for a message. -/
def packetsOf (C : Cipher κ) (st : CipherStream κ) (message : Bytes) : List Packet :=
  (st.execAll C [.buffer message, .finalize]).1

/-- And the tag of that stream. -/
def tagOf (C : Cipher κ) (st : CipherStream κ) (message : Bytes) : Except Err Bytes :=
  (st.execAll C [.buffer message, .finalize]).2.2.session.shmac.getResult

end Aiootp.Cipher.Shared
