import Verif.Spec.StreamForgery

/-
Attempts to have a packet taken that was not sent. A recipient gives out what they take before the stream is finalized.
-/

namespace Aiootp.Secrecy

open Cipher Cipher.Cipher

/-- What is given to a recipient, with the key of the cipher object and what is drawn for the stream: any calls that buffer something or iterate. -/
structure PacketAttempt where
  key : Bytes
  salt : Bytes
  aad : Bytes
  iv : Bytes
  ttl : Option Int
  saltDraw : Bytes
  calls : List UnstreamCall

/-- Arguments that are accepted. What is buffered may be anything. -/
structure PacketAttempt.Valid (c : Sizes) (a : PacketAttempt) : Prop where
  key_ge : 64 ≤ a.key.length
  key_lt : a.key.length < 256 ^ 8
  salt : a.salt.length = c.saltBytes
  aad : a.aad.length < 256 ^ 4
  iv : a.iv.length = c.ivBytes
  saltDraw : a.saltDraw.length = c.saltBytes
  calls : ∀ call ∈ a.calls, call.isFinalize = false

/-- How many bytes are buffered. -/
def offeredBytes : List UnstreamCall → Nat
  | [] => 0
  | .buffer data :: calls => data.length + offeredBytes calls
  | _ :: calls => offeredBytes calls

/-- What the recipient has taken: the packets that were not refused. -/
def takeAll {κ : Type} (C : Cipher κ) (a : PacketAttempt) : Except Err Bytes := do
  let st ← DecipherStream.new C a.key a.saltDraw (some a.salt) a.aad a.iv a.ttl
  return acceptedAll a.calls (st.execAll C a.calls).1

/-- The bytes are the beginning of the packets of a stream that was sent with the same key, salt, aad and iv. -/
def PacketAttempt.Begins (c : Sizes) (a : PacketAttempt) (ask : List Bytes → StreamRequest) (messages : List Bytes) (bytes : Bytes) : Prop :=
  ∃ seen message rest tag more, messages = seen ++ message :: rest ∧ (ask seen).key = a.key ∧ (ask seen).aad = a.aad ∧ tag.length = c.shmacBytes ∧
    message = tag ++ a.salt ++ a.iv ++ bytes ++ more

/-- The packet is none of those that were sent, in any of the streams. -/
def NeverSent (c : Sizes) (messages : List Bytes) (packet : Bytes) : Prop :=
  ∀ message ∈ messages, ∀ head before after, message = head ++ before ++ packet ++ after → head.length = c.shmacBytes + c.saltBytes + c.ivBytes → ¬ c.packetsize ∣ before.length

/-- What was taken departs from the streams that were sent, with a packet that was never sent: up to there it is the beginning of a stream with the same key, salt, aad and iv, or nothing. -/
def PacketAttempt.Departs (c : Sizes) (a : PacketAttempt) (ask : List Bytes → StreamRequest) (messages : List Bytes) (taken : Bytes) : Prop :=
  ∃ before packet more, taken = before ++ packet ++ more ∧ c.packetsize ∣ before.length ∧ packet.length = c.packetsize ∧ (before = [] ∨ a.Begins c ask messages before) ∧
    NeverSent c messages packet

/-- Someone who sees some streams and makes up packets. -/
abbrev PacketForger : Type := List Bytes → PacketAttempt

/-- The forger has a packet taken, after `n` streams were sent. -/
def PacketSucceeds (c : Sizes) (send : StreamRequest → Except Err Bytes) (take : PacketAttempt → Except Err Bytes) (ask : List Bytes → StreamRequest) (n : Nat) (forge : PacketForger) : Prop :=
  ∃ messages taken, conversation send ask n [] = .ok messages ∧ take (forge messages) = .ok taken ∧ (forge messages).Departs c ask messages taken

/-- Packets of a cipher cannot be forged, if its hash function is drawn at random on some inputs that begin with the constant `idConstant` of the block ids. `send x` and `take x` are `sendAll`
and `takeAll` with the hash function `x`. For all known values of the hash function elsewhere, all ways to choose what is sent, and all lists of attempts, each made after some number of streams
and offering at most `N` packets: at most as many hash functions as the number of packets offered in `256 ^ blockIdBytes` let one of them through. -/
def PacketsUnforgeable (c : Sizes) (idConstant : Bytes) (K : Nat) (send : Xof → StreamRequest → Except Err Bytes) (take : Xof → PacketAttempt → Except Err Bytes) : Prop :=
  ∀ (known : Xof) (ask : List Bytes → StreamRequest) (N : Nat) (attempts : List (Nat × PacketForger)), (∀ seen, (ask seen).Valid c) → (∀ p ∈ attempts, ∀ seen, (p.2 seen).Valid c) →
    (∀ p ∈ attempts, ∀ seen, offeredBytes (p.2 seen).calls ≤ N * c.packetsize) → ∃ D0 : Finset Bytes, (∀ q ∈ D0, idConstant <+: q) ∧ ∀ D, D0 ⊆ D →
      count (fun T : Hash D K => ∃ p ∈ attempts, PacketSucceeds c (send (T.xof known)) (take (T.xof known)) ask p.1 p.2) * 256 ^ c.blockIdBytes ≤ attempts.length * N * total D K

end Aiootp.Secrecy
