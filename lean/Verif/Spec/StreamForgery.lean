import Verif.Spec.Forgery
import Verif.Props.Stream

/-
Attempts to have a stream taken that was not sent.
-/

namespace Aiootp.Secrecy

open Cipher Cipher.Cipher

/-- A streamed encryption: the key of the cipher object, what is drawn for the stream, the salt and aad that are given, and all the calls on the stream. -/
structure StreamRequest where
  key : Bytes
  draws : Draws
  salt : Option Bytes
  aad : Bytes
  calls : List StreamCall

/-- The same data for `bytes_encrypt`. -/
def StreamRequest.whole (r : StreamRequest) : Request := ⟨r.key, r.draws, r.salt, r.aad, buffered r.calls⟩

/-- Arguments that are accepted, and the stream is finalized. The calls may be any others. -/
structure StreamRequest.Valid (c : Sizes) (r : StreamRequest) : Prop where
  whole : r.whole.Valid c
  ends : .finalize ∈ r.calls

/-- What the sender shows: the tag, the salt, the iv and all packets, in their order. -/
def sendAll {κ : Type} (C : Cipher κ) (r : StreamRequest) : Except Err Bytes := do
  let (bundle, st) ← CipherStream.new C r.key r.draws r.salt r.aad
  let (packets, _, st) := st.execAll C r.calls
  let tag ← st.session.shmac.getResult
  return tag ++ bundle.salt ++ bundle.iv ++ wire packets

/-- What is given to a recipient, with the key of the cipher object and what is drawn for the stream: any calls that buffer something or iterate; then the stream is finalized at the time
`now`, and the tag is tested. -/
structure StreamAttempt where
  key : Bytes
  salt : Bytes
  aad : Bytes
  iv : Bytes
  ttl : Option Int
  saltDraw : Bytes
  calls : List UnstreamCall
  now : Int
  tag : Bytes

/-- Arguments that are accepted. What is buffered may be anything. -/
structure StreamAttempt.Valid (c : Sizes) (a : StreamAttempt) : Prop where
  key_ge : 64 ≤ a.key.length
  key_lt : a.key.length < 256 ^ 8
  salt : a.salt.length = c.saltBytes
  aad : a.aad.length < 256 ^ 4
  iv : a.iv.length = c.ivBytes
  saltDraw : a.saltDraw.length = c.saltBytes
  calls : ∀ call ∈ a.calls, call.isFinalize = false

/-- What the recipient has taken, and whether they accept the stream: `finalize` raises nothing, and `test_shmac` does not either. -/
def receiveAll {κ : Type} (C : Cipher κ) (a : StreamAttempt) : Except Err (Bytes × Bool) := do
  let st ← DecipherStream.new C a.key a.saltDraw (some a.salt) a.aad a.iv a.ttl
  let (replies, st) := st.execAll C a.calls
  let (last, st) := st.exec C (.finalize a.now)
  return (acceptedAll a.calls replies, last.err.isNone && (st.session.shmac.testShmac a.tag).isOk)

/-- The stream that was taken is not one of those that were sent with this key and aad. -/
def StreamAttempt.New (a : StreamAttempt) (taken : Bytes) (ask : List Bytes → StreamRequest) (messages : List Bytes) : Prop :=
  ∀ seen message rest, messages = seen ++ message :: rest → ¬ (message = a.tag ++ a.salt ++ a.iv ++ taken ∧ (ask seen).key = a.key ∧ (ask seen).aad = a.aad)

/-- Someone who sees some streams and makes up another. -/
abbrev StreamForger : Type := List Bytes → StreamAttempt

/-- The forger has a stream accepted, after `n` were sent. -/
def StreamSucceeds (send : StreamRequest → Except Err Bytes) (receive : StreamAttempt → Except Err (Bytes × Bool)) (ask : List Bytes → StreamRequest) (n : Nat) (forge : StreamForger) : Prop :=
  ∃ messages taken, conversation send ask n [] = .ok messages ∧ receive (forge messages) = .ok (taken, true) ∧ (forge messages).New taken ask messages

/-- Streams of a cipher cannot be forged, if its hash function is drawn at random on the inputs that have a key of the forger after one of `constants`. `send x` and `receive x` are
`sendAll` and `receiveAll` with the hash function `x`. For all known values of the hash function elsewhere, all ways to choose what is sent, and all lists of attempts, each made after some
number of streams: at most as many hash functions as the number of attempts in `256 ^ shmacBytes` let one of them through. -/
def StreamUnforgeable (c : Sizes) (constants : List Bytes) (K : Nat) (send : Xof → StreamRequest → Except Err Bytes) (receive : Xof → StreamAttempt → Except Err (Bytes × Bool)) : Prop :=
  ∀ (known : Xof) (ask : List Bytes → StreamRequest) (attempts : List (Nat × StreamForger)), (∀ seen, (ask seen).Valid c) → (∀ p ∈ attempts, ∀ seen, (p.2 seen).Valid c) →
    (∀ p ∈ attempts, ∀ seen seen', (ask seen).key.length = (p.2 seen').key.length) → ∃ D0 : Finset Bytes,
    (∀ q ∈ D0, ∃ F ∈ constants, ∃ p ∈ attempts, ∃ seen w, q = F ++ (p.2 seen).key ++ w) ∧ ∀ D, D0 ⊆ D →
      count (fun T : Hash D K => ∃ p ∈ attempts, StreamSucceeds (send (T.xof known)) (receive (T.xof known)) ask p.1 p.2) * 256 ^ c.shmacBytes ≤ attempts.length * total D K

end Aiootp.Secrecy
