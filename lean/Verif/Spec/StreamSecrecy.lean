import Verif.Spec.RandomHash
import Verif.Model.Stream

/-
What someone sees who has streams made of plaintexts that they choose while the streams are being made.
-/

namespace Aiootp.Secrecy

open Cipher Cipher.Cipher

/-- What can be asked for: a new stream, with the key of the cipher object and what is drawn for the stream, or a call on the `k`-th of the streams. -/
inductive Act where
  | start (key : Bytes) (draws : Draws) (salt : Option Bytes) (aad : Bytes)
  | call (k : Nat) (act : StreamCall)

/-- What is seen of it: the salt and the iv of a new stream; or the packets that a call gives out, the exception that it raises, and the tag of the stream, once there is one. -/
inductive Shown where
  | started (salt iv : Bytes)
  | made (packets : List Packet) (error : Option Err) (tag : Option Bytes)
  | refused (e : Err)

/-- One act. -/
def Act.exec {κ : Type} (C : Cipher κ) (streams : List (CipherStream κ)) : Act → Shown × List (CipherStream κ)
  | .start key draws salt aad =>
    match CipherStream.new C key draws salt aad with
    | .error e => (.refused e, streams)
    | .ok (bundle, stream) => (.started bundle.salt bundle.iv, streams ++ [stream])
  | .call k act =>
    match streams[k]? with
    | none => (.refused .index, streams)
    | some stream =>
      let (reply, stream) := stream.exec C act
      (.made reply.1 reply.2 stream.session.shmac.getResult.toOption, streams.set k stream)

/-- Someone who chooses each act when they have seen what came of those before. -/
abbrev Streamer : Type := List Shown → Act

/-- What is seen of `n` acts. The streams may be interleaved. -/
def streaming {κ : Type} (C : Cipher κ) (ask : Streamer) : (n : Nat) → List (CipherStream κ) → (seen : List Shown) → List Shown
  | 0, _, seen => seen
  | n + 1, streams, seen =>
    let (shown, streams) := (ask seen).exec C streams
    streaming C ask n streams (seen ++ [shown])

/-- The arguments of a new stream, as those of a message. -/
def Act.request : Act → Option Request
  | .start key draws salt aad => some ⟨key, draws, salt, aad, []⟩
  | .call _ _ => none

/-- The rules, if there are `n` acts: the arguments of new streams are accepted, the keys have the same size, and no two streams have the same key, salt, aad and iv. Calls may be any. -/
structure Streamer.Fair (c : Sizes) (n : Nat) (ask : Streamer) : Prop where
  valid : ∀ seen r, (ask seen).request = some r → r.Valid c
  size : ∀ seen seen' r r', (ask seen).request = some r → (ask seen').request = some r' → r.key.length = r'.key.length
  nonce : ∀ seen more r r', more ≠ [] → (seen ++ more).length < n → (ask seen).request = some r → (ask (seen ++ more)).request = some r' → r.nonce ≠ r'.nonce

/-- Acts that differ in what is secret only: the key, the draws that are not shown, the aad and the bytes that are encrypted. -/
def Act.Alike : Act → Act → Prop
  | .start key draws salt aad, .start key' draws' salt' aad' =>
    (⟨key, draws, salt, aad, []⟩ : Request).usedSalt = (⟨key', draws', salt', aad', []⟩ : Request).usedSalt ∧ draws.iv = draws'.iv
  | .call k (.buffer data), .call k' (.buffer data') => k = k' ∧ data.length = data'.length
  | .call k act, .call k' act' => k = k' ∧ act = act'
  | _, _ => False

/-- The bytes that an act leads to be encrypted: those that are buffered, and for each stream the header and at most a frame of padding. -/
def Act.bytes (c : Sizes) : Act → Nat
  | .start .. => c.innerHeaderBytes + c.paddingFrame
  | .call _ (.buffer data) => data.length
  | .call _ _ => 0

/-- Whatever is seen, the next `n` acts have at most that many bytes encrypted. -/
def Streamer.AtMost (c : Sizes) (ask : Streamer) : (n : Nat) → (seen : List Shown) → (bytes : Nat) → Prop
  | 0, _, _ => True
  | n + 1, seen, bytes => (ask seen).bytes c ≤ bytes ∧ ∀ shown, Streamer.AtMost c ask n (seen ++ [shown]) (bytes - (ask seen).bytes c)

/-- Streams of a cipher say nothing but sizes, if its hash function is drawn at random on the inputs that have a key after one of `constants`, and on those that begin with the constant
`idConstant` of the block ids. `play x` is `streaming` with the hash function `x`. For all known values of the hash function elsewhere, and any two that choose alike and have at most `N` blocks
encrypted: no test of what they see tells them apart but for `N * N` in `256 ^ shmacBlocksize` of the hash functions. -/
def StreamsHide (c : Sizes) (constants : List Bytes) (idConstant : Bytes) (K : Nat) (play : Xof → Streamer → Nat → List Shown) : Prop :=
  ∀ (known : Xof) (n N : Nat) (ask ask' : Streamer), ask.Fair c n → ask'.Fair c n → (∀ seen, (ask seen).Alike (ask' seen)) → ask.AtMost c n [] (N * c.blocksize) → ∃ D0 : Finset Bytes,
    (∀ q ∈ D0, (∃ F ∈ constants, ∃ seen r w, ((ask seen).request = some r ∨ (ask' seen).request = some r) ∧ q = F ++ r.key ++ w) ∨ ∃ w, q = idConstant ++ w) ∧
    ∀ D, D0 ⊆ D → ∀ test : List Shown → Prop,
      count (fun T : Hash D K => test (play (T.xof known) ask n)) * 256 ^ c.shmacBlocksize ≤
        count (fun T : Hash D K => test (play (T.xof known) ask' n)) * 256 ^ c.shmacBlocksize + N * N * total D K ∧
      count (fun T : Hash D K => test (play (T.xof known) ask' n)) * 256 ^ c.shmacBlocksize ≤
        count (fun T : Hash D K => test (play (T.xof known) ask n)) * 256 ^ c.shmacBlocksize + N * N * total D K

end Aiootp.Secrecy
