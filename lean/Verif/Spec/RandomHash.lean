import Mathlib.Data.Fintype.Vector
import Mathlib.Data.Fintype.Pi
import Verif.Model.Cipher

/-
Hash functions that are drawn at random: all functions that give a digest to each of finitely many inputs, each with the same weight. What has the chance
`1 / n` is true of one in `n` of them.
-/

namespace Aiootp.Secrecy

instance : Fintype UInt8 := Fintype.ofEquiv (Fin 256) ⟨UInt8.ofFin, UInt8.toFin, fun _ => rfl, fun _ => rfl⟩

/-- The first `K` bytes of the output for one input. -/
abbrev Digest (K : Nat) : Type := { b : Bytes // b.length = K }

instance (K : Nat) : Fintype (Digest K) := inferInstanceAs (Fintype (List.Vector UInt8 K))

/-- A digest for each of the inputs `D`. -/
abbrev Hash (D : Finset Bytes) (K : Nat) : Type := D → Digest K

/-- The hash function that gives these digests, and is a known function for all other inputs. (From the byte `K` on the digests are zeros; no one asks for
these bytes.) -/
def Hash.xof {D : Finset Bytes} {K : Nat} (known : Xof) (T : Hash D K) : Xof where
  digest m n := if h : m ∈ D then ((T ⟨m, h⟩).1 ++ List.replicate n 0).take n else known.digest m n
  length_digest m n := by
    by_cases h : m ∈ D
    · simp [h]
    · simp [h, Xof.length_digest]

/-- How many of these hash functions have the property. -/
noncomputable def count {D : Finset Bytes} {K : Nat} (P : Hash D K → Prop) : Nat := by
  classical exact (Finset.univ.filter P).card

/-- How many there are. -/
noncomputable def total (D : Finset Bytes) (K : Nat) : Nat := Fintype.card (Hash D K)

/-- What is asked of `bytes_encrypt`, with the key of the cipher object and what is drawn for the call. -/
structure Request where
  key : Bytes
  draws : Cipher.Draws
  salt : Option Bytes
  aad : Bytes
  data : Bytes

/-- The salt of the message: the one that is given, or else the one that is drawn. -/
def Request.usedSalt (r : Request) : Bytes :=
  match r.salt with
  | some (b :: bs) => b :: bs
  | _ => r.draws.salt

/-- Arguments that are accepted. -/
structure Request.Valid (c : Cipher.Sizes) (r : Request) : Prop where
  key_ge : 64 ≤ r.key.length
  key_lt : r.key.length < 256 ^ 8
  draws : r.draws.Fit c
  salt : r.usedSalt.length = c.saltBytes
  aad : r.aad.length < 256 ^ 4

/-- What may not be the same for two messages. -/
def Request.nonce (r : Request) : Bytes × Bytes × Bytes × Bytes := (r.key, r.usedSalt, r.aad, r.draws.iv)

/-- Someone who chooses all that is encrypted, and sees the messages that were made before. -/
abbrev Chooser : Type := List Bytes → Request

/-- The rules for them, if there are `n` messages: the arguments are accepted, the keys have the same size, and no two messages have the same key, salt, aad and iv. -/
structure Chooser.Fair (c : Cipher.Sizes) (n : Nat) (ask : Chooser) : Prop where
  valid : ∀ seen, (ask seen).Valid c
  size : ∀ seen seen', (ask seen).key.length = (ask seen').key.length
  nonce : ∀ seen more, more ≠ [] → (seen ++ more).length < n → (ask seen).nonce ≠ (ask (seen ++ more)).nonce

/-- `n` messages, one after the other. -/
def conversation {ρ : Type} (encrypt : ρ → Except Err Bytes) (ask : List Bytes → ρ) : (n : Nat) → (seen : List Bytes) → Except Err (List Bytes)
  | 0, seen => .ok seen
  | n + 1, seen => do
    let message ← encrypt (ask seen)
    conversation encrypt ask n (seen ++ [message])

/-- The size of a padded plaintext. -/
def paddedSize (c : Cipher.Sizes) (size : Nat) : Nat := c.paddingFrame * ((c.innerHeaderBytes + size) / c.paddingFrame + 1)

/-- A message that looks like one for this request: the salt and the iv are where they belong, and the tag and the blocks have the right sizes. -/
def Fits (c : Cipher.Sizes) (r : Request) (message : Bytes) : Prop :=
  ∃ tag body, message = tag ++ r.usedSalt ++ r.draws.iv ++ body ∧ tag.length = c.shmacBytes ∧ body.length = paddedSize c r.data.length

/-- Messages that look, each, like one for the request that follows the messages before. -/
def AllFit (c : Cipher.Sizes) (ask : Chooser) : (seen : List Bytes) → List Bytes → Prop
  | _, [] => True
  | seen, message :: messages => Fits c (ask seen) message ∧ AllFit c ask (seen ++ [message]) messages

/-- Two that choose plaintexts of the same sizes, after the same messages. They agree on what a message shows: the salts and the ivs. -/
def Alike (ask ask' : Chooser) : Prop :=
  ∀ seen, (ask seen).usedSalt = (ask' seen).usedSalt ∧ (ask seen).draws.iv = (ask' seen).draws.iv ∧ (ask seen).data.length = (ask' seen).data.length

/-- How many bytes of the messages are tags and blocks. -/
def hiddenBytes (c : Cipher.Sizes) (ask : Chooser) : (seen : List Bytes) → List Bytes → Nat
  | _, [] => 0
  | seen, message :: messages => c.shmacBytes + paddedSize c (ask seen).data.length + hiddenBytes c ask (seen ++ [message]) messages

end Aiootp.Secrecy
