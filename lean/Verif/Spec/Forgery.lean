import Verif.Spec.RandomHash

/-
Attempts to have something decrypted that was not encrypted.
-/

namespace Aiootp.Secrecy

/-- What is given to `bytes_decrypt`, with the key of the cipher object, the clock and what is drawn for the call. -/
structure Attempt where
  key : Bytes
  aad : Bytes
  data : Bytes
  ttl : Option Int
  now : Int
  saltDraw : Bytes

/-- Arguments that are accepted. The data may be anything. -/
structure Attempt.Valid (c : Cipher.Sizes) (a : Attempt) : Prop where
  key_ge : 64 ≤ a.key.length
  key_lt : a.key.length < 256 ^ 8
  aad : a.aad.length < 256 ^ 4
  saltDraw : a.saltDraw.length = c.saltBytes

/-- A call of `bytes_decrypt` that gets through the authentication: it does not raise `InvalidSHMAC`, nor `InvalidCiphertextSize`. -/
def Passes (result : Except Err Bytes) : Prop := result ≠ .error .invalidSHMAC ∧ result ≠ .error .ciphertextSize

/-- The ciphertext is not one of the messages that were made for this key and aad. -/
def Attempt.New (a : Attempt) (ask : Chooser) (messages : List Bytes) : Prop :=
  ∀ seen message rest, messages = seen ++ message :: rest → ¬ (message = a.data ∧ (ask seen).key = a.key ∧ (ask seen).aad = a.aad)

/-- Someone who sees some messages and makes up a ciphertext. -/
abbrev Forger : Type := List Bytes → Attempt

/-- The forger gets through after `n` messages. -/
def Succeeds (encrypt : Request → Except Err Bytes) (decrypt : Attempt → Except Err Bytes) (ask : Chooser) (n : Nat) (forge : Forger) : Prop :=
  ∃ messages, conversation encrypt ask n [] = .ok messages ∧ (forge messages).New ask messages ∧ Passes (decrypt (forge messages))

/-- The messages of a cipher cannot be forged, if its hash function is drawn at random on the inputs that have a key of the forger after one of `constants`. `encrypt x` and `decrypt x` are
`bytes_encrypt` and `bytes_decrypt` with the hash function `x`. For all known values of the hash function elsewhere, all ways to choose what is encrypted, and all lists of attempts, each
made after some number of messages: at most as many hash functions as the number of attempts in `256 ^ shmacBytes` let one of them through. -/
def Unforgeable (c : Cipher.Sizes) (constants : List Bytes) (K : Nat) (encrypt : Xof → Request → Except Err Bytes) (decrypt : Xof → Attempt → Except Err Bytes) : Prop :=
  ∀ (known : Xof) (ask : Chooser) (attempts : List (Nat × Forger)), (∀ seen, (ask seen).Valid c) → (∀ p ∈ attempts, ∀ seen, (p.2 seen).Valid c) →
    (∀ p ∈ attempts, ∀ seen seen', (ask seen).key.length = (p.2 seen').key.length) → ∃ D0 : Finset Bytes,
    (∀ q ∈ D0, ∃ F ∈ constants, ∃ p ∈ attempts, ∃ seen w, q = F ++ (p.2 seen).key ++ w) ∧ ∀ D, D0 ⊆ D →
      count (fun T : Hash D K => ∃ p ∈ attempts, Succeeds (encrypt (T.xof known)) (decrypt (T.xof known)) ask p.1 p.2) * 256 ^ c.shmacBytes ≤ attempts.length * total D K

end Aiootp.Secrecy
