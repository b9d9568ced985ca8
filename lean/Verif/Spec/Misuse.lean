import Verif.Spec.RandomHash

/-
Someone who has messages encrypted with salts and ivs that may repeat.
-/

namespace Aiootp.Secrecy

/-- What may not be the same for two messages, if salts and ivs may repeat: the key, salt, aad and iv, with the clock reading and the siv key that are put before the plaintext. -/
def Request.stamp (r : Request) : (Bytes × Bytes × Bytes × Bytes) × Int × Bytes := (r.nonce, r.draws.reading, r.draws.sivKey)

/-- The rules, if there are `n` messages: the arguments are accepted, the keys have the same size, and no two messages have all of that in common. -/
structure Chooser.Stamped (c : Cipher.Sizes) (n : Nat) (ask : Chooser) : Prop where
  valid : ∀ seen, (ask seen).Valid c
  size : ∀ seen seen', (ask seen).key.length = (ask seen').key.length
  stamp : ∀ seen more, more ≠ [] → (seen ++ more).length < n → (ask seen).stamp ≠ (ask (seen ++ more)).stamp

/-- Requests that differ in their plaintexts only, and not in the sizes of these. (The bytes drawn for the padding, and a salt that is drawn but not used, may differ.) -/
structure Request.Twin (r r' : Request) : Prop where
  stamp : r.stamp = r'.stamp
  size : r.data.length = r'.data.length

/-- Twins that have the same first block: the bytes of the plaintext that fit in the block after the clock reading and the siv key are the same, and so are the bytes drawn for the padding,
some of which are in the block if the plaintext is short. -/
structure Request.FirstTwin (c : Cipher.Sizes) (r r' : Request) : Prop extends Request.Twin r r' where
  start : r.data.take (c.blocksize - c.innerHeaderBytes) = r'.data.take (c.blocksize - c.innerHeaderBytes)
  extra : r.draws.extra = r'.draws.extra

/-- The bytes at even indexes. -/
def evens : Bytes → Bytes
  | [] => []
  | [b] => [b]
  | b :: _ :: rest => b :: evens rest

/-- The bytes at odd indexes. -/
def odds (b : Bytes) : Bytes := evens (b.drop 1)

/-- Of all hash functions, those for which the messages are `ok` and pass a test. -/
noncomputable def passing (K : Nat) (known : Xof) (D : Finset Bytes) (encrypt : Xof → Request → Except Err Bytes) (ask : Chooser) (n : Nat) (test : List Bytes → Prop) : Nat :=
  count fun T : Hash D K => ∃ messages, conversation (encrypt (T.xof known)) ask n [] = .ok messages ∧ test messages

end Aiootp.Secrecy
