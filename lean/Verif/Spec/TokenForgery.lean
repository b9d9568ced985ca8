import Verif.Spec.Forgery

/-
Tokens that someone makes up.
-/

namespace Aiootp.Secrecy

/-- What is asked of `make_token`, with the key of the cipher object and what is drawn for the call. -/
structure TokenOrder where
  key : Bytes
  draws : Cipher.Draws
  aad : Bytes
  data : Bytes

/-- Arguments that are accepted. -/
structure TokenOrder.Valid (c : Cipher.Sizes) (r : TokenOrder) : Prop where
  key_ge : 64 ≤ r.key.length
  key_lt : r.key.length < 256 ^ 8
  draws : r.draws.Fit c
  aad : r.aad.length < 256 ^ 4

/-- The token for this order holds this data for whoever reads it with the key, the aad and the time to live of the attempt: it was made for them, and it is not older than that. -/
def TokenOrder.Grants (r : TokenOrder) (a : Attempt) (data : Bytes) : Prop :=
  r.key = a.key ∧ r.aad = a.aad ∧ r.data = data ∧ ∀ ttl, a.ttl = some ttl → a.now - r.draws.reading ≤ ttl

/-- After `n` tokens someone makes up a token, and `read_token` returns data from it that no token that was made before holds for this reader. -/
def TokenForged (make : TokenOrder → Except Err Bytes) (read : Attempt → Except Err Bytes) (ask : List Bytes → TokenOrder) (n : Nat) (forge : Forger) : Prop :=
  ∃ tokens data, conversation make ask n [] = .ok tokens ∧ read (forge tokens) = .ok data ∧
    ∀ seen token rest, tokens = seen ++ token :: rest → ¬ (ask seen).Grants (forge tokens) data

/-- The tokens of a cipher cannot be forged, if its hash function is drawn at random on the inputs that have a key of the forger after one of `constants`. `make x` and `read x` are
`make_token` and `read_token` with the hash function `x`. For all known values of the hash function elsewhere, all ways to choose what tokens are made, and all lists of attempts, each
made after some number of tokens: at most as many hash functions as the number of attempts in `256 ^ shmacBytes` let one of them succeed. -/
def TokensUnforgeable (c : Cipher.Sizes) (constants : List Bytes) (K : Nat) (make : Xof → TokenOrder → Except Err Bytes) (read : Xof → Attempt → Except Err Bytes) : Prop :=
  ∀ (known : Xof) (ask : List Bytes → TokenOrder) (attempts : List (Nat × Forger)), (∀ seen, (ask seen).Valid c) → (∀ p ∈ attempts, ∀ seen, (p.2 seen).Valid c) →
    (∀ p ∈ attempts, ∀ seen seen', (ask seen).key.length = (p.2 seen').key.length) → ∃ D0 : Finset Bytes,
    (∀ q ∈ D0, ∃ F ∈ constants, ∃ p ∈ attempts, ∃ seen w, q = F ++ (p.2 seen).key ++ w) ∧ ∀ D, D0 ⊆ D →
      count (fun T : Hash D K => ∃ p ∈ attempts, TokenForged (make (T.xof known)) (read (T.xof known)) ask p.1 p.2) * 256 ^ c.shmacBytes ≤ attempts.length * total D K

end Aiootp.Secrecy
