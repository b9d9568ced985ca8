import Verif.Spec.Forgery

/-
Someone who has messages encrypted, and has other messages decrypted.
-/

namespace Aiootp.Secrecy

/-- What can be asked for: a call of `bytes_encrypt` or one of `bytes_decrypt`. -/
inductive Move where
  | encrypt (r : Request)
  | decrypt (a : Attempt)

def Move.key : Move → Bytes
  | .encrypt r => r.key
  | .decrypt a => a.key

/-- What is seen of it: what the call returned or raised. -/
inductive Answer where
  | sent (result : Except Err Bytes)
  | opened (result : Except Err Bytes)

def Move.answer (encrypt : Request → Except Err Bytes) (decrypt : Attempt → Except Err Bytes) : Move → Answer
  | .encrypt r => .sent (encrypt r)
  | .decrypt a => .opened (decrypt a)

/-- Someone who chooses each call when they have seen what came of those before. -/
abbrev Player : Type := List Answer → Move

/-- What is seen of `n` calls. -/
def play (encrypt : Request → Except Err Bytes) (decrypt : Attempt → Except Err Bytes) (p : Player) : (n : Nat) → (seen : List Answer) → List Answer
  | 0, seen => seen
  | n + 1, seen => play encrypt decrypt p n (seen ++ [(p seen).answer encrypt decrypt])

/-- The rules, if there are `n` calls: the arguments are accepted, but for the ciphertexts, which may be anything; the keys have the same size; no two messages are made with the same key, salt,
aad and iv; and no message is given to be decrypted with the key and the aad that it was made for. -/
structure Player.Fair (c : Cipher.Sizes) (n : Nat) (p : Player) : Prop where
  valid : ∀ seen r, p seen = .encrypt r → r.Valid c
  valid' : ∀ seen a, p seen = .decrypt a → a.Valid c
  size : ∀ seen seen', (p seen).key.length = (p seen').key.length
  nonce : ∀ seen more r r', more ≠ [] → (seen ++ more).length < n → p seen = .encrypt r → p (seen ++ more) = .encrypt r' → r.nonce ≠ r'.nonce
  new : ∀ seen m more r a, p seen = .encrypt r → p (seen ++ .sent (.ok m) :: more) = .decrypt a → ¬ (m = a.data ∧ r.key = a.key ∧ r.aad = a.aad)

/-- Calls that differ in what is secret only. Ciphertexts may differ, too, but not in their sizes. -/
def Move.Alike : Move → Move → Prop
  | .encrypt r, .encrypt r' => r.usedSalt = r'.usedSalt ∧ r.draws.iv = r'.draws.iv ∧ r.data.length = r'.data.length
  | .decrypt a, .decrypt a' => a.data.length = a'.data.length
  | _, _ => False

/-- Whatever is seen, at most `q` of the next `n` calls are decryptions. -/
def Player.AtMost (p : Player) : (n : Nat) → (seen : List Answer) → (q : Nat) → Prop
  | 0, _, _ => True
  | n + 1, seen, q =>
    match p seen with
    | .encrypt _ => ∀ answer, Player.AtMost p n (seen ++ [answer]) q
    | .decrypt _ => 0 < q ∧ ∀ answer, Player.AtMost p n (seen ++ [answer]) (q - 1)

/-- A cipher whose hash function is drawn at random on the inputs that have a key after one of `constants`. `encrypt x` and `decrypt x` are `bytes_encrypt` and `bytes_decrypt` with the hash
function `x`. For all known values of the hash function elsewhere, and all players: -/
structure Authenticated (c : Cipher.Sizes) (constants : List Bytes) (K : Nat) (encrypt : Xof → Request → Except Err Bytes) (decrypt : Xof → Attempt → Except Err Bytes) : Prop where
  /-- All that is given to be decrypted is refused, but for `q` in `256 ^ shmacBytes` of the hash functions. -/
  refused : ∀ (known : Xof) (n q : Nat) (p : Player), p.Fair c n → p.AtMost n [] q → ∃ D0 : Finset Bytes, (∀ m ∈ D0, ∃ F ∈ constants, ∃ seen w, m = F ++ (p seen).key ++ w) ∧ ∀ D, D0 ⊆ D →
    count (fun T : Hash D K => ∃ pre result post, play (encrypt (T.xof known)) (decrypt (T.xof known)) p n [] = pre ++ .opened result :: post ∧ Passes result) * 256 ^ c.shmacBytes ≤
      q * total D K
  /-- No test of what is seen tells two players with alike calls apart, but for `2 * q` in `256 ^ shmacBytes` of the hash functions. -/
  blind : ∀ (known : Xof) (n q : Nat) (p p' : Player), p.Fair c n → p'.Fair c n → (∀ seen, (p seen).Alike (p' seen)) → p.AtMost n [] q → ∃ D0 : Finset Bytes,
    (∀ m ∈ D0, ∃ F ∈ constants, ∃ seen w, m = F ++ (p seen).key ++ w ∨ m = F ++ (p' seen).key ++ w) ∧ ∀ D, D0 ⊆ D → ∀ test : List Answer → Prop,
      count (fun T : Hash D K => test (play (encrypt (T.xof known)) (decrypt (T.xof known)) p n [])) * 256 ^ c.shmacBytes ≤
        count (fun T : Hash D K => test (play (encrypt (T.xof known)) (decrypt (T.xof known)) p' n [])) * 256 ^ c.shmacBytes + 2 * q * total D K ∧
      count (fun T : Hash D K => test (play (encrypt (T.xof known)) (decrypt (T.xof known)) p' n [])) * 256 ^ c.shmacBytes ≤
        count (fun T : Hash D K => test (play (encrypt (T.xof known)) (decrypt (T.xof known)) p n [])) * 256 ^ c.shmacBytes + 2 * q * total D K

end Aiootp.Secrecy
