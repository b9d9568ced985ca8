import Verif.Model.Passcrypt
import Verif.Spec.KdfSecrecy

/-
Someone who tries to find a passphrase or an aad that `verify` takes for the right one, if `shake_128` is drawn at random.
-/

namespace Aiootp.Passcrypt

open Kdf (share)

/-- They are given the hash of a passphrase, and hash what they like with `shake_128`: each input is chosen by the hash and the digests that were seen before. Then they choose passphrases and aads. -/
structure Guesser where
  ask : Bytes → List Bytes → Bytes
  guess : Bytes → List Bytes → Nat → Bytes × Bytes

/-- The `K` bytes of each of the first `q` digests that they ask for. -/
def Guesser.seen (g : Guesser) (X : Xof) (K : Nat) (hash : Bytes) : Nat → List Bytes
  | 0 => []
  | q + 1 =>
    let before := g.seen X K hash q
    before ++ [X.digest (g.ask hash before) K]

/-- One of the first `n` guesses is not the passphrase and aad that were hashed, and is accepted: at some time, and for some lifetime and ranges that `verify` is given. (The aad is the right one, or the
passphrase has the right length, or more than one core is used: `C48_collision` shows how the others can be accepted.) -/
def Guesser.Wins (g : Guesser) (E : Env) (M : Bytes) (t : Settings) (made : Int) (draw p aad : Bytes) (K q n : Nat) : Prop :=
  ∃ hash, hashPassphrase E (spec M) t made draw p aad = .ok hash ∧ ∃ i < n, ∃ p' aad', g.guess hash (g.seen E.xof K hash q) i = (p', aad') ∧
    ¬ (p' = p ∧ aad' = aad) ∧ (aad' = aad ∨ p'.length = p.length ∨ 2 ≤ t.cores) ∧
    ∃ now ttl mbAllowed cpuAllowed coresAllowed, (verify E (spec M) t.pepper hash p' aad' now ttl mbAllowed cpuAllowed coresAllowed).result = .ok ()

/-- One of the first `n` guesses is the passphrase that was hashed. -/
def Guesser.Finds (g : Guesser) (E : Env) (M : Bytes) (t : Settings) (made : Int) (draw p aad : Bytes) (K q n : Nat) : Prop :=
  ∃ hash, hashPassphrase E (spec M) t made draw p aad = .ok hash ∧ ∃ i < n, (g.guess hash (g.seen E.xof K hash q) i).1 = p

/-- How often one call of `hash_passphrase` or `verify` hashes at most: each of the cores for its parameters, to fill its memory of `168 * blocks` bytes in portions of less than 512 MiB, once for each of its blocks,
`cpu + 2` times at the end and for its result; and once for the tag. -/
def calls (blocks cpu cores : Nat) : Nat := cores * (1 + (168 * blocks / (2 ^ 29 - 1) + 1) + blocks + (cpu + 2) + 1) + 1

/-- The blocks of 168 bytes of the memory of one core: at least its share of the `mb` MiB, in rows of `cpu / 2` pairs of blocks. -/
def coreBlocks (mb cpu cores : Nat) : Nat := 2 * (max 1 (cpu / 2)) * ceilTrueDiv (2 ^ 20 * ceilTrueDiv mb cores) (336 * max 1 (cpu / 2))

/-- The different inputs that one core hashes to overwrite its blocks: one for each block, but in the first row one for each pair. -/
def coreWork (mb cpu cores : Nat) : Nat := coreBlocks mb cpu cores - max 1 (cpu / 2)

end Aiootp.Passcrypt
