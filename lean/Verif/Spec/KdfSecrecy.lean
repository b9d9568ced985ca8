import Verif.Spec.KdfUse
import Verif.Spec.RandomHash
import Mathlib.Data.Rat.Defs

/-
Derived keys, if the hash functions are drawn at random.
-/

namespace Aiootp.Kdf

open Secrecy (Digest)

/-- The first `n` bytes; zeros are appended if there are not so many. -/
def cut (n : Nat) (b : Bytes) : Bytes := (b ++ List.replicate n 0).take n

/-- A digest for each of the inputs `D` of the four hash functions. -/
abbrev Drawn (D : Finset (HashType × Bytes)) (N : Nat) : Type := D → Digest N

/-- The hash functions that give these digests, and are known functions for all other inputs. (From the byte `N` on the digests are zeros.) -/
def Drawn.functions {D : Finset (HashType × Bytes)} {N : Nat} (known : Functions) (G : Drawn D N) : Functions :=
  fun t m n => if h : (t, m) ∈ D then cut n (G ⟨(t, m), h⟩).1 else known t m n

/-- Which share of all `ω` has the property: its chance, if each is as likely as the others. -/
noncomputable def share {Ω : Type} [Fintype Ω] (P : Ω → Prop) : ℚ := by
  classical exact ((Finset.univ.filter P).card : ℚ) / Fintype.card Ω

/-- Someone who has keys derived, chooses each kdf and its arguments by what was derived before, and then chooses one more kdf and arguments, and tests whether some bytes are the key that is derived. -/
structure Attack where
  ask : List (Except Err Bytes) → Life × Derivation
  target : List (Except Err Bytes) → Life × Derivation
  test : List (Except Err Bytes) → Bytes → Prop

/-- What they see of `n` derivations. -/
def Attack.seen (a : Attack) (F : Functions) (salt kdfDomain : Bytes) : Nat → List (Except Err Bytes)
  | 0 => []
  | n + 1 =>
    let before := a.seen F salt kdfDomain n
    before ++ [derive F salt kdfDomain (a.ask before).1 (a.ask before).2]

/-- The last kdf and arguments are not among those asked for. -/
def Attack.New (a : Attack) (n : Nat) (seen : List (Except Err Bytes)) : Prop := ∀ i < n, a.ask (seen.take i) ≠ a.target seen

/-- The test accepts the key. -/
def Attack.Real (a : Attack) (F : Functions) (salt kdfDomain : Bytes) (n : Nat) : Prop :=
  let seen := a.seen F salt kdfDomain n
  a.New n seen ∧ ∃ k, derive F salt kdfDomain (a.target seen).1 (a.target seen).2 = .ok k ∧ a.test seen k

/-- The test accepts the bytes `u` in place of the key. -/
def Attack.Ideal (a : Attack) (F : Functions) (salt kdfDomain : Bytes) (n : Nat) (u : Bytes) : Prop :=
  let seen := a.seen F salt kdfDomain n
  a.New n seen ∧ ∃ k, derive F salt kdfDomain (a.target seen).1 (a.target seen).2 = .ok k ∧ a.test seen (cut k.length u)

/-- The kdfs have keys of a given set, and keys and domains together fit in one block. -/
structure Attack.Fair (a : Attack) (keys : Finset Bytes) : Prop where
  key : ∀ seen, (a.ask seen).1.key ∈ keys
  last : ∀ seen, (a.target seen).1.key ∈ keys
  size : ∀ seen, (a.ask seen).1.key.length + (a.ask seen).1.domain.length < 152
  lastSize : ∀ seen, (a.target seen).1.key.length + (a.target seen).1.domain.length < 152

/-- All that is hashed for a derivation is in `D`. -/
def Covered (D : Finset (HashType × Bytes)) (F : Functions) (salt kdfDomain : Bytes) (x : Life × Derivation) : Prop :=
  ∀ t n m, Hashes F salt kdfDomain x.1 x.2 t n m → (t, m) ∈ D

end Aiootp.Kdf
