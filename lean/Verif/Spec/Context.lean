import Mathlib.Algebra.BigOperators.Group.Finset.Basic
import Verif.Spec.Misuse

/-
Ivs and siv keys that are drawn at random.
-/

namespace Aiootp.Secrecy

open BigOperators

/-- The ivs and siv keys that are drawn for `n` messages. -/
abbrev Tape (c : Cipher.Sizes) (n : Nat) : Type := Fin n → Digest c.ivBytes × Digest c.sivKeyBytes

/-- The same choices, with the iv and the siv key of each of the first `n` messages taken from the tape. -/
def Chooser.drawn {c : Cipher.Sizes} {n : Nat} (tape : Tape c n) (ask : Chooser) : Chooser := fun seen =>
  if h : seen.length < n then { ask seen with draws := { (ask seen).draws with iv := (tape ⟨seen.length, h⟩).1.1, sivKey := (tape ⟨seen.length, h⟩).2.1 } } else ask seen

/-- The rules: the arguments are accepted, and the keys have the same size. Keys, salts, aads and clock readings may be the same for all messages. -/
structure Chooser.Plain (c : Cipher.Sizes) (ask : Chooser) : Prop where
  valid : ∀ seen, (ask seen).Valid c
  size : ∀ seen seen', (ask seen).key.length = (ask seen').key.length

/-- How many pairs of a tape and a hash function there are for which the messages are `ok` and pass a test. -/
noncomputable def passingDrawn (c : Cipher.Sizes) (K : Nat) (known : Xof) (D : Finset Bytes) (encrypt : Xof → Request → Except Err Bytes) (ask : Chooser) (n : Nat)
    (test : List Bytes → Prop) : Nat :=
  ∑ tape : Tape c n, passing K known D encrypt (ask.drawn tape) n test

/-- How many pairs there are. -/
noncomputable def totalDrawn (c : Cipher.Sizes) (K : Nat) (D : Finset Bytes) (n : Nat) : Nat := Fintype.card (Tape c n) * total D K

/-- Two of the messages get the same iv and the same siv key. -/
def Repeats {c : Cipher.Sizes} {n : Nat} (tape : Tape c n) : Prop := ∃ i j, i < j ∧ tape i = tape j

open Classical in
/-- How many tapes repeat. -/
noncomputable def repeats (c : Cipher.Sizes) (n : Nat) : Nat := (Finset.univ.filter fun tape : Tape c n => Repeats tape).card

end Aiootp.Secrecy
