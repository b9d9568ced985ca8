import Verif.Model.Py

/-
What the texts are that the decoders accept, without reference to how they work.
-/

namespace Aiootp.Refusals

/-- The characters of the two base64 alphabets: letters, digits, `+`, `/`, `-` and `_`. -/
def IsB64 (c : UInt8) : Prop :=
  (65 ≤ c.toNat ∧ c.toNat ≤ 90) ∨ (97 ≤ c.toNat ∧ c.toNat ≤ 122) ∨ (48 ≤ c.toNat ∧ c.toNat ≤ 57) ∨
    c.toNat = 43 ∨ c.toNat = 47 ∨ c.toNat = 45 ∨ c.toNat = 95

instance : DecidablePred IsB64 := fun c => by unfold IsB64; infer_instance

/-- How many `=` signs fill a text up to a multiple of four characters. -/
def fill (text : Bytes) : Nat := (4 - text.length % 4) % 4

/-- The base64 characters of the text and the `=` signs that fill it up make complete groups: groups of four characters, and at the end perhaps
two characters with two `=` signs or three with one. Other characters count only for the length of the text. -/
def Decodable (text : Bytes) : Prop :=
  let chars := (text.filter fun c => decide (IsB64 c)).length
  chars % 4 = 0 ∨ (chars % 4 = 2 ∧ 2 ≤ fill text) ∨ (chars % 4 = 3 ∧ 1 ≤ fill text)

/-- What a text says once it is filled up and the characters that are neither base64 characters nor `=` signs are left out. -/
def said (text : Bytes) : Bytes := (text ++ List.replicate (fill text) 61).filter fun c => decide (IsB64 c ∨ c = 61)

/-- How many base64 characters are in it. -/
def letters (text : Bytes) : Nat := (text.filter fun c => decide (IsB64 c)).length

/-- A piece that ends with a last group, which `=` signs complete: two characters with two `=` signs after them, or three with one. -/
def LastGroup (piece : Bytes) : Prop :=
  (∃ before, piece = before ++ [61, 61] ∧ letters piece % 4 = 2) ∨ (∃ before, piece = before ++ [61] ∧ letters piece % 4 = 3)

/-- What the text says makes complete groups: either a beginning of it ends with a last group, and whatever follows does not matter, or its characters
are a multiple of four. -/
def Complete (text : Bytes) : Prop := (∃ piece, piece <+: said text ∧ LastGroup piece) ∨ letters text % 4 = 0

/-- The hexadecimal digits with their values. -/
inductive HexDigit : Char → Nat → Prop where
  | digit (n : Nat) : n < 10 → HexDigit (Char.ofNat (48 + n)) n
  | lower (n : Nat) : n < 6 → HexDigit (Char.ofNat (97 + n)) (10 + n)
  | upper (n : Nat) : n < 6 → HexDigit (Char.ofNat (65 + n)) (10 + n)

/-- A text that spells bytes in hexadecimal: two digits per byte, with ASCII white space allowed before, between and after the bytes. -/
inductive HexText : List Char → Bytes → Prop where
  | nil : HexText [] []
  | space (c : Char) (text : List Char) (b : Bytes) : c ∈ [' ', '\t', '\n', '\r', '\x0b', '\x0c'] → HexText text b → HexText (c :: text) b
  | byte (c d : Char) (h l : Nat) (text : List Char) (b : Bytes) : HexDigit c h → HexDigit d l → HexText text b →
      HexText (c :: d :: text) (UInt8.ofNat (16 * h + l) :: b)

end Aiootp.Refusals
