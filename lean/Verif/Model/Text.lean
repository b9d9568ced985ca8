import Verif.Model.WordList
import Verif.Model.Canon

/-
Model of aiootp/generics/transform.py (base conversion), of the codecs in aiootp/generics/byte_io.py
and of the sequence helpers in aiootp/_gentools.py.
-/

namespace Aiootp.Text

/-- What a call that never returns is modelled by. -/
inductive Outcome (α : Type) where
  | ok (a : α)
  | error (e : Err)
  /-- the Python call loops for ever -/
  | diverges
  deriving DecidableEq, Repr

/-- aiootp/generics/transform.py:123-126: the digits of `number` in `base`, least significant first.
`base` is at least 2 where it is used. -/
def digitsRev (base : Nat) (number : Nat) : List Nat :=
  if h : number = 0 ∨ base < 2 then []
  else number % base :: digitsRev base (number / base)
termination_by number
decreasing_by
  apply Nat.div_lt_self <;> omega

/-- Indexing a table with each digit, `IndexError` when one is out of range
(`base_table[number % base]`). -/
def lookupAll {α} (table : List α) : List Nat → Outcome (List α)
  | [] => .ok []
  | d :: ds =>
    match table[d]? with
    | none => .error .index
    | some c =>
      match lookupAll table ds with
      | .ok cs => .ok (c :: cs)
      | .error e => .error e
      | .diverges => .diverges

/-- aiootp/generics/transform.py:108-130 `int_as_base` for natural numbers (a negative number loops for
ever in Python). `base = none` is the default `len(table)`. With base 1 the loop `number //= base`
never ends (unless the digit lookup raises), with base 0 it divides by zero. -/
def intAsBase {α} (number : Nat) (base : Option Nat) (table : List α) : Outcome (List α) :=
  if number = 0 then .ok (table.take 1)
  else
    let base := base.getD table.length
    let baseTable := table.take base
    if base = 0 then .error .zeroDivision
    else if base = 1 then (if baseTable.length = 0 then .error .index else .diverges)
    else lookupAll baseTable (digitsRev base number).reverse

/-- The index of the first occurrence, `str.find`. -/
def findIdx {α} [DecidableEq α] (c : α) : List α → Option Nat
  | [] => none
  | x :: xs => if x = c then some 0 else (findIdx c xs).map (· + 1)

/-- aiootp/generics/transform.py:73-77, the loop of `base_as_int` over the reversed string. -/
def baseAsIntLoop {α} [DecidableEq α] (base : Nat) (baseTable : List α) (power result : Nat) :
    List α → Except Err Nat
  | [] => .ok result
  | c :: cs =>
    match findIdx c baseTable with
    | none => .error .value
    | some d => baseAsIntLoop base baseTable (power * base) (result + d * power) cs

/-- aiootp/generics/transform.py:59-78 `base_as_int`. -/
def baseAsInt {α} [DecidableEq α] (string : List α) (base : Option Nat) (table : List α) : Except Err Nat :=
  let base := base.getD table.length
  baseAsIntLoop base (table.take base) 1 0 string.reverse

/-- aiootp/_constants/datasets.py:34 `Tables.BASE_38` "-0123456789_abcdefghijklmnopqrstuvwxyz", as codes. -/
def base38 : List Nat :=
  [45, 48, 49, 50, 51, 52, 53, 54, 55, 56, 57, 95, 97, 98, 99, 100, 101, 102, 103, 104, 105, 106, 107,
   108, 109, 110, 111, 112, 113, 114, 115, 116, 117, 118, 119, 120, 121, 122]

/-- aiootp/generics/byte_io.py:97-107 `bytes_to_filename`. A `str` is the list of its code points. -/
def bytesToFilename (value : Bytes) : Outcome (List Nat) :=
  intAsBase (fromBE value) (some 38) base38

/-- `int.bit_length`. -/
def bitLength (n : Nat) : Nat := if n = 0 then 0 else Nat.log2 n + 1

/-- aiootp/generics/byte_io.py:119-125 `filename_to_bytes`. -/
def filenameToBytes (filename : List Nat) : Except Err Bytes := do
  let result ← baseAsInt filename (some 38) base38
  toBytesBE (ceilDiv (bitLength result) 8) result

/-! ### url-safe base64 -/

/-- The character for a 6-bit value in the url-safe alphabet of `base64.urlsafe_b64encode`. -/
def b64Char (v : Nat) : UInt8 :=
  if v < 26 then UInt8.ofNat (65 + v)
  else if v < 52 then UInt8.ofNat (97 + (v - 26))
  else if v < 62 then UInt8.ofNat (48 + (v - 52))
  else if v = 62 then 45
  else 95

/-- `base64.urlsafe_b64encode(value).replace(b"=", b"")` (aiootp/generics/byte_io.py:54-60
`bytes_to_urlsafe`): RFC 4648 groups of three bytes; the final `=` signs are left out. -/
def bytesToUrlsafe : Bytes → Bytes
  | [] => []
  | [a] => [b64Char (a.toNat / 4), b64Char (a.toNat % 4 * 16)]
  | [a, b] =>
    [b64Char (a.toNat / 4), b64Char (a.toNat % 4 * 16 + b.toNat / 16), b64Char (b.toNat % 16 * 4)]
  | a :: b :: c :: rest =>
    b64Char (a.toNat / 4) :: b64Char (a.toNat % 4 * 16 + b.toNat / 16) ::
      b64Char (b.toNat % 16 * 4 + c.toNat / 64) :: b64Char (c.toNat % 64) :: bytesToUrlsafe rest

/-- The value of a character for `base64.urlsafe_b64decode`: '-' and '_' are translated to '+' and '/'
first, so all four are accepted. -/
def b64Value (c : UInt8) : Option Nat :=
  let n := c.toNat
  if 65 ≤ n ∧ n ≤ 90 then some (n - 65)
  else if 97 ≤ n ∧ n ≤ 122 then some (n - 97 + 26)
  else if 48 ≤ n ∧ n ≤ 57 then some (n - 48 + 52)
  else if n = 45 ∨ n = 43 then some 62
  else if n = 95 ∨ n = 47 then some 63
  else none

/-- CPython's `binascii.a2b_base64` in non-strict mode, which `urlsafe_b64decode` uses: characters outside
the alphabet are skipped, a complete `=` sequence ends the input. `quad` is the position in the current
group, `left` the bits left over, `pads` the number of `=` seen in a row. -/
def a2b (quad left pads : Nat) : Bytes → Except Err Bytes
  | [] => if quad ≠ 0 then .error .value else .ok []
  | c :: cs =>
    if c = 61 then
      if quad ≥ 2 then
        if quad + (pads + 1) ≥ 4 then .ok [] else a2b quad left (pads + 1) cs
      else a2b quad left pads cs
    else
      match b64Value c with
      | none => a2b quad left pads cs
      | some v =>
        match quad with
        | 0 => a2b 1 v 0 cs
        | 1 => do
          let r ← a2b 2 (v % 16) 0 cs
          .ok (UInt8.ofNat (left * 4 + v / 16) :: r)
        | 2 => do
          let r ← a2b 3 (v % 4) 0 cs
          .ok (UInt8.ofNat (left * 16 + v / 4) :: r)
        | _ => do
          let r ← a2b 0 0 0 cs
          .ok (UInt8.ofNat (left * 64 + v) :: r)

/-- aiootp/generics/byte_io.py:74-81 `urlsafe_to_bytes` on `bytes` (a `str` is encoded first). -/
def urlsafeToBytes (value : Bytes) : Except Err Bytes := do
  let padded ← Canon.fullblockLjust value 4 [61]
  a2b 0 0 0 padded

/-! ### phrases -/

/-- aiootp/generics/byte_io.py:152-172 `_bytes_to_phrase`: words joined by single spaces. -/
def bytesToPhrase (words : List Bytes) : Bytes → Bytes
  | [] => []
  | [b] => words.getD b.toNat []
  | b :: c :: bs => words.getD b.toNat [] ++ [32] ++ bytesToPhrase words (c :: bs)

/-- The bytes removed by `bytes.strip()`. -/
def isSpace (b : UInt8) : Bool := b = 32 || b = 9 || b = 10 || b = 11 || b = 12 || b = 13

/-- `bytes.strip()`. -/
def strip (b : Bytes) : Bytes := ((b.dropWhile isSpace).reverse.dropWhile isSpace).reverse

/-- `bytes.split(b" ")`: always at least one piece. -/
def splitSpace : Bytes → List Bytes
  | [] => [[]]
  | b :: bs =>
    if b = 32 then [] :: splitSpace bs
    else
      match splitSpace bs with
      | [] => [[b]]
      | w :: ws => (b :: w) :: ws

/-- Looking each word up in the inverse table, `KeyError` when one is missing. -/
def lookupWords (words : List Bytes) : List Bytes → Except Err Bytes
  | [] => .ok []
  | w :: ws =>
    match findIdx w words with
    | none => .error .key
    | some i => do
      let r ← lookupWords words ws
      .ok (UInt8.ofNat i :: r)

/-- aiootp/generics/byte_io.py:199-219 `_phrase_to_bytes`. The inverse dictionary
(`datasets.py:2683`) of a table without repetitions maps a word to its first index. -/
def phraseToBytes (words : List Bytes) (phrase : Bytes) : Except Err Bytes :=
  lookupWords words (splitSpace (strip phrase))

/-! ### batch and resize -/

/-- aiootp/_gentools.py:114-147 `batch` for a non-negative `size`: chunks read from a `BytesIO` until
a read returns nothing. (`size = 0` reads nothing at once.) -/
def batch {α} (size : Nat) (sequence : List α) : List (List α) :=
  if h : sequence.take size = [] then []
  else sequence.take size :: batch size (sequence.drop size)
termination_by sequence.length
decreasing_by
  have h1 : sequence ≠ [] := by rintro rfl; simp at h
  have h2 : size ≠ 0 := by rintro rfl; simp at h
  have : 0 < sequence.length := List.length_pos_iff.2 h1
  simp only [List.length_drop]
  omega

/-- `range(start, stop, step)` for `step > 0`. -/
def pyRange (start stop step : Nat) : List Nat :=
  (List.range (ceilDiv (stop - start) step)).map (fun i => start + i * step)

/-- aiootp/_gentools.py:180-207 `resize`. `blocks = none` is Python's `None`. Slices are clipped at the end of
the sequence. -/
def resize {α} (sequence : List α) (size : Nat) (blocks : Option Nat) : Except Err (List (List α)) :=
  if size < 1 then .error .value
  else if blocks = some 0 then .error .value
  else
    let length := sequence.length
    let stop :=
      match blocks with
      | none => length + size
      | some b => if b * size ≥ length then length + size else b * size + 1
    .ok (((pyRange 0 stop size).zip (pyRange size stop size)).map
      (fun p => (sequence.take p.2).drop p.1))

end Aiootp.Text
