import Verif.Model.Py
import Mathlib.Data.Nat.Digits.Defs

/-
The module `json` of the standard library as aiootp uses it, that is `json.dumps(value).encode()` and `json.loads(text)` without options
(aiootp/ciphers/cipher_interface.py:356, 398, 424, 447; aiootp/databases/sync_database.py:525, 738; aiootp/databases/async_database.py:563, 795).
The citations are of CPython 3.11, `Lib/json/`; they describe the accelerated versions in `Modules/_json.c` too.

Values are trees: cycles and the limit on the depth are not modelled. Floats are a parameter.
-/

namespace Aiootp.Json

/-- A character of a `str`: any code point, also a surrogate. -/
abbrev Code := Fin 1114112

/-- `chr(n)`. -/
def chr (n : Nat) : Code := Fin.ofNat 1114112 n

/-- The characters of a text, as numbers. -/
abbrev Text := List Nat

/-- Keys of a `dict`; `other` stands for every other object (bytes, tuples, ...). -/
inductive Key (F : Type) where
  | str (s : List Code)
  | int (n : Int)
  | float (f : F)
  | bool (b : Bool)
  | none
  | other

mutual
/-- Python values; `other` stands for every object that `json` does not know (bytes, sets, ...). -/
inductive Val (F : Type) where
  | none
  | bool (b : Bool)
  | int (n : Int)
  | float (f : F)
  | str (s : List Code)
  | list (xs : Vals F)
  | tuple (xs : Vals F)
  | dict (items : Items F)
  | other
/-- The items of a list or tuple. -/
inductive Vals (F : Type) where
  | nil
  | cons (x : Val F) (xs : Vals F)
/-- The items of a `dict` in the order of insertion. -/
inductive Items (F : Type) where
  | nil
  | cons (k : Key F) (v : Val F) (items : Items F)
end

/-- Floats: `float.__repr__`, `float(text)` and the three special values. `limit` is `sys.get_int_max_str_digits()`. -/
structure Env (F : Type) where
  repr : F → Text
  parse : Text → F
  nan : F
  inf : F
  negInf : F
  limit : Nat

/-! ### dumps -/

/-- A digit of `'{0:04x}'.format(n)`. -/
def hexDigit (n : Nat) : Nat := if n < 10 then 48 + n else 87 + n

/-- `'\\u{0:04x}'.format(n)` (encoder.py:30, 60). -/
def u4 (n : Nat) : Text :=
  [92, 117, hexDigit (n / 4096 % 16), hexDigit (n / 256 % 16), hexDigit (n / 16 % 16), hexDigit (n % 16)]

/-- encoder.py:18-29, 49-67 `py_encode_basestring_ascii`: what stands for one character. -/
def escape (c : Code) : Text :=
  if c.val = 34 then [92, 34]
  else if c.val = 92 then [92, 92]
  else if c.val = 8 then [92, 98]
  else if c.val = 12 then [92, 102]
  else if c.val = 10 then [92, 110]
  else if c.val = 13 then [92, 114]
  else if c.val = 9 then [92, 116]
  else if 32 ≤ c.val ∧ c.val ≤ 126 then [c.val]
  else if c.val < 0x10000 then u4 c.val
  else u4 (0xd800 + (c.val - 0x10000) / 1024) ++ u4 (0xdc00 + (c.val - 0x10000) % 1024)

/-- encoder.py:68. -/
def quote (s : List Code) : Text := 34 :: (s.flatMap escape ++ [34])

/-- `int.__repr__` of a number that is not negative. -/
def natText (n : Nat) : Text := if n = 0 then [48] else (Nat.digits 10 n).reverse.map (48 + ·)

/-- `int.__repr__`: `ValueError` for more digits than the limit. -/
def intText (limit : Nat) (n : Int) : Except Err Text :=
  if (natText n.natAbs).length > limit then .error .value
  else .ok (if n < 0 then 45 :: natText n.natAbs else natText n.natAbs)

/-- `null`, `true`, `false`, `NaN`, `Infinity`, `-Infinity` -/
def nullText : Text := [110, 117, 108, 108]
def trueText : Text := [116, 114, 117, 101]
def falseText : Text := [102, 97, 108, 115, 101]
def nanText : Text := [78, 97, 78]
def infText : Text := [73, 110, 102, 105, 110, 105, 116, 121]
def negInfText : Text := 45 :: infText

section
variable {F : Type} (E : Env F)

/-- encoder.py:355-379: a key as a string; `TypeError` for others. -/
def keyText : Key F → Except Err Text
  | .str s => .ok (quote s)
  | .int n => do
    let t ← intText E.limit n
    return 34 :: (t ++ [34])
  | .float f => .ok (34 :: (E.repr f ++ [34]))
  | .bool b => .ok (34 :: ((if b then trueText else falseText) ++ [34]))
  | .none => .ok (34 :: (nullText ++ [34]))
  | .other => .error .type

mutual
/-- encoder.py:277-442 `_make_iterencode`, with the separators `", "` and `": "`. The special floats are among those of `repr`
(encoder.py:223-246). -/
def dumpsVal : Val F → Except Err Text
  | .none => .ok nullText
  | .bool b => .ok (if b then trueText else falseText)
  | .int n => intText E.limit n
  | .float f => .ok (E.repr f)
  | .str s => .ok (quote s)
  | .list xs => dumpsList xs
  | .tuple xs => dumpsList xs
  | .dict .nil => .ok [123, 125]
  | .dict (.cons k v items) => do
    let kt ← keyText E k
    let vt ← dumpsVal v
    let rest ← dumpsItems items
    return 123 :: (kt ++ 58 :: 32 :: (vt ++ rest))
  | .other => .error .type
/-- encoder.py:277-330 `_iterencode_list`. -/
def dumpsList : Vals F → Except Err Text
  | .nil => .ok [91, 93]
  | .cons x xs => do
    let t ← dumpsVal x
    let rest ← dumpsTail xs
    return 91 :: (t ++ rest)
/-- The further items of a list, and the closing bracket. -/
def dumpsTail : Vals F → Except Err Text
  | .nil => .ok [93]
  | .cons x xs => do
    let t ← dumpsVal x
    let rest ← dumpsTail xs
    return 44 :: 32 :: (t ++ rest)
/-- The further items of a `dict`, and the closing brace. -/
def dumpsItems : Items F → Except Err Text
  | .nil => .ok [125]
  | .cons k v items => do
    let kt ← keyText E k
    let vt ← dumpsVal v
    let rest ← dumpsItems items
    return 44 :: 32 :: (kt ++ 58 :: 32 :: (vt ++ rest))
end

/-- `json.dumps(value).encode()`: all characters are ASCII. -/
def dumps (v : Val F) : Except Err Bytes := do
  let t ← dumpsVal E v
  return t.map UInt8.ofNat

/-! ### loads -/

/-- decoder.py:130 `WHITESPACE`. -/
def skipWs : Text → Text
  | c :: rest => if c = 32 ∨ c = 9 ∨ c = 10 ∨ c = 13 then skipWs rest else c :: rest
  | [] => []

/-- A hexadecimal digit. -/
def unhex (c : Nat) : Except Err Nat :=
  if 48 ≤ c ∧ c ≤ 57 then .ok (c - 48)
  else if 97 ≤ c ∧ c ≤ 102 then .ok (c - 87)
  else if 65 ≤ c ∧ c ≤ 70 then .ok (c - 55)
  else .error .value

/-- decoder.py:58-66 `_decode_uXXXX`. -/
def hex4 : Text → Except Err (Nat × Text)
  | a :: b :: c :: d :: rest => do
    let a ← unhex a
    let b ← unhex b
    let c ← unhex c
    let d ← unhex d
    return (((a * 16 + b) * 16 + c) * 16 + d, rest)
  | _ => .error .value

/-- decoder.py:53-56 `BACKSLASH`. -/
def unescape (e : Nat) : Except Err Nat :=
  if e = 34 then .ok 34 else if e = 92 then .ok 92 else if e = 47 then .ok 47 else if e = 98 then .ok 8
  else if e = 102 then .ok 12 else if e = 110 then .ok 10 else if e = 114 then .ok 13 else if e = 116 then .ok 9
  else .error .value

def isHigh (u : Nat) : Bool := decide (0xd800 ≤ u ∧ u ≤ 0xdbff)
def isLow (u : Nat) : Bool := decide (0xdc00 ≤ u ∧ u ≤ 0xdfff)

/-- decoder.py:114-120: a code unit from `\uXXXX`, joined with the next one if they are a surrogate pair. -/
def joinPair (u : Nat) : Text → Except Err (Nat × Text)
  | 92 :: 117 :: rest =>
    if isHigh u then do
      let (u2, rest2) ← hex4 rest
      if isLow u2 then return (0x10000 + ((u - 0xd800) * 1024 + (u2 - 0xdc00)), rest2)
      else return (u, 92 :: 117 :: rest)
    else .ok (u, 92 :: 117 :: rest)
  | rest => .ok (u, rest)

/-- decoder.py:69-125 `py_scanstring`, after the opening quote. Each step reads at least one character, so that the length of the text is enough
fuel. -/
def scanString : Nat → Text → Except Err (List Code × Text)
  | 0, _ => .error .value
  | _ + 1, [] => .error .value
  | n + 1, c :: rest =>
    if c = 34 then .ok ([], rest)
    else if c = 92 then
      match rest with
      | [] => .error .value
      | e :: rest =>
        if e = 117 then do
          let (u, rest) ← hex4 rest
          let (u, rest) ← joinPair u rest
          let (s, rest) ← scanString n rest
          return (chr u :: s, rest)
        else do
          let u ← unescape e
          let (s, rest) ← scanString n rest
          return (chr u :: s, rest)
    else if c < 32 then .error .value
    else do
      let (s, rest) ← scanString n rest
      return (chr c :: s, rest)

def isDigit (c : Nat) : Bool := decide (48 ≤ c ∧ c ≤ 57)

/-- `\d*` of scanner.py:11-13 (for ASCII digits, as in `Modules/_json.c`). -/
def digits : Text → Text × Text
  | c :: rest => if isDigit c then (c :: (digits rest).1, (digits rest).2) else ([], c :: rest)
  | [] => ([], [])

/-- `-?(?:0|[1-9]\d*)`. -/
def integerPart (t : Text) : Option (Text × Text) :=
  match t with
  | 45 :: 48 :: rest => some ([45, 48], rest)
  | 45 :: c :: rest => if isDigit c then some (45 :: c :: (digits rest).1, (digits rest).2) else none
  | 48 :: rest => some ([48], rest)
  | c :: rest => if isDigit c then some (c :: (digits rest).1, (digits rest).2) else none
  | [] => none

/-- `(\.\d+)?`. -/
def fractionPart (t : Text) : Text × Text :=
  match t with
  | 46 :: rest => if (digits rest).1 = [] then ([], t) else (46 :: (digits rest).1, (digits rest).2)
  | _ => ([], t)

/-- `([eE][-+]?\d+)?`. -/
def exponentPart (t : Text) : Text × Text :=
  match t with
  | c :: rest =>
    if c = 101 ∨ c = 69 then
      let (sign, ds) : Text × Text := match rest with
        | s :: more => if s = 45 ∨ s = 43 then ([s], more) else ([], rest)
        | [] => ([], [])
      if (digits ds).1 = [] then ([], t) else (c :: (sign ++ (digits ds).1), (digits ds).2)
    else ([], t)
  | [] => ([], t)

/-- The number that decimal digits stand for. -/
def natOf (t : Text) : Nat := t.foldl (fun n c => n * 10 + (c - 48)) 0

/-- `int(text)` for a text that `integerPart` has read. -/
def parseInt (limit : Nat) (t : Text) : Except Err Int :=
  match t with
  | 45 :: ds => if ds.length > limit then .error .value else .ok (-(natOf ds : Int))
  | ds => if ds.length > limit then .error .value else .ok (natOf ds : Int)

/-- scanner.py:48-56: a number. -/
def scanNumber (t : Text) : Except Err (Val F × Text) :=
  match integerPart t with
  | none => .error .value
  | some (integer, t1) =>
    let (fraction, t2) := fractionPart t1
    let (exponent, t3) := exponentPart t2
    if fraction = [] ∧ exponent = [] then do
      let n ← parseInt E.limit integer
      return (.int n, t3)
    else .ok (.float (E.parse (integer ++ fraction ++ exponent)), t3)

/-- `string[idx:idx + len(word)] == word`: what comes after it. -/
def after : Text → Text → Option Text
  | [], t => some t
  | w :: word, c :: rest => if c = w then after word rest else none
  | _ :: _, [] => none

/-- `d[key] = value` for a `str`. -/
def Items.set : Items F → List Code → Val F → Items F
  | .nil, k, v => .cons (.str k) v .nil
  | .cons (.str k') v' items, k, v => if k' = k then .cons (.str k') v items else .cons (.str k') v' (items.set k v)
  | .cons k' v' items, k, v => .cons k' v' (items.set k v)

/-- `dict(pairs)` (decoder.py:212). -/
def dictOf (d : Items F) : List (List Code × Val F) → Items F
  | [] => d
  | (k, v) :: pairs => dictOf (d.set k v) pairs

mutual
/-- scanner.py:27-63 `_scan_once`. Two steps of fuel for each character are enough. -/
def scanValue : Nat → Text → Except Err (Val F × Text)
  | 0, _ => .error .value
  | n + 1, t =>
    match t with
    | [] => .error .value
    | c :: rest =>
      if c = 34 then do
        let (s, rest) ← scanString rest.length rest
        return (.str s, rest)
      else if c = 123 then
        match skipWs rest with
        | 125 :: rest => .ok (.dict .nil, rest)
        | 34 :: rest => do
          let (pairs, rest) ← scanPairs n rest
          return (.dict (dictOf .nil pairs), rest)
        | _ => .error .value
      else if c = 91 then
        match skipWs rest with
        | 93 :: rest => .ok (.list .nil, rest)
        | rest => do
          let (xs, rest) ← scanItems n rest
          return (.list xs, rest)
      else match after nullText t with
      | some rest => .ok (.none, rest)
      | none => match after trueText t with
        | some rest => .ok (.bool true, rest)
        | none => match after falseText t with
          | some rest => .ok (.bool false, rest)
          | none => match after nanText t with
            | some rest => .ok (.float E.nan, rest)
            | none => match after infText t with
              | some rest => .ok (.float E.inf, rest)
              | none => match after negInfText t with
                | some rest => .ok (.float E.negInf, rest)
                | none => scanNumber E t
/-- decoder.py:217-254 `JSONArray`, after the bracket and white space. -/
def scanItems : Nat → Text → Except Err (Vals F × Text)
  | 0, _ => .error .value
  | n + 1, t => do
    let (x, rest) ← scanValue n t
    match skipWs rest with
    | 93 :: rest => return (.cons x .nil, rest)
    | 44 :: rest => do
      let (xs, rest) ← scanItems n (skipWs rest)
      return (.cons x xs, rest)
    | _ => .error .value
/-- decoder.py:136-215 `JSONObject`, after the opening quote of a key. -/
def scanPairs : Nat → Text → Except Err (List (List Code × Val F) × Text)
  | 0, _ => .error .value
  | n + 1, t => do
    let (k, rest) ← scanString t.length t
    match skipWs rest with
    | 58 :: rest => do
      let (v, rest) ← scanValue n (skipWs rest)
      match skipWs rest with
      | 125 :: rest => return ([(k, v)], rest)
      | 44 :: rest =>
        match skipWs rest with
        | 34 :: rest => do
          let (pairs, rest) ← scanPairs n rest
          return ((k, v) :: pairs, rest)
        | _ => .error .value
      | _ => .error .value
    | _ => .error .value
end

/-- `s.decode(detect_encoding(s), 'surrogatepass')` (json/__init__.py:244-271, 341-343), for ASCII texts without the character 0. Others are not
modelled: they are refused here. -/
def decode (b : Bytes) : Except Err Text :=
  if b.all (fun x => decide (0 < x.toNat ∧ x.toNat < 128)) then .ok (b.map (·.toNat)) else .error .value

/-- `json.loads(text)` (json/__init__.py:299-359, decoder.py:332-343). -/
def loads (b : Bytes) : Except Err (Val F) := do
  let t ← decode b
  let (v, rest) ← scanValue E (2 * t.length + 2) (skipWs t)
  if skipWs rest = [] then return v else throw .value

end

end Aiootp.Json
