/-
The messages of the exceptions of the package: templates whose placeholders
are filled by `str.replace`.  Modelled: `_exceptions.py` of /repo/aiootp.
Text is a list of characters.
-/

namespace Aiootp.Messages

/-- A text of Python. -/
abbrev Text := List Char

/-- The loop of `str.replace`: the text is read from left to right; where
`pat` begins, `new` is written and the characters of `pat` are skipped (`skip`
counts those that are left to skip).
Models the builtin `str.replace` as used in aiootp/_exceptions.py:268-269. -/
def subGo (pat new : Text) : Nat → Text → Text
  | _, [] => []
  | 0, c :: cs =>
    if pat.isPrefixOf (c :: cs) then new ++ subGo pat new (pat.length - 1) cs
    else c :: subGo pat new 0 cs
  | k + 1, _ :: cs => subGo pat new k cs

/-- `text.replace(pat, new)` for a `pat` that is not empty.
Models the builtin `str.replace` as used in aiootp/_exceptions.py:268-269. -/
def sub (text pat new : Text) : Text := subGo pat new 0 text

/-- The text of an int: `repr(n)` and `str(n)`.
Models the builtins as used in aiootp/_exceptions.py:381, 846. -/
def intText : Int → Text
  | .ofNat n => Nat.toDigits 10 n
  | .negSucc m => '-' :: Nat.toDigits 10 (m + 1)

/-- `TimestampExpired`: `units` is the text of the unit's `repr`.
Models aiootp/_exceptions.py:263-269. -/
def timestampExpired (units : Text) (expiredBy : Int) : Text :=
  let message := sub "Timestamp expired by <TIME> UNITS.".toList "UNITS".toList units
  sub message "TIME".toList (intText expiredBy)

/-- `InvalidCiphertextSize`.
Models aiootp/_exceptions.py:375-382. -/
def invalidCiphertextSize (size : Int) : Text :=
  sub "The given ciphertext length of SIZE isn't a valid size.".toList
    "SIZE".toList (intText size)

/-- `Issue.invalid_length`.
Models aiootp/_exceptions.py:498, 531-534. -/
def invalidLength (name : Text) (length : Int) : Text :=
  let issue := sub "len(NAME) != LENGTH.".toList "NAME".toList name
  sub issue "LENGTH".toList (intText length)

/-- `Issue.must_be_type`: `name` and `clss` are the texts of their `repr`.
Models aiootp/_exceptions.py:503, 560-568. -/
def mustBeType (name clss : Text) : Text :=
  let issue := sub "The NAME value must be a TYPE object.".toList "NAME".toList name
  sub issue "TYPE".toList clss

/-- `KeyAADIssue.invalid_key_size`.
Models aiootp/_exceptions.py:672-674, 682-685. -/
def invalidKeySize (size minSize : Int) : Text :=
  let issue := sub "`key` was KEY_SIZE bytes, but must be at least MIN_SIZE bytes.".toList
    "MIN_SIZE".toList (intText minSize)
  sub issue "KEY_SIZE".toList (intText size)

/-- `SHMACIssue.block_id_is_too_small`.
Models aiootp/_exceptions.py:710-713, 736-745. -/
def blockIdTooSmall (size minSize : Int) : Text :=
  let issue := sub ("A block id of SIZE bytes is too small. It must be at least " ++
    "MIN bytes to securely authenticate a block.").toList "SIZE".toList (intText size)
  sub issue "MIN".toList (intText minSize)

/-- `SHMACIssue.block_id_is_too_big`.
Models aiootp/_exceptions.py:714-716, 747-756. -/
def blockIdTooBig (size maxSize : Int) : Text :=
  let issue := sub "A block id of SIZE bytes is too big. It can be at most MAX bytes.".toList
    "SIZE".toList (intText size)
  sub issue "MAX".toList (intText maxSize)

/-- `PasscryptIssue.invalid_mb` for an int.
Models aiootp/_exceptions.py:789, 869-883. -/
def invalidMb (lo hi mb : Int) : Text :=
  let a := sub "mb:MB must be int >= MIN_MB and <= MAX_MB".toList "MIN_MB".toList (intText lo)
  let b := sub a "MAX_MB".toList (intText hi)
  sub b "MB".toList (intText mb)

/-- `PasscryptIssue.invalid_cpu` for an int.
Models aiootp/_exceptions.py:790, 885-899. -/
def invalidCpu (lo hi cpu : Int) : Text :=
  let a := sub "cpu:CPU must be int >= MIN_CPU and <= MAX_CPU".toList
    "MIN_CPU".toList (intText lo)
  let b := sub a "MAX_CPU".toList (intText hi)
  sub b "CPU".toList (intText cpu)

/-- `PasscryptIssue.invalid_cores` for an int.
Models aiootp/_exceptions.py:791-793, 901-915. -/
def invalidCores (lo hi cores : Int) : Text :=
  let a := sub "cores:CORES must be int >= MIN_CORES and <= MAX_CORES".toList
    "MIN_CORES".toList (intText lo)
  let b := sub a "MAX_CORES".toList (intText hi)
  sub b "CORES".toList (intText cores)

/-- `PasscryptIssue.invalid_tag_size` for an int.
Models aiootp/_exceptions.py:794, 917-930. -/
def invalidTagSize (lo size : Int) : Text :=
  let a := sub "tag_size:SIZE must be int >= MIN_TAG_SIZE".toList
    "MIN_TAG_SIZE".toList (intText lo)
  sub a "SIZE".toList (intText size)

/-- `PasscryptIssue.invalid_salt_size` for an int.
Models aiootp/_exceptions.py:795-797, 932-946. -/
def invalidSaltSize (lo hi size : Int) : Text :=
  let a := sub "salt_size:SIZE must be int >= MIN_SALT_SIZE and <= MAX_SALT_SIZE".toList
    "MIN_SALT_SIZE".toList (intText lo)
  let b := sub a "MAX_SALT_SIZE".toList (intText hi)
  sub b "SIZE".toList (intText size)

end Aiootp.Messages
