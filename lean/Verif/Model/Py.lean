/-
Python primitives used by the modelled code: `bytes`, `int.to_bytes`,
`int.from_bytes`, exceptions as values.
-/

namespace Aiootp

/-- Python `bytes`. -/
abbrev Bytes := List UInt8

/-- Exceptions raised by the modelled code, as values. Each constructor stands
for one Python exception type or one `Issue` helper of `aiootp/_exceptions.py`. -/
inductive Err where
  /-- builtin `OverflowError` -/
  | overflow
  /-- builtin `ZeroDivisionError` -/
  | zeroDivision
  /-- builtin `TypeError` (and `Issue.must_be_type`) -/
  | type
  /-- builtin `ValueError` (and `Issue.value_must`, `Issue.invalid_value`) -/
  | value
  /-- builtin `KeyError` / `LookupError` -/
  | key
  /-- builtin `IndexError` -/
  | index
  /-- builtin `AttributeError` -/
  | attribute
  /-- builtin `PermissionError` -/
  | permission
  /-- builtin `FileNotFoundError` -/
  | fileNotFound
  /-- builtin `AssertionError` -/
  | assertion
  /-- `CanonicalEncodingError` -/
  | canonical
  /-- `InvalidSHMAC` -/
  | invalidSHMAC
  /-- `InvalidBlockID` -/
  | invalidBlockID
  /-- `SHMACIssue.*` (misuse of a `StreamHMAC` object: no mode, already finalized, ...) -/
  | shmacMisuse
  /-- `InvalidCiphertextSize` -/
  | ciphertextSize
  /-- `TimestampExpired`, with the number of time units past the deadline -/
  | timestampExpired (excess : Int)
  /-- `ConcurrencyGuard` / `UseTracker` incoherence errors -/
  | invalidState
  /-- `InvalidPassphrase` -/
  | passcrypt
  /-- `ResourceWarning` -/
  | resource
  /-- `InvalidSignature` -/
  | invalidSignature
  /-- `InvalidDigest` -/
  | invalidDigest
  /-- `PackageNotSigned` -/
  | packageNotSigned
  /-- `SigningKeyNotSet` -/
  | signingKeyNotSet
  /-- `DatabaseNotConnected` -/
  | databaseNotConnected
  /-- `CipherStreamIsClosed` -/
  | streamClosed
  /-- `StopIteration` -/
  | stopIteration
  /-- `ValidationIncomplete` -/
  | validationIncomplete
  /-- `KDFModeNotDeclared` -/
  | modeNotDeclared
  /-- not an exception: the call never returns -/
  | diverges
  deriving DecidableEq, Repr

/-- Lets `decide` settle closed statements about results. -/
instance {ε α} [DecidableEq ε] [DecidableEq α] : DecidableEq (Except ε α) := fun
  | .ok a, .ok b => if h : a = b then isTrue (h ▸ rfl) else isFalse (fun e => h (Except.ok.inj e))
  | .error a, .error b =>
    if h : a = b then isTrue (h ▸ rfl) else isFalse (fun e => h (Except.error.inj e))
  | .ok _, .error _ => isFalse nofun
  | .error _, .ok _ => isFalse nofun

/-- `if p: raise e`. -/
def raiseIf (p : Prop) [Decidable p] (e : Err) : Except Err Unit := if p then .error e else .ok ()

/-- Reading an attribute that may have been deleted or never assigned. -/
def attr {α} (x : Option α) : Except Err α :=
  match x with
  | some a => .ok a
  | none => .error .attribute

/-- A call that may not return (`none`). -/
def terminates {α} (x : Option α) : Except Err α :=
  match x with
  | some a => .ok a
  | none => .error .diverges

/-- The `s` low base-256 digits of `n`, least significant first. -/
def leDigits : (s : Nat) → (n : Nat) → Bytes
  | 0, _ => []
  | s + 1, n => UInt8.ofNat (n % 256) :: leDigits s (n / 256)

/-- `int.from_bytes(b, "little")`. -/
def fromLE : Bytes → Nat
  | [] => 0
  | b :: bs => b.toNat + 256 * fromLE bs

/-- `int.from_bytes(b, "big")`. -/
def fromBE (b : Bytes) : Nat := fromLE b.reverse

/-- The `s` low base-256 digits of `n`, most significant first. -/
def beDigits (s n : Nat) : Bytes := (leDigits s n).reverse

/-- `n.to_bytes(s, "big")` for a non-negative `n`: `OverflowError` when `n` does
not fit. -/
def toBytesBE (s n : Nat) : Except Err Bytes :=
  if n < 256 ^ s then .ok (beDigits s n) else .error .overflow

/-- `n.to_bytes(s, "little")` for a non-negative `n`. -/
def toBytesLE (s n : Nat) : Except Err Bytes :=
  if n < 256 ^ s then .ok (leDigits s n) else .error .overflow

/-- `math.ceil(a / b)` on naturals. Python computes `a / b` in floating point; the
two agree whenever `a < 2^53` (a byte string of 8 PiB), the model is exact. -/
def ceilDiv (a b : Nat) : Nat := (a + b - 1) / b

/-- Largest argument of `BytesIO.read` plus one: larger ones raise `OverflowError`
("cannot fit 'int' into an index-sized integer") on 64-bit CPython. -/
def ssizeLimit : Nat := 2 ^ 63

end Aiootp
