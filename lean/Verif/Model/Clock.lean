import Verif.Model.Py

/-
`aiootp/asynchs/clocks.py`.
-/

namespace Aiootp.Clock

/-- `n / d` rounded to the nearest integer, ties to even. -/
def roundHalfEven (n d : Nat) : Nat :=
  let q := n / d
  let r := n % d
  if 2 * r < d then q
  else if 2 * r > d then q + 1
  else if q % 2 = 0 then q else q + 1

/-- `int(a / b)` for non-negative ints: CPython's `/` gives the nearest double (53 bits of precision, ties to even)
and `int` drops its fractional part. (For `0 < b ≤ 2 ** 53`, so that a quotient below 1 does not round up to 1. The
`OverflowError` of quotients beyond the double range is not modelled.) -/
def intTrueDiv (a b : Nat) : Nat :=
  if a < b then 0
  else
    let e := Nat.log2 (a / b)
    if e ≤ 52 then roundHalfEven (a * 2 ^ (52 - e)) b / 2 ^ (52 - e)
    else roundHalfEven a (b * 2 ^ (e - 52)) * 2 ^ (e - 52)

/-- aiootp/asynchs/clocks.py:62-69 `TimeUnit.time`: `int((time_ns() - epoch) / unit.as_ns)`, for the units whose
`as_ns` is an `int` (nanoseconds to days). -/
def unitTime (asNs : Nat) (epoch now : Int) : Int :=
  if now - epoch ≥ 0 then intTrueDiv (now - epoch).toNat asNs
  else - (intTrueDiv (epoch - now).toNat asNs : Int)

/-- `as_ns` of the units whose `as_ns` is an `int` (clocks.py:72-141). -/
def unitsAsNs : List Nat :=
  [1, 1000, 1000000, 10000000, 100000000, 1000000000, 60000000000, 3600000000000, 86400000000000]

/-- `byte_order`. -/
inductive Order where
  | big
  | little
  deriving DecidableEq, Repr

/-- clocks.py:340-351 `make_timestamp`, `reading` is `self.time()`. A negative reading raises `OverflowError`. -/
def makeTimestamp (reading : Int) (size : Nat) (order : Order) : Except Err Bytes :=
  if reading < 0 then .error .overflow
  else match order with
    | .big => toBytesBE size reading.toNat
    | .little => toBytesLE size reading.toNat

/-- clocks.py:367-378 `read_timestamp`. -/
def readTimestamp (timestamp : Bytes) (order : Order) : Nat :=
  match order with
  | .big => fromBE timestamp
  | .little => fromLE timestamp

/-- clocks.py:394-400 `delta`. -/
def delta (reading : Int) (timestamp : Bytes) (order : Order) : Int :=
  reading - readTimestamp timestamp order

/-- clocks.py:423-442 `test_timestamp`. -/
def testTimestamp (reading : Int) (timestamp : Bytes) (ttl : Option Int) (order : Order) : Except Err Unit :=
  match ttl with
  | none => .ok ()
  | some ttl =>
    let d := delta reading timestamp order
    if d > ttl then .error (.timestampExpired (d - ttl)) else .ok ()

end Aiootp.Clock
