import Verif.Model.Py

/-
Python slices with step 1 and hash objects with extendable output.
-/

namespace Aiootp

/-- How a slice bound is brought into the range `0..n`: negative bounds count from the end. -/
def sliceBound (n : Nat) (i : Int) : Nat := if i < 0 then (n + i).toNat else min i.toNat n

/-- A `slice(start, stop, 1)` object. -/
structure Slice where
  start : Option Int
  stop : Option Int
  deriving DecidableEq, Repr

/-- `l[s]`. -/
def Slice.of {α} (s : Slice) (l : List α) : List α :=
  let a := match s.start with
    | none => 0
    | some i => sliceBound l.length i
  let b := match s.stop with
    | none => l.length
    | some i => sliceBound l.length i
  (l.take b).drop a

/-- A `hashlib` extendable-output object type (`shake_128`, `shake_256`): `digest absorbed n` is `.digest(n)` after
the bytes `absorbed` have been given to the constructor and to `update`. Nothing is assumed about the function but
the length of its output. A hash *object* is modelled by the bytes it has absorbed. -/
structure Xof where
  digest : Bytes → Nat → Bytes
  length_digest : ∀ m n, (digest m n).length = n

end Aiootp
