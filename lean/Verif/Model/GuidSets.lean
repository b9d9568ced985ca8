import Verif.Model.Ids

/-
How Python compares, sorts and hashes the containers that `RawGUID.read` and `GUID.read` return, and what its sets and dicts make of it.
-/

namespace Aiootp.Ids

/-- aiootp/randoms/ids/raw_guid_config.py:148-152 `__gt__`. -/
def Container.gt (a b : Container) : Bool := bytesLt b.sortKey a.sortKey

/-- raw_guid_config.py:136-140 `__hash__`, and what `hash()` makes of the int: one that does not fit into 64 bits with a sign is taken modulo `2 ** 61 - 1`. -/
def Container.hash (a : Container) : Nat :=
  let n := fromBE a.sortKey
  if n < 2 ^ 63 then n else n % (2 ^ 61 - 1)

/-- What can be a key of a set or a dict: a container, or some other object that knows nothing of containers. -/
inductive Key where
  | guid (x : Container)
  | other (hash : Nat) (id : Nat)
  deriving DecidableEq

/-- `hash(key)`. -/
def Key.hash : Key → Nat
  | .guid x => x.hash
  | .other h _ => h

/-- `a == b`: raw_guid_config.py:142-146 `__eq__` reads `sort_key` of whatever it is compared with, which raises `AttributeError` if there is none; Python
asks the container also if it is on the right. -/
def Key.eq : Key → Key → Except Err Bool
  | .guid x, .guid y => .ok (x.eq y)
  | .other _ i, .other _ j => .ok (i == j)
  | _, _ => .error .attribute

/-- `x in s`, for a set or a dict with the given keys: it is compared with those of the same hash. (Those are taken in the order in which they were added.) -/
def find (x : Key) : List Key → Except Err Bool
  | [] => .ok false
  | k :: ks =>
    if k.hash = x.hash then do
      if ← k.eq x then return true
      find x ks
    else find x ks

/-- `s.add(x)`. -/
def add (s : List Key) (x : Key) : Except Err (List Key) := do
  if ← find x s then return s
  return s ++ [x]

/-- Adding one after the other. -/
def addAll (s : List Key) : List Key → Except Err (List Key)
  | [] => .ok s
  | x :: xs => do
    let s ← add s x
    addAll s xs

end Aiootp.Ids
