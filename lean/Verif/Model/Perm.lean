import Verif.Model.Py

/-
`aiootp/_permutations/`: affine permutations and affine-xor chains.
-/

namespace Aiootp.Perm

/-- The rows of `PRIMES` (aiootp/_constants/datasets.py:45-369) that the permutations use: for `(s, d)` the entry
`PRIMES[8 * s + 1][0]` is `2 ** (8 * s) + d`. -/
def primeOffsets : List (Nat × Nat) :=
  [(1, 1), (2, 1), (3, 43), (4, 15), (5, 15), (6, 21), (7, 81), (8, 13),
   (9, 15), (10, 13), (11, 7), (12, 61), (13, 111), (14, 25), (15, 451), (16, 51),
   (17, 85), (18, 175), (19, 253), (20, 7), (21, 87), (22, 427), (23, 27), (24, 133),
   (25, 235), (26, 375), (27, 423), (28, 735), (29, 357), (30, 115), (31, 81), (32, 297),
   (48, 231), (64, 75), (128, 643), (192, 75), (256, 981), (320, 903), (384, 813), (448, 21),
   (512, 1761)]

/-- `PRIMES[8 * size + 1][0]`; `KeyError` for sizes that are not in the table. -/
def primeOf (size : Nat) : Except Err Nat :=
  match primeOffsets.find? (fun r => r.1 == size) with
  | some r => .ok (2 ^ (8 * size) + r.2)
  | none => .error .key

/-- One step of the extended Euclidean algorithm: with `r = s * m (mod p)` and `r' = s' * m (mod p)`. Returns the
last non-zero remainder and its coefficient. -/
def euclid : (fuel : Nat) → (r r' : Nat) → (s s' : Int) → Nat × Int
  | 0, r, _, s, _ => (r, s)
  | fuel + 1, r, r', s, s' =>
    if r' = 0 then (r, s) else euclid fuel r' (r % r') s' (s - (r / r') * s')

/-- `pow(m, -1, p)`: the inverse of `m` modulo `p`, `ValueError` if there is none. (CPython computes it by the
extended Euclidean algorithm; `p + 1` steps are always enough.) -/
def powInv (m p : Nat) : Except Err Nat :=
  let d := euclid (p + 1) m p 1 0
  if d.1 = 1 then .ok (d.2 % p).toNat else .error .value

/-- aiootp/_permutations/affine_permutation_config.py:31-147 `AffinePermutationConfig`. -/
structure AffineConfig where
  size : Nat
  max : Nat
  prime : Nat
  multiplicativeKey : Nat
  inverseKey : Nat
  deriving DecidableEq, Repr

/-- `KEY_SIZE` (affine_permutation_config.py:143). -/
def AffineConfig.keySize (c : AffineConfig) : Nat := 2 * c.size

/-- affine_permutation_config.py:66-76, 130-132 `_make_multiplier_mask` and the candidate key
`top_bit | (hash & mask)`. `hash` is the number read from the domain-separated hash, a parameter. -/
def candidateKey (hash prime : Nat) : Nat :=
  let topBit := 1 <<< ((Nat.log2 prime + 1) / 2)
  topBit ||| (hash &&& (topBit - 1))

/-- affine_permutation_config.py:78-91 `_count_bit_switches`: how often neighbours in `f"{number:b}"` differ. -/
def countSwitches : List Bool → Nat
  | a :: b :: bits => (if a = b then 0 else 1) + countSwitches (b :: bits)
  | _ => 0

/-- `f"{number:b}"`, as used in affine_permutation_config.py:85. -/
def binaryDigits (number : Nat) : List Bool := ((List.range (Nat.log2 number + 1)).map number.testBit).reverse

/-- affine_permutation_config.py:93-111 `is_likely_safe_multiplier`. `int(log2(n) - 1)` is exact for the lengths of the table; the
comparisons with `prime_size / 4` are multiplied by four. -/
def isLikelySafe (multiplier prime : Nat) : Except Err Bool :=
  if prime < 257 then .error .value
  else
    let primeSize := Nat.log2 prime + 1
    let sqrtPrime := 1 <<< (primeSize / 2)
    let flips := countSwitches (binaryDigits multiplier)
    let span := Nat.log2 primeSize - 1
    .ok (decide (multiplier % 2 = 1) && (decide (sqrtPrime <<< 2 > multiplier) && decide (multiplier > sqrtPrime)) &&
      (decide (4 * (flips + span) > primeSize) && decide ((primeSize : Int) > 4 * ((flips : Int) - span))))

/-- affine_permutation_config.py:113-134 `_derive_new_multiplier`: the first candidate that is likely safe. `hashes i` is the hash of the
`i`-th try; `none` if none of the first `fuel` tries succeeds. -/
def deriveMultiplier (hashes : Nat → Nat) (prime : Nat) : (fuel i : Nat) → Except Err (Option Nat)
  | 0, _ => .ok none
  | fuel + 1, i =>
    match isLikelySafe (candidateKey (hashes i) prime) prime with
    | .error e => .error e
    | .ok true => .ok (some i)
    | .ok false => deriveMultiplier hashes prime fuel (i + 1)

/-- affine_permutation_config.py:56-64, 136-147 `__init__`. The accepted multiplier is a parameter: `hash` is the
hash that `deriveMultiplier` finds. -/
def AffineConfig.new (size hash : Nat) : Except Err AffineConfig := do
  if 4096 ≥ size ∧ size > 0 then
    let prime ← primeOf size
    let m := candidateKey hash prime
    let inv ← powInv m prime
    return { size, max := 2 ^ (8 * size) - 1, prime, multiplicativeKey := m, inverseKey := inv }
  else throw .value

/-- aiootp/_permutations/affine_permutation.py:31-94 `AffinePermutation` objects. -/
structure Affine where
  config : AffineConfig
  additiveKey : Nat
  deriving DecidableEq, Repr

/-- affine_permutation.py:74-94 `__init__`. -/
def Affine.new (config : AffineConfig) (key : Bytes) : Except Err Affine :=
  if key.length = config.keySize then .ok { config, additiveKey := fromBE key } else .error .value

/-- The loops `while value > MAX: value = f(value)` of affine_permutation.py:114-117 and 138-141. `none` when the
loop is still running after `fuel` iterations. -/
def walk (f : Nat → Nat) (max : Nat) : (fuel : Nat) → (value : Nat) → Option Nat
  | 0, value => if value > max then none else some value
  | fuel + 1, value => if value > max then walk f max fuel (f value) else some value

/-- affine_permutation.py:111-113: `(MULTIPLICATIVE_KEY * value + additive_key) % PRIME`. -/
def Affine.forward (a : Affine) (value : Nat) : Nat :=
  (a.config.multiplicativeKey * value + a.additiveKey) % a.config.prime

/-- affine_permutation.py:135-137: `(INVERSE_KEY * (value - additive_key)) % PRIME` (the difference may be negative,
`%` is Python's). -/
def Affine.backward (a : Affine) (value : Nat) : Nat :=
  (((a.config.inverseKey : Int) * ((value : Int) - a.additiveKey)) % a.config.prime).toNat

/-- affine_permutation.py:105-118 `permute`. `none` stands for non-termination: `PRIME` iterations visit every value
that the loop can reach (`walk_none_diverges`). -/
def Affine.permute (a : Affine) (value : Nat) : Option Nat :=
  walk a.forward a.config.max a.config.prime (a.forward value)

/-- affine_permutation.py:129-142 `invert`. -/
def Affine.invert (a : Affine) (value : Nat) : Option Nat :=
  walk a.backward a.config.max a.config.prime (a.backward value)

/-- `int(size * "hh", 16)` for the byte `0xhh` (affine_xor_chain_config.py:148-150). -/
def repeatByte (b : UInt8) (size : Nat) : Nat := fromBE (List.replicate size b)

/-- aiootp/_permutations/affine_xor_chain.py:34-93 `AffineXORChain` objects. `size` is `config.SIZE`. -/
structure Chain where
  size : Nat
  affIn : Affine
  affMid : Affine
  affOut : Affine
  inKey : Nat
  inMidKey : Nat
  outMidKey : Nat
  outKey : Nat
  increment : Nat
  deriving DecidableEq, Repr

/-- `DOMAIN` (affine_xor_chain_config.py:151). -/
def domain (size : Nat) : Nat := 2 ^ (8 * size)

/-- affine_xor_chain.py:104-217 `AffineXORChain.__init__` (`fast = false`) and
fast_affine_xor_chain.py:76-92 `FastAffineXORChain` (`fast = true`). The key is read in the order in, mid, out xor
keys and then the keys of the permutations; its size is `9 * size`, or `5 * size` for the fast chain
(affine_xor_chain_config.py:59-72, 153-155). -/
def Chain.new (fast : Bool) (config : AffineConfig) (key : Bytes) : Except Err Chain := do
  let size := config.size
  if key.length = (if fast then 5 else 9) * size then
    let inKey := fromBE (key.take size)
    let mid := fromBE ((key.drop size).take size)
    let outKey := fromBE ((key.drop (2 * size)).take size)
    let affIn ← Affine.new config ((key.drop (3 * size)).take (2 * size))
    let affMid ← if fast then pure affIn else Affine.new config ((key.drop (5 * size)).take (2 * size))
    let affOut ← if fast then pure affIn else Affine.new config (key.drop (7 * size))
    return {
      size, affIn, affMid, affOut, inKey
      inMidKey := mid ^^^ repeatByte 0xa3 size
      outMidKey := mid ^^^ repeatByte 0x1b size
      outKey
      increment := repeatByte 0x8d size }
  else throw .value

/-- affine_xor_chain.py:226-234 `update_increment`. -/
def Chain.updateIncrement (c : Chain) (value : Int) : Except Err Chain :=
  if (domain c.size : Int) > value ∧ value > 0 then
    .ok { c with increment := (c.increment ^^^ value.toNat) ||| 1 }
  else .error .value

/-- affine_xor_chain.py:246-254 `step`. -/
def Chain.step (c : Chain) : Chain :=
  { c with inKey := (c.inKey + c.increment) % domain c.size }

/-- affine_xor_chain.py:269-280 `uncapped_permute`. -/
def Chain.uncappedPermute (c : Chain) (value : Nat) : Option Nat := do
  let x ← c.affIn.permute value
  let y ← c.affMid.permute (x ^^^ c.inMidKey)
  c.affOut.permute (y ^^^ c.outMidKey)

/-- affine_xor_chain.py:299-314 `permute`. -/
def Chain.permute (c : Chain) (value : Nat) : Option Nat := do
  let x ← c.affIn.permute (value ^^^ c.inKey)
  let y ← c.affMid.permute (x ^^^ c.inMidKey)
  let z ← c.affOut.permute (y ^^^ c.outMidKey)
  return z ^^^ c.outKey

/-- affine_xor_chain.py:328-338 `uncapped_invert`. -/
def Chain.uncappedInvert (c : Chain) (value : Nat) : Option Nat := do
  let x ← c.affOut.invert value
  let y ← c.affMid.invert (x ^^^ c.outMidKey)
  c.affIn.invert (y ^^^ c.inMidKey)

/-- affine_xor_chain.py:355-368 `invert`. -/
def Chain.invert (c : Chain) (value : Nat) : Option Nat := do
  let x ← c.affOut.invert (value ^^^ c.outKey)
  let y ← c.affMid.invert (x ^^^ c.outMidKey)
  let z ← c.affIn.invert (y ^^^ c.inMidKey)
  return z ^^^ c.inKey

/-- The public calls that change a chain. -/
inductive ChainCall where
  | step
  | update (value : Int)
  deriving DecidableEq, Repr

/-- One call; a refused `update_increment` raises and leaves the object as it was. -/
def Chain.apply (c : Chain) : ChainCall → Chain
  | .step => c.step
  | .update v => match c.updateIncrement v with
    | .ok c' => c'
    | .error _ => c

/-- A history of calls. -/
def Chain.run (c : Chain) (calls : List ChainCall) : Chain := calls.foldl Chain.apply c

end Aiootp.Perm
