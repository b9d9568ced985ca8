import Verif.Model.Canon
import Verif.Model.Slice
import Verif.Model.Clock

/-
`aiootp/keygens/passcrypt/`. The async versions differ in `await`s only. The process pool is not modelled: the result of a session is
the value of its function.
-/

namespace Aiootp.Passcrypt

open Canon

/-! ### config.py -/

/-- config.py:83-121: the values of a `PasscryptConfig` that are used below. -/
structure Config where
  minCores : Nat
  maxCores : Nat
  coresBytes : Nat
  minCpu : Nat
  maxCpu : Nat
  ratio : Nat
  cpuBytes : Nat
  minMb : Nat
  maxMb : Nat
  mbBytes : Nat
  minSaltSize : Nat
  maxSaltSize : Nat
  saltSizeBytes : Nat
  minTagSize : Nat
  minPassphrase : Nat
  timestampBytes : Nat
  /-- `S_TO_TIME_UNIT_RATIO` -/
  unitsPerSecond : Nat
  pad : Bytes
  packedMetadata : Bytes

/-- config.py:48-73, 385 `passcrypt_spec`. `PACKED_METADATA` (config.py:251-283) is a constant. -/
def spec (packedMetadata : Bytes) : Config where
  minCores := 1
  maxCores := 256
  coresBytes := 1
  minCpu := 1
  maxCpu := 256
  ratio := 2
  cpuBytes := 1
  minMb := 1
  maxMb := 256 ^ 3
  mbBytes := 3
  minSaltSize := 4
  maxSaltSize := 256
  saltSizeBytes := 1
  minTagSize := 16
  minPassphrase := 12
  timestampBytes := 8
  unitsPerSecond := 1000000000
  pad := [0xf2]
  packedMetadata := packedMetadata

/-- config.py:360-382 `validate_settings` (with 307-341). -/
def Config.validateSettings (c : Config) (mb cpu cores tagSize saltSize : Nat) : Except Err Unit := do
  raiseIf (¬ (c.minMb ≤ mb ∧ mb ≤ c.maxMb)) .value
  raiseIf (¬ (c.minCpu ≤ cpu ∧ cpu ≤ c.maxCpu)) .value
  raiseIf (¬ (c.minCores ≤ cores ∧ cores ≤ c.maxCores)) .value
  raiseIf (¬ c.minTagSize ≤ tagSize) .value
  raiseIf (¬ (c.minSaltSize ≤ saltSize ∧ saltSize ≤ c.maxSaltSize)) .value

/-- config.py:343-358 `validate_inputs` (with 285-305), for bytes. -/
def Config.validateInputs (c : Config) (passphrase salt : Bytes) : Except Err Unit := do
  raiseIf (¬ c.minPassphrase ≤ passphrase.length) .value
  raiseIf (¬ (c.minSaltSize ≤ salt.length ∧ salt.length ≤ c.maxSaltSize)) .value

/-! ### hash_format.py -/

/-- hash_format.py:54: the attributes of a `PasscryptHash`. -/
structure Hash where
  timestamp : Bytes
  mb : Nat
  cpu : Nat
  cores : Nat
  salt : Bytes
  tag : Bytes
  deriving DecidableEq, Repr

/-- hash_format.py:58-88 `__init__` with values. (With no values at all nothing is checked or stored.) -/
def Hash.make (c : Config) (timestamp : Bytes) (mb cpu cores : Nat) (salt tag : Bytes) : Except Err Hash := do
  c.validateSettings mb cpu cores tag.length salt.length
  .ok ⟨timestamp, mb, cpu, cores, salt, tag⟩

/-- hash_format.py:108-126 `import_hash`, on an object without values; an object with values is frozen and raises. `read(n)` gives what is
left if there are fewer than `n` bytes. -/
def importHash (c : Config) (data : Bytes) : Except Err Hash :=
  let timestamp := data.take c.timestampBytes
  let data := data.drop c.timestampBytes
  let mb := fromBE (data.take c.mbBytes) + 1
  let data := data.drop c.mbBytes
  let cpu := fromBE (data.take c.cpuBytes) + 1
  let data := data.drop c.cpuBytes
  let cores := fromBE (data.take c.coresBytes) + 1
  let data := data.drop c.coresBytes
  let saltSize := fromBE (data.take c.saltSizeBytes) + 1
  let data := data.drop c.saltSizeBytes
  let salt := data.take saltSize
  let tag := data.drop saltSize
  Hash.make c timestamp mb cpu cores salt tag

/-- `(n - 1).to_bytes(size, BIG)`. -/
def predToBytes (size n : Nat) : Except Err Bytes := if n = 0 then .error .overflow else toBytesBE size (n - 1)

/-- hash_format.py:128-142 `export_hash`. (`salt_size` is `None` for an empty salt, and raises `TypeError`.) -/
def exportHash (c : Config) (h : Hash) : Except Err Bytes := do
  let mb ← predToBytes c.mbBytes h.mb
  let cpu ← predToBytes c.cpuBytes h.cpu
  let cores ← predToBytes c.coresBytes h.cores
  raiseIf (h.salt.length = 0) .type
  let saltSize ← predToBytes c.saltSizeBytes h.salt.length
  .ok (h.timestamp ++ mb ++ cpu ++ cores ++ saltSize ++ h.salt ++ h.tag)

/-- hash_format.py:144-193 `in_allowed_ranges`. The ranges are given by their membership tests. -/
def inAllowedRanges (h : Hash) (mbAllowed cpuAllowed coresAllowed : Nat → Bool) : Except Err Unit := do
  raiseIf (¬ mbAllowed h.mb) .resource
  raiseIf (¬ cpuAllowed h.cpu) .resource
  raiseIf (¬ coresAllowed h.cores) .resource

/-! ### session_init.py -/

/-- session_init.py:37-51: what `PasscryptSession.__init__` stores. -/
structure Session where
  passphrase : Bytes
  salt : Bytes
  aad : Bytes
  mb : Nat
  cpu : Nat
  cores : Nat
  tagSize : Nat

/-- session_init.py:61-91 `__init__`. -/
def Session.make (c : Config) (s : Session) : Except Err Session := do
  c.validateInputs s.passphrase s.salt
  c.validateSettings s.mb s.cpu s.cores s.tagSize s.salt.length
  .ok s

/-- The constants of the derivation: `shake_128`, the salt of `_new_passcrypt_proof_kdf` (session_init.py:53-59) and `Domains.PASSCRYPT`. -/
structure Env where
  xof : Xof
  proofSalt : Bytes
  domain : Bytes

/-- session_init.py:108-126 `_hash_session_parameters`: the message that is hashed. -/
def parametersMessage (E : Env) (c : Config) (s : Session) : Except Err Bytes := do
  let mb ← toBytesBE 8 s.mb
  let cpu ← toBytesBE 8 s.cpu
  let cores ← toBytesBE 8 s.cores
  let tagSize ← toBytesBE 8 s.tagSize
  hashBytesInput [E.domain, c.packedMetadata, s.salt, s.aad, mb, cpu, cores, tagSize] 168 0 c.pad (some 336)
    (some (s.passphrase ++ s.salt ++ s.aad))

/-- `math.ceil(a / b)` for ints: CPython's `/` gives the nearest double (53 bits of precision, ties to even). (For `0 < b`; quotients beyond
the double range raise.) -/
def ceilTrueDiv (a b : Nat) : Nat :=
  if a = 0 then 0
  else if a < b then 1
  else
    let e := Nat.log2 (a / b)
    if e ≤ 52 then ceilDiv (Clock.roundHalfEven (a * 2 ^ (52 - e)) b) (2 ^ (52 - e))
    else Clock.roundHalfEven a (b * 2 ^ (e - 52)) * 2 ^ (e - 52)

/-- session_init.py:133-137: the number of digest pairs of a row. -/
def rounds (c : Config) (cpu : Nat) : Nat := max 1 (cpu / c.ratio)

/-- session_init.py:136. `B_TO_MB_RATIO` is 2^20. -/
def rows (c : Config) (mb cpu : Nat) : Nat := ceilTrueDiv (2 ^ 20 * mb) (336 * rounds c cpu)

/-- session_init.py:137. -/
def rowSize (c : Config) (cpu : Nat) : Nat := 336 * rounds c cpu

/-- session_init.py:138. -/
def totalSize (c : Config) (mb cpu : Nat) : Nat := rowSize c cpu * rows c mb cpu

/-- The memory and the hash object of a session; `digests` are the digests that were written to the memory by `write`, in order (the code does
not keep them, they are only used to state properties). -/
structure Proof where
  ram : Bytes
  absorbed : Bytes
  digests : List Bytes

/-- session_init.py:171. -/
def maxDigest : Nat := 2 ^ 20 * 512 - 1

/-- `ram[-168:]`. -/
def lastBlock (ram : Bytes) : Bytes := Slice.of ⟨some (-168), none⟩ ram

/-- session_init.py:144-180 `allocate_ram`. -/
def allocate (E : Env) (p : Proof) (size : Nat) : Proof :=
  if size > maxDigest then
    let ram := p.ram ++ E.xof.digest p.absorbed maxDigest
    allocate E { p with ram := ram, absorbed := p.absorbed ++ lastBlock ram } (size - maxDigest)
  else if size = 0 then p
  else
    let ram := p.ram ++ E.xof.digest p.absorbed size
    { p with ram := ram, absorbed := p.absorbed ++ lastBlock ram }
termination_by size
decreasing_by
  have : 0 < maxDigest := by decide
  omega

/-! ### sessions_manager.py -/

/-- `l[start:stop] = value` for a `bytearray`: the value need not have the length of the slice. -/
def setSlice (l : Bytes) (start : Int) (stop : Option Int) (value : Bytes) : Bytes :=
  let a := sliceBound l.length start
  let b := match stop with
    | none => l.length
    | some i => sliceBound l.length i
  l.take a ++ value ++ l.drop (max a b)

/-- `update(ram[start:stop])`. -/
def Proof.absorb (p : Proof) (start stop : Int) : Proof := { p with absorbed := p.absorbed ++ Slice.of ⟨some start, some stop⟩ p.ram }

/-- `ram[start:stop] = digest(size)`. -/
def Proof.write (X : Xof) (p : Proof) (start : Int) (stop : Option Int) (size : Nat) : Proof :=
  let d := X.digest p.absorbed size
  { p with ram := setSlice p.ram start stop d, digests := p.digests ++ [d] }

/-- sessions_manager.py:68-78: the body of the loops. -/
def walkStep (X : Xof) (rowSize : Nat) (columnStart : Nat) (p : Proof) (rowStart : Nat) : Proof :=
  let index : Int := rowStart + columnStart
  let refRowStart : Int := - rowStart - rowSize
  let reflection := refRowStart + columnStart + 168
  let refEnd := reflection + 168
  let refEnd := if refEnd < 0 then some refEnd else none
  let p := p.absorb rowStart (rowStart + rowSize)
  let p := p.write X index (some (index + 168)) 168
  let p := p.absorb refRowStart (refRowStart + rowSize)
  p.write X reflection refEnd 168

/-- `range(0, stop, step)`. -/
def pyRange (stop step : Nat) : List Nat := (List.range (ceilDiv stop step)).map (· * step)

/-- sessions_manager.py:64-78: the loops over columns and rows. -/
def walk (X : Xof) (rowSize totalSize : Nat) (p : Proof) : Proof :=
  (pyRange rowSize 336).foldl (fun p column => (pyRange totalSize rowSize).foldl (walkStep X rowSize column) p) p

/-- sessions_manager.py:79-82: the last loop. -/
def finalStep (X : Xof) (p : Proof) (iteration : Nat) : Proof :=
  let seek : Int := 168 * iteration
  let p := p.write X seek (some (seek + 84)) 84
  { p with absorbed := p.absorbed ++ p.ram }

/-- sessions_manager.py:47-83 `_work_memory_prover`, up to the last digest. -/
def workMemoryProver (X : Xof) (cpu rowSize totalSize : Nat) (p : Proof) : Except Err Proof := do
  raiseIf (totalSize ≠ p.ram.length) .assertion
  .ok ((List.range (cpu + 2)).foldl (finalStep X) (walk X rowSize totalSize p))

/-- session_init.py:128-142 `prepare_session`, 144-180: the memory and hash object before the walk. -/
def prepare (E : Env) (c : Config) (s : Session) : Except Err Proof := do
  let message ← parametersMessage E c s
  .ok (allocate E ⟨[], E.proofSalt ++ E.xof.digest message 336, []⟩ (totalSize c s.mb s.cpu))

/-- sessions_manager.py:85-93 `_passcrypt`. -/
def passcrypt (E : Env) (c : Config) (s : Session) : Except Err Bytes := do
  let p ← prepare E c s
  let p ← workMemoryProver E.xof s.cpu (rowSize c s.cpu) (totalSize c s.mb s.cpu) p
  .ok (E.xof.digest p.absorbed 168)

/-- sessions_manager.py:131-165 `spawn`: the sessions that are given to the process pool. The checks are the same for every core, so that either
all or none of the sessions are started. -/
def spawn (c : Config) (passphrase salt aad pepper : Bytes) (mb cpu cores tagSize : Nat) : Except Err (List Session) := do
  let totalMb ← toBytesBE 8 mb
  (List.range cores).mapM fun core => do
    let core ← toBytesBE 8 core
    let coreAad ← canonicalPack [pepper, aad, core, totalMb] 1 [0] 8
    Session.make c ⟨passphrase, salt, coreAad, ceilTrueDiv mb cores, cpu, cores, tagSize⟩

/-! ### interface.py -/

/-- interface.py:328-333: the message whose digest is the tag. -/
def tagMessage (results : List Bytes) (tagSize : Nat) : Except Err Bytes :=
  match results with
  | [] => .error .index
  | first :: _ => hashBytesInput results 168 0 [0] (some tagSize) (some first)

/-- interface.py:328-333, with the sessions that `spawn` has returned. (`shake_128` refuses to make digests of 512 MiB and more.) -/
def collect (E : Env) (c : Config) (sessions : List Session) (tagSize : Nat) : Except Err Bytes := do
  let results ← sessions.mapM (passcrypt E c)
  let message ← tagMessage results tagSize
  .ok (E.xof.digest message tagSize)

/-- interface.py:39-65, 233-254: the settings of a `Passcrypt` object; `pepper` is the class attribute `PEPPER`. -/
structure Settings where
  mb : Nat
  cpu : Nat
  cores : Nat
  tagSize : Nat
  saltSize : Nat
  pepper : Bytes

/-- interface.py:298-338 `new`. The reset of a broken process pool is not modelled. -/
def new (E : Env) (c : Config) (t : Settings) (passphrase salt aad : Bytes) : Except Err Bytes := do
  let sessions ← spawn c passphrase salt aad t.pepper t.mb t.cpu t.cores t.tagSize
  collect E c sessions t.tagSize

/-- interface.py:233-254 `__init__` and 384-426 `hash_passphrase`. `reading` is the reading of the clock, `draw` is `csprng(salt_size)`. -/
def hashPassphrase (E : Env) (c : Config) (t : Settings) (reading : Int) (draw passphrase aad : Bytes) : Except Err Bytes := do
  c.validateSettings t.mb t.cpu t.cores t.tagSize t.saltSize
  let timestamp ← Clock.makeTimestamp reading c.timestampBytes .big
  let tag ← new E c t passphrase draw (timestamp ++ aad)
  let h ← Hash.make c timestamp t.mb t.cpu t.cores draw tag
  exportHash c h

/-- The nearest double of an int, as an int. -/
def toDouble (n : Nat) : Nat := Clock.intTrueDiv n 1

/-- interface.py:536 `ttl and math.floor(ttl * config.S_TO_TIME_UNIT_RATIO)` for an int `ttl`: a product of doubles. -/
def ttlUnits (c : Config) (ttl : Int) : Int :=
  let n : Nat := toDouble (toDouble ttl.natAbs * c.unitsPerSecond)
  if ttl < 0 then - n else n

/-- The outcome of `verify`: the sessions that were given to the process pool, and how the call ends. -/
structure Outcome where
  started : List Session
  result : Except Err Unit

/-- interface.py:533-545: what `verify` does before `new`. -/
def verifyParts (c : Config) (hash : Bytes) (reading : Int) (ttl : Option Int) (mbAllowed cpuAllowed coresAllowed : Nat → Bool) : Except Err Hash := do
  let parts ← importHash c hash
  Clock.testTimestamp reading parts.timestamp (ttl.map (ttlUnits c)) .big
  inAllowedRanges parts mbAllowed cpuAllowed coresAllowed
  c.validateSettings parts.mb parts.cpu parts.cores parts.tag.length 8
  .ok parts

/-- interface.py:492-552 `verify`. -/
def verify (E : Env) (c : Config) (pepper hash passphrase aad : Bytes) (reading : Int) (ttl : Option Int)
    (mbAllowed cpuAllowed coresAllowed : Nat → Bool) : Outcome :=
  match verifyParts c hash reading ttl mbAllowed cpuAllowed coresAllowed with
  | .error e => ⟨[], .error e⟩
  | .ok parts =>
    match spawn c passphrase parts.salt (parts.timestamp ++ aad) pepper parts.mb parts.cpu parts.cores parts.tag.length with
    | .error e => ⟨[], .error e⟩
    | .ok sessions => ⟨sessions, do
        let untrusted ← collect E c sessions parts.tag.length
        raiseIf (untrusted ≠ parts.tag) .passcrypt⟩

end Aiootp.Passcrypt
