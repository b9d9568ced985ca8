import Verif.Model.Perm

/-
`aiootp/randoms/ids/`: sequence ids and globally unique ids.
-/

namespace Aiootp.Ids

open Perm

/-! ### SequenceID -/

/-- aiootp/randoms/ids/sequence_id.py:96-106 `SequenceID.__init__`: the object is a `FastAffineXORChain` of the
configured size. -/
def sequenceId (config : AffineConfig) (key : Bytes) : Except Err Chain := Chain.new true config key

/-- sequence_id.py:115-120 `new`. `none`: the permutation does not terminate. There is no check of `value`; negative
values are not modelled. -/
def sidNew (c : Chain) (value : Nat) : Option (Except Err Bytes) := do
  let sid ← c.permute value
  return toBytesBE c.size sid

/-- sequence_id.py:128-132 `read`. There is no check of the length. -/
def sidRead (c : Chain) (value : Bytes) : Option Nat := c.invert (fromBE value)

/-! ### RawGUID -/

/-- aiootp/randoms/ids/raw_guid_config.py:43-114 `RawGUIDConfig`. -/
structure RawConfig where
  timestampBytes : Nat
  prfBytes : Nat
  nodeIdBytes : Nat
  tickerBytes : Nat
  size : Nat
  deriving DecidableEq, Repr

/-- raw_guid_config.py:70-82, 93-114 `__init__`. `int("", 16)` is refused. -/
def RawConfig.new (timestampBytes prfBytes nodeIdBytes tickerBytes size : Nat) : Except Err RawConfig :=
  if tickerBytes = 0 then .error .value
  else if size ≠ timestampBytes + prfBytes + nodeIdBytes + tickerBytes then .error .value
  else .ok { timestampBytes, prfBytes, nodeIdBytes, tickerBytes, size }

/-- raw_guid.py:52-64: the configurations of `RawGUID`, for sizes 12 to 32. -/
def rawConfig (size : Nat) : Except Err RawConfig :=
  if 12 ≤ size ∧ size < 33 then RawConfig.new 8 (size - 10) 1 1 size else .error .key

/-- `TICK_DOMAIN` (raw_guid_config.py:111). -/
def RawConfig.tickDomain (c : RawConfig) : Nat := 256 ^ c.tickerBytes - 1

/-- raw_guid.py:30-88 `RawGUID` objects. -/
structure RawGuid where
  config : RawConfig
  nodeId : Bytes
  tick : Nat
  deriving DecidableEq, Repr

/-- raw_guid.py:66-88 `__init__`. -/
def RawGuid.new (size : Nat) (nodeId : Bytes) : Except Err RawGuid := do
  let config ← rawConfig size
  if nodeId.length ≠ config.nodeIdBytes then throw .value
  return { config, nodeId, tick := 0 }

/-- raw_guid.py:95: `(self.tick + 1) & TICK_DOMAIN`. -/
def nextTick (config : RawConfig) (tick : Nat) : Nat := (tick + 1) &&& config.tickDomain

/-- raw_guid.py:90-115 `RawGUID.new` without interruption: `time` is the clock reading, `token` what `prf` returned. -/
def RawGuid.make (g : RawGuid) (time : Nat) (token : Bytes) : Except Err (Bytes × RawGuid) := do
  let stamp ← toBytesBE g.config.timestampBytes time
  let tick := nextTick g.config g.tick
  let ticker ← toBytesBE g.config.tickerBytes tick
  return (stamp ++ token ++ g.nodeId ++ ticker, { g with tick })

/-- raw_guid_config.py:117-134 `RawGUIDContainer`. -/
structure Container where
  timestamp : Bytes
  token : Bytes
  nodeId : Bytes
  ticker : Bytes
  deriving DecidableEq, Repr

/-- raw_guid_config.py:124-134 and raw_guid.py:124-128 `read`. -/
def rawRead (c : RawConfig) (guid : Bytes) : Except Err Container :=
  if guid.length ≠ c.size then .error .value
  else .ok {
    timestamp := guid.take c.timestampBytes
    token := (guid.drop c.timestampBytes).take c.prfBytes
    nodeId := (guid.drop (c.timestampBytes + c.prfBytes)).take c.nodeIdBytes
    ticker := (guid.drop (c.timestampBytes + c.prfBytes + c.nodeIdBytes)).take c.tickerBytes }

/-- raw_guid_config.py:160-166 `sort_key`. -/
def Container.sortKey (c : Container) : Bytes := c.timestamp ++ c.nodeId ++ c.ticker ++ c.token

/-- `a < b` of Python `bytes` (lexicographic). -/
def bytesLt : Bytes → Bytes → Bool
  | [], [] => false
  | [], _ :: _ => true
  | _ :: _, [] => false
  | a :: as, b :: bs => a.toNat < b.toNat || (a.toNat == b.toNat && bytesLt as bs)

/-- raw_guid_config.py:142-158 `__eq__`, `__lt__`. -/
def Container.eq (a b : Container) : Bool := a.sortKey == b.sortKey
def Container.lt (a b : Container) : Bool := bytesLt a.sortKey b.sortKey

/-! ### GUID -/

/-- aiootp/randoms/ids/guid.py:32-162 `GUID` objects: the raw generator and the fast chain of the same size. -/
structure Guid where
  raw : RawGuid
  permutation : Chain
  deriving DecidableEq, Repr

/-- guid.py:148-162 `__init__` with an explicit key. -/
def Guid.new (config : AffineConfig) (key : Bytes) (nodeId : Bytes) : Except Err Guid := do
  let raw ← RawGuid.new config.size nodeId
  let permutation ← Chain.new true config key
  return { raw, permutation }

/-- `None` of the permutation is non-termination, modelled as its own outcome. -/
inductive Run (α : Type) where
  | ok (a : α)
  | error (e : Err)
  | diverges
  deriving DecidableEq, Repr

/-- guid.py:179-181: masks a raw guid. -/
def Guid.mask (g : Guid) (raw : Bytes) : Run Bytes :=
  match g.permutation.permute (fromBE raw) with
  | none => .diverges
  | some v => match toBytesBE g.raw.config.size v with
    | .ok b => .ok b
    | .error e => .error e

/-- guid.py:174-181 `new` without interruption. -/
def Guid.make (g : Guid) (time : Nat) (token : Bytes) : Run (Bytes × Guid) :=
  match g.raw.make time token with
  | .error e => .error e
  | .ok (raw, r) => match g.mask raw with
    | .ok b => .ok (b, { g with raw := r })
    | .error e => .error e
    | .diverges => .diverges

/-- guid.py:196-205 `read`. -/
def Guid.read (g : Guid) (guid : Bytes) : Run Container :=
  if guid.length ≠ g.raw.config.size then .error .value
  else match g.permutation.invert (fromBE guid) with
    | none => .diverges
    | some v => match toBytesBE g.raw.config.size v with
      | .error e => .error e
      | .ok b => match rawRead g.raw.config b with
        | .ok c => .ok c
        | .error e => .error e

/-- A sequence of `new()` calls without interruptions: the guids and the final object. Each call comes with what the
clock and the random source returned. -/
def Guid.makeAll (g : Guid) : List (Nat × Bytes) → Run (List Bytes × Guid)
  | [] => .ok ([], g)
  | (time, token) :: rest => match g.make time token with
    | .error e => .error e
    | .diverges => .diverges
    | .ok (b, g') => match g'.makeAll rest with
      | .ok (bs, g'') => .ok (b :: bs, g'')
      | .error e => .error e
      | .diverges => .diverges

/-! ### RawGUID used by several threads -/

/-- Where a thread is inside `RawGUID.new`: it has read the clock, the random token, and for `_incremented_tick`
(raw_guid.py:94-96) loaded `self.tick`, stored the increment. -/
inductive Pc where
  | idle
  | stamped (time : Nat)
  | tokened (time : Nat) (token : Bytes)
  | loaded (time : Nat) (token : Bytes) (tick : Nat)
  | stored (time : Nat) (token : Bytes)
  deriving DecidableEq, Repr

/-- The shared object, the threads (by number) and the raw guids returned so far. -/
structure Sys where
  guid : RawGuid
  pcs : List Pc
  out : List (Except Err Bytes)
  deriving DecidableEq, Repr

/-- One atomic action of one thread; `time` and `token` are what the environment provides. -/
inductive Act where
  | clock (thread time : Nat)
  | token (thread : Nat) (token : Bytes)
  | load (thread : Nat)
  | store (thread : Nat)
  | emit (thread : Nat)
  deriving DecidableEq, Repr

/-- Effect of an action; an action that is not the thread's next one does nothing. -/
def Sys.act (s : Sys) : Act → Sys
  | .clock t time => match s.pcs[t]? with
    | some .idle => { s with pcs := s.pcs.set t (.stamped time) }
    | _ => s
  | .token t token => match s.pcs[t]? with
    | some (.stamped time) => { s with pcs := s.pcs.set t (.tokened time token) }
    | _ => s
  | .load t => match s.pcs[t]? with
    | some (.tokened time token) => { s with pcs := s.pcs.set t (.loaded time token s.guid.tick) }
    | _ => s
  | .store t => match s.pcs[t]? with
    | some (.loaded time token tick) =>
      { s with guid := { s.guid with tick := nextTick s.guid.config tick }, pcs := s.pcs.set t (.stored time token) }
    | _ => s
  | .emit t => match s.pcs[t]? with
    | some (.stored time token) =>
      let result : Except Err Bytes := do
        let stamp ← toBytesBE s.guid.config.timestampBytes time
        let ticker ← toBytesBE s.guid.config.tickerBytes s.guid.tick
        return stamp ++ token ++ s.guid.nodeId ++ ticker
      { s with pcs := s.pcs.set t .idle, out := s.out ++ [result] }
    | _ => s

/-- A schedule. -/
def Sys.run (s : Sys) (acts : List Act) : Sys := acts.foldl Sys.act s

end Aiootp.Ids
