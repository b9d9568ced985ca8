import Verif.Model.Ids

/-
`aiootp/randoms/ids/`: configurations that users register for guids and sequence ids.
-/

namespace Aiootp.Ids

open Perm

/-- The keys of the registries `_configs`: any hashable value. Sizes are used as keys too. -/
inductive ConfigId where
  | int (n : Nat)
  | name (s : String)
  deriving DecidableEq, Repr

/-- `RawGUID._configs` and `FastAffineXORChain._configs` (raw_guid.py:52-64, fast_affine_xor_chain.py:38-53). A chain is built from a permutation of
another registry; one of another size is refused, since the key that it is given does not fit (affine_permutation.py:86-94), so the
configuration of a chain is here the one of its permutation. -/
structure Registries where
  raw : ConfigId → Option RawConfig
  chain : ConfigId → Option AffineConfig

/-- `mapping[config_id]`: `KeyError`. -/
def lookup {α : Type} (m : ConfigId → Option α) (id : ConfigId) : Except Err α :=
  match m id with
  | some x => .ok x
  | none => .error .key

/-- `FastAffineXORChain.key_size(config_id)` (affine_xor_chain.py:95-102, affine_xor_chain_config.py:66-72, 153-155). -/
def chainKeySize (R : Registries) (id : ConfigId) : Except Err Nat := do
  let config ← lookup R.chain id
  return 5 * config.size

/-- aiootp/randoms/ids/guid_config.py:34-128 `GUIDConfig`, for the types `RawGUID` and `FastAffineXORChain`. The default key is made by a hash
of `KEY_SIZE` bytes (75-88). -/
structure GuidConfig where
  configId : ConfigId
  size : Nat
  keySize : Nat
  rawId : ConfigId
  permutationId : ConfigId
  defaultKey : Bytes
  deriving DecidableEq, Repr

/-- guid_config.py:51-88, 98-128 `__init__`. `hash` stands for `hash_bytes` with the salt of the device. -/
def GuidConfig.new (R : Registries) (hash : ConfigId → Nat → Bytes) (configId : ConfigId) (size : Nat) (rawId permutationId : Option ConfigId) :
    Except Err GuidConfig := do
  let keySize ← chainKeySize R (.int size)
  return {
    configId, size, keySize
    rawId := rawId.getD configId
    permutationId := permutationId.getD configId
    defaultKey := hash configId keySize }

/-- A `GUID` object of any configuration. -/
structure CustomGuid where
  config : GuidConfig
  raw : RawGuid
  permutation : Chain
  deriving DecidableEq, Repr

/-- raw_guid.py:66-88 `RawGUID.__init__` with any configuration. -/
def RawGuid.init (R : Registries) (nodeId : Bytes) (configId : ConfigId) : Except Err RawGuid := do
  let config ← lookup R.raw configId
  if nodeId.length ≠ config.nodeIdBytes then throw .value
  return { config, nodeId, tick := 0 }

/-- guid.py:140-162 `GUID.__init__`, for a configuration that is registered under `configId`. The raw guid gets the id of the configuration
itself (guid.py:161). -/
def CustomGuid.init (R : Registries) (config : GuidConfig) (key : Option Bytes) (nodeId : Bytes) : Except Err CustomGuid := do
  let key := if (key.getD []).isEmpty then config.defaultKey else key.getD []
  let raw ← RawGuid.init R nodeId config.configId
  let inner ← lookup R.chain config.permutationId
  let permutation ← Chain.new true inner key
  return { config, raw, permutation }

/-- guid.py:174-181 `new` without interruption: the object afterwards and what is returned. The tick is counted also if the masking raises. -/
def CustomGuid.make (g : CustomGuid) (time : Nat) (token : Bytes) : CustomGuid × Run Bytes :=
  match g.raw.make time token with
  | .error e => (g, .error e)
  | .ok (raw, r) =>
    ({ g with raw := r },
      match g.permutation.permute (fromBE raw) with
      | none => .diverges
      | some v => match toBytesBE g.config.size v with
        | .ok b => .ok b
        | .error e => .error e)

/-- guid.py:196-205 `read`. -/
def CustomGuid.read (g : CustomGuid) (guid : Bytes) : Run Container :=
  if guid.length ≠ g.config.size then .error .value
  else match g.permutation.invert (fromBE guid) with
    | none => .diverges
    | some v => match toBytesBE g.config.size v with
      | .error e => .error e
      | .ok b => match rawRead g.raw.config b with
        | .ok c => .ok c
        | .error e => .error e

/-- A history of calls of `new`; exceptions are caught. -/
def CustomGuid.after (g : CustomGuid) : List (Nat × Bytes) → CustomGuid
  | [] => g
  | (time, token) :: calls => (g.make time token).1.after calls

/-- aiootp/randoms/ids/sequence_id_config.py:26-80 `SequenceIDConfig`, for the type `FastAffineXORChain`. -/
structure SidConfig where
  size : Nat
  keySize : Nat
  permutationId : ConfigId
  deriving DecidableEq, Repr

/-- sequence_id_config.py:40-80 `__init__`. -/
def SidConfig.new (R : Registries) (configId : ConfigId) (size : Nat) (permutationId : Option ConfigId) : Except Err SidConfig := do
  if 4096 ≥ size ∧ size > 0 then
    let keySize ← chainKeySize R (.int size)
    return { size, keySize, permutationId := permutationId.getD configId }
  else throw .value

/-- sequence_id.py:96-106 `SequenceID.__init__`. -/
def SidConfig.init (R : Registries) (config : SidConfig) (key : Bytes) : Except Err Chain := do
  let inner ← lookup R.chain config.permutationId
  Chain.new true inner key

/-- sequence_id.py:115-120 `new` with any configuration. -/
def SidConfig.make (config : SidConfig) (c : Chain) (value : Nat) : Option (Except Err Bytes) := do
  let sid ← c.permute value
  return toBytesBE config.size sid

end Aiootp.Ids
