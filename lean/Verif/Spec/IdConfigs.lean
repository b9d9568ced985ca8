import Verif.Model.IdConfigs

/-
What a user who registers a configuration for guids or sequence ids relies on.
-/

namespace Aiootp.Ids

open Perm

/-- The registries hold only configurations that their constructors have accepted. -/
structure Registries.Accepted (R : Registries) : Prop where
  raw : ∀ id c, R.raw id = some c → ∃ t p n k s, RawConfig.new t p n k s = .ok c
  chain : ∀ id c, R.chain id = some c → ∃ size hash, AffineConfig.new size hash = .ok c

/-- How many of the calls have read a time that fits. -/
def countedCalls (timestampBytes : Nat) (calls : List (Nat × Bytes)) : Nat :=
  (calls.filter (fun c => decide (c.1 < 256 ^ timestampBytes))).length

/-- Every object of the configuration makes, at every point of its history, guids of the configured size, and reads from them what went in. -/
def GuidsReadBack (R : Registries) (config : GuidConfig) : Prop :=
  ∀ (key : Option Bytes) (nodeId : Bytes) (g : CustomGuid), CustomGuid.init R config key nodeId = .ok g →
    ∀ (calls : List (Nat × Bytes)) (time : Nat) (token : Bytes),
      time < 256 ^ g.raw.config.timestampBytes → token.length = g.raw.config.prfBytes →
      ∃ guid, ((g.after calls).make time token).2 = .ok guid ∧ guid.length = config.size ∧
        g.read guid = .ok {
          timestamp := beDigits g.raw.config.timestampBytes time, token, nodeId
          ticker := beDigits g.raw.config.tickerBytes
            ((countedCalls g.raw.config.timestampBytes calls + 1) % 256 ^ g.raw.config.tickerBytes) }

/-- Every object of the configuration makes sequence ids of the configured size, and reads from them the index. -/
def SidsReadBack (R : Registries) (config : SidConfig) : Prop :=
  ∀ (key : Bytes) (c : Chain), config.init R key = .ok c → ∀ value < 256 ^ config.size,
    ∃ sid, config.make c value = some (.ok sid) ∧ sid.length = config.size ∧ sidRead c sid = some value

/-- The documented use of `raw_guid_config_id`: the raw guids are made by the configuration of that id. -/
def RawConfigIdUsed : Prop :=
  ∀ (R : Registries) (config : GuidConfig) (key : Option Bytes) (nodeId : Bytes) (g : CustomGuid), R.Accepted →
    CustomGuid.init R config key nodeId = .ok g → R.raw config.rawId = some g.raw.config

/-- The default key of a configuration that could be made fits its own permutation. -/
def DefaultKeysFit : Prop :=
  ∀ (R : Registries) (hash : ConfigId → Nat → Bytes) (id : ConfigId) (size : Nat) (rawId permutationId : Option ConfigId)
    (config : GuidConfig) (nodeId : Bytes) (raw : RawConfig), R.Accepted → (∀ i n, (hash i n).length = n) →
    GuidConfig.new R hash id size rawId permutationId = .ok config → R.raw id = some raw → nodeId.length = raw.nodeIdBytes →
    (R.chain config.permutationId).isSome → ∃ g, CustomGuid.init R config none nodeId = .ok g

end Aiootp.Ids
