import Verif.Model.Passcrypt
import Verif.Spec.Collision

/-!
What `passcrypt_spec` guarantees, and the format of passcrypt hashes, stated without the functions that read and write it.
-/

namespace Aiootp.Passcrypt

/-- The limits of a config fit the sizes of its fields. -/
structure Config.WF (c : Config) : Prop where
  mb : 1 ≤ c.minMb ∧ c.maxMb ≤ 256 ^ c.mbBytes
  cpu : 1 ≤ c.minCpu ∧ c.maxCpu ≤ 256 ^ c.cpuBytes
  cores : 1 ≤ c.minCores ∧ c.maxCores ≤ 256 ^ c.coresBytes
  salt : 1 ≤ c.minSaltSize ∧ c.maxSaltSize ≤ 256 ^ c.saltSizeBytes
  tag : 1 ≤ c.minTagSize

theorem spec_wf (packedMetadata : Bytes) : (spec packedMetadata).WF := by
  constructor <;> simp [spec]

/-- Settings, salt and tag are within the limits. -/
structure Hash.Valid (c : Config) (h : Hash) : Prop where
  mb : c.minMb ≤ h.mb ∧ h.mb ≤ c.maxMb
  cpu : c.minCpu ≤ h.cpu ∧ h.cpu ≤ c.maxCpu
  cores : c.minCores ≤ h.cores ∧ h.cores ≤ c.maxCores
  tag : c.minTagSize ≤ h.tag.length
  salt : c.minSaltSize ≤ h.salt.length ∧ h.salt.length ≤ c.maxSaltSize

/-- The bytes of a hash: the timestamp, then mb, cpu, cores and the size of the salt, each less one and big-endian in as many bytes as the config
says, then the salt and the tag. -/
def Layout (c : Config) (h : Hash) (b : Bytes) : Prop :=
  ∃ mb cpu cores size : Bytes,
    b = h.timestamp ++ mb ++ cpu ++ cores ++ size ++ h.salt ++ h.tag ∧
    (mb.length = c.mbBytes ∧ fromBE mb + 1 = h.mb) ∧ (cpu.length = c.cpuBytes ∧ fromBE cpu + 1 = h.cpu) ∧
    (cores.length = c.coresBytes ∧ fromBE cores + 1 = h.cores) ∧ (size.length = c.saltSizeBytes ∧ fromBE size + 1 = h.salt.length)

/-- A session hashes `x`, and uses `n` bytes of the digest: the message of its parameters, and all that was absorbed when the result is made. (The digests that fill the
memory are left out.) -/
inductive SessionHashes (E : Env) (c : Config) (s : Session) : Nat → Bytes → Prop
  | parameters {m : Bytes} : parametersMessage E c s = .ok m → SessionHashes E c s 336 m
  | result {p q : Proof} : prepare E c s = .ok p → workMemoryProver E.xof s.cpu (rowSize c s.cpu) (totalSize c s.mb s.cpu) p = .ok q → SessionHashes E c s 168 q.absorbed

/-- The sessions of a call hash `x`, or the call hashes it for the tag. -/
inductive Hashes (E : Env) (c : Config) (sessions : List Session) (tagSize : Nat) : Nat → Bytes → Prop
  | session {s : Session} {n : Nat} {x : Bytes} : s ∈ sessions → SessionHashes E c s n x → Hashes E c sessions tagSize n x
  | tag {results : List Bytes} {m : Bytes} : sessions.mapM (passcrypt E c) = .ok results → tagMessage results tagSize = .ok m → Hashes E c sessions tagSize tagSize m

/-- Something that one call hashes, and something that the other hashes, are a collision. -/
def CollideIn (X : Xof) (hashes hashes' : Nat → Bytes → Prop) : Prop := ∃ n x y, hashes n x ∧ hashes' n y ∧ Collide (X.digest · n) x y

end Aiootp.Passcrypt
