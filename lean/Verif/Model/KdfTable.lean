import Verif.Model.Metadata

/-
The `ShakeConfig` objects that cipher configs are given: `prepare_factory`, the table `KDF_CONFIGS` and the KDFs that a cipher keys.
`aiootp/ciphers/cipher_kdfs.py`, `aiootp/ciphers/shake_permute_cipher_config.py`, `aiootp/ciphers/dual_output_shake_cipher_config.py`,
`aiootp/ciphers/shake_permute_cipher.py`, `aiootp/ciphers/dual_output_shake_cipher.py`.

Simplifications: a `ShakeConfig` is known by a number; the attribute `factory` is represented by the bytes that its hash objects begin with; the
names of roles are not `self` or `mapping`, which are parameters of `NamespaceMapping`.
-/

namespace Aiootp.KdfTable

/-- cipher_kdfs.py:29-82: the `ShakeConfig` objects. `seed` is what the attribute `factory` has been made of, `none` before it is set. -/
structure Heap where
  kdf : Nat → Metadata.Kdf
  blocksize : Nat → Nat
  seed : Nat → Option Bytes

/-- cipher_kdfs.py:84-102 `prepare_factory`. The attribute can be set once (typed_slots.py:211-218). -/
def Heap.prepare (shake : Bytes → Nat → Bytes) (h : Heap) (configId metadata : Bytes) (i : Nat) : Except Err Heap := do
  let s ← Domains.encodeConstant shake (.str ((h.kdf i).name ++ "_salt")) (2 * h.blocksize i) configId metadata
  if (h.seed i).isSome then .error .permission else .ok { h with seed := fun j => if j = i then some s else h.seed j }

/-- shake_permute_cipher_config.py:333-343, dual_output_shake_cipher_config.py:411-421 `_prepare_kdf_factories`. What has been set before an exception
remains. -/
def Heap.prepareAll (shake : Bytes → Nat → Bytes) (configId metadata : Bytes) : Heap → List Nat → Heap × Except Err Unit
  | h, [] => (h, .ok ())
  | h, i :: is =>
    match h.prepare shake configId metadata i with
    | .error e => (h, .error e)
    | .ok h' => prepareAll shake configId metadata h' is

/-- Assignment to a key of a dict: a key that is there keeps its place. -/
def put (t : List (String × Nat)) (e : String × Nat) : List (String × Nat) :=
  if e.1 ∈ t.map Prod.fst then t.map fun f => if f.1 = e.1 then e else f else t ++ [e]

/-- shake_permute_cipher_config.py:201-203, dual_output_shake_cipher_config.py:238-242: the dict `KDF_CONFIGS`. -/
def table (roles : List (String × Nat)) : List (String × Nat) := roles.foldl put []

/-- shake_permute_cipher_config.py:147-194, dual_output_shake_cipher_config.py:176-231: what a config is given, as far as KDFs are concerned. `roles` are the
names and KDFs `shmac_kdf`, `left_kdf`, `right_kdf` (only the first for `ShakePermuteCipherConfig`), `metadata` the result of
`_construct_metadata_constant`, `checks` that of `_perform_correctness_checks` and `_ensure_all_attributes_have_been_defined`. -/
structure Given where
  configId : Bytes
  metadata : Except Err Bytes
  blockId : Nat
  roles : List (String × Nat)
  checks : Except Err Unit

/-- The attributes of a config that was made. -/
structure Made where
  configId : Bytes
  metadata : Bytes
  blockId : Nat
  table : List (String × Nat)

/-- shake_permute_cipher_config.py:345-355, 192-194, dual_output_shake_cipher_config.py:423-434, 229-231: the order of the steps. -/
def make (shake : Bytes → Nat → Bytes) (h : Heap) (g : Given) : Heap × Except Err Made :=
  match g.metadata with
  | .error e => (h, .error e)
  | .ok m =>
    match h.prepareAll shake g.configId m (g.blockId :: (table g.roles).map Prod.snd) with
    | (h', .error e) => (h', .error e)
    | (h', .ok ()) =>
      match g.checks with
      | .error e => (h', .error e)
      | .ok () => (h', .ok ⟨g.configId, m, g.blockId, table g.roles⟩)

/-- Configs are made one after the other. The results, with what was given. -/
def history (shake : Bytes → Nat → Bytes) : Heap → List Given → Heap × List (Given × Except Err Made)
  | h, [] => (h, [])
  | h, g :: gs =>
    let (h', r) := make shake h g
    let (h'', rs) := history shake h' gs
    (h'', (g, r) :: rs)

/-- cipher_kdfs.py:153-157 `key_base_kdf` with 112-119: the KDF that is looked up, and what its hash object begins with. -/
def Heap.key (h : Heap) (c : Made) (name : String) : Except Err (Nat × Bytes) :=
  match c.table.lookup name with
  | none => .error .key
  | some i =>
    match h.seed i with
    | none => .error .attribute
    | some s => .ok (i, s)

/-- dual_output_shake_cipher.py:51-59 `DualOutputKDFs.__init__`, with the names of chunky_2048_config.py:32-34. The check of the key is left out. -/
def Heap.dualKdfs (h : Heap) (c : Made) : Except Err (List (Nat × Bytes)) := do
  let shmac ← h.key c "shmac_kdf"
  let left ← h.key c "left_kdf"
  let right ← h.key c "right_kdf"
  .ok [shmac, left, right]

/-- shake_permute_cipher.py:49-55 `ShakePermuteKDFs.__init__`, with the name of slick_256_config.py:32. -/
def Heap.permuteKdfs (h : Heap) (c : Made) : Except Err (List (Nat × Bytes)) := do
  let shmac ← h.key c "shmac_kdf"
  .ok [shmac]

end Aiootp.KdfTable
