import Mathlib.Data.Rat.Defs
import Mathlib.Data.Fintype.Prod
import Verif.Model.DatabaseKdf
import Verif.Spec.RandomHash

/-
Someone who sees all that happens to the directory of a database.
-/

namespace Aiootp.Database

variable {ρ J : Type}

/-- A call on a database object: one that concerns the tags, or `save_database`, with what is drawn for the files, in their order. -/
inductive Call (ρ J : Type) where
  | tags (op : Op ρ J)
  | save (ds : Nat → ρ)

/-- The call as the model has it: the manifest is the first file, then those of the cache, sync_database.py:742-748, 778-785. -/
def Call.op (E : Env ρ J) (n : Node J) : Call ρ J → Op ρ J
  | .tags op => op
  | .save ds => .save fun name => ds ((E.rootName n.key :: n.cache.map (·.1)).idxOf name)

/-- Someone who chooses each call when they have seen what the calls before did to the directory: which files were written or deleted, in which order, and what is in them. -/
abbrev Author (ρ J : Type) := List (List Write) → Call ρ J

/-- What `n` calls do to the directory. -/
def watch (E : Env ρ J) (f : Author ρ J) : (n : Nat) → Node J → Disk → (seen : List (List Write)) → List (List Write)
  | 0, _, _, seen => seen
  | n + 1, node, disk, seen =>
    let x := ((f seen).op E node).run E node disk
    watch E f n x.2.1 (disk.applyAll x.2.2) (seen ++ [x.2.2])

/-- Values that can be stored, and have plaintexts of the same size. -/
def SameSize (E : Env ρ J) (v v' : Value J) : Prop := ∃ text text', encodeValue E v = .ok text ∧ decodeValue E text = .ok v ∧ encodeValue E v' = .ok text' ∧
  decodeValue E text' = .ok v' ∧ text.length = text'.length

/-- Calls with other tags and values, and nothing else. All tags are among `tags`. -/
def Op.Alike (E : Env ρ J) (tags : Finset String) (σ : String → String) : Op ρ J → Op ρ J → Prop
  | .set t v cache r, .set t' v' cache' r' => t' = σ t ∧ t ∈ tags ∧ SameSize E v v' ∧ cache' = cache ∧ r' = r
  | .query t ttl silent cache now, .query t' ttl' silent' cache' now' => t' = σ t ∧ t ∈ tags ∧ ttl' = ttl ∧ silent' = silent ∧ cache' = cache ∧ now' = now
  | .pop t silent now, .pop t' silent' now' => t' = σ t ∧ t ∈ tags ∧ silent' = silent ∧ now' = now
  | .delItem t, .delItem t' => t' = σ t ∧ t ∈ tags
  | .rollback t cache now, .rollback t' cache' now' => t' = σ t ∧ t ∈ tags ∧ cache' = cache ∧ now' = now
  | .clearCache, .clearCache => True
  | .saveTag t drop r, .saveTag t' drop' r' => t' = σ t ∧ t ∈ tags ∧ drop' = drop ∧ r' = r
  | .loadTags silent now, .loadTags silent' now' => silent' = silent ∧ now' = now
  | _, _ => False

def Call.Alike (E : Env ρ J) (tags : Finset String) (σ : String → String) : Call ρ J → Call ρ J → Prop
  | .tags op, .tags op' => op.Alike E tags σ op'
  | .save ds, .save ds' => ds' = ds
  | _, _ => False

/-- What is drawn for a call, if at most `k` tags are in the cache. -/
def Call.draws (k : Nat) : Call ρ J → ρ → Prop
  | .tags (.set _ _ _ r), d => d = r
  | .tags (.saveTag _ _ r), d => d = r
  | .tags _, _ => False
  | .save ds, d => ∃ i ≤ k, d = ds i

/-- What is drawn for `n` calls has the right sizes, and no salt is drawn twice together with the same iv. -/
structure Author.Fresh (c : Cipher.Sizes) (k n : Nat) (f : Author Cipher.Draws J) : Prop where
  fit : ∀ seen i d, (f seen).draws i d → d.Fit c
  once : ∀ seen more d d', more ≠ [] → (seen ++ more).length < n → (f seen).draws k d → (f (seen ++ more)).draws k d' → ¬ (d.salt = d'.salt ∧ d.iv = d'.iv)
  apart : ∀ seen ds, f seen = .save ds → ∀ i ≤ k, ∀ j ≤ k, i ≠ j → ¬ ((ds i).salt = (ds j).salt ∧ (ds i).iv = (ds j).iv)

/-- A new database, and the empty directory. -/
def newNode (key salt : Bytes) : Node J := ⟨key, ⟨salt, [], []⟩, []⟩

def noFiles : Disk := fun _ => none

/-- Manifests have the same sizes with the other tags. -/
def ManifestSizes (dump : Manifest → Bytes) (tags : Finset String) (σ : String → String) : Prop :=
  ∀ m : Manifest, (∀ p ∈ m.files, p.2 ∈ tags) → (dump { m with files := m.files.map fun p => (p.1, σ p.2) }).length = (dump m).length

/-! ### the hash function of the names and keys -/

/-- The derivations with another function for `shake_128`. -/
def KdfEnv.rehash (K : KdfEnv) (x : Xof) : KdfEnv := { K with shake128 := { K.shake128 with digest := x.digest } }

/-- What is hashed for the first digest that is made of the key: domain_kdf.py:60-82. -/
def KdfEnv.first (K : KdfEnv) (key : Bytes) : Except Err Bytes :=
  Canon.hashBytesInput [K.kdfDomain, K.dom.rootKdf] K.shake128.blockSize K.shake128.digestSize [0] (some K.shake128.blockSize) (some (key ++ K.dom.rootKdf))

/-- How many of the pairs of hash functions have the property, of all: the first is for the names and keys, the second for the cipher. -/
noncomputable def chance {B D : Finset Bytes} {L N : Nat} (P : Secrecy.Hash B L → Secrecy.Hash D N → Prop) : ℚ := by
  classical exact ((Finset.univ.filter fun p : Secrecy.Hash B L × Secrecy.Hash D N => P p.1 p.2).card : ℚ) / (Secrecy.total B L * Secrecy.total D N : ℕ)

end Aiootp.Database
