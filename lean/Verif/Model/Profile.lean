import Verif.Model.Passcrypt
import Verif.Model.Text

/-
User profiles: `aiootp/databases/profile_tokens.py`, `generate_profile` and `delete_database` of `aiootp/databases/sync_database.py`, and the salt files of
`aiootp/_paths.py`. The async versions differ in `await`s only.

Simplifications: calls follow each other (concurrent calls on one salt file are modelled in Model/Salt.lean), and the file system works. Of a database only
matters whether its root file exists (what is kept under a key is modelled in Model/Database.lean). The directory `path` is one and the same for all calls.
-/

namespace Aiootp.Profile

open Canon

/-- The name of a file, as code points. -/
abbrev Name := List Nat

/-- The hash functions and constants: `DBDomains` (dbdomains.py:43-49), `PACKED_METADATA` and `PEPPER` of passcrypt; `root` is the name of the root file of the
database with a key. -/
structure Env where
  sha512 : Bytes → Bytes
  length_sha512 : ∀ m, (sha512 m).length = 64
  sha256 : Bytes → Bytes
  length_sha256 : ∀ m, (sha256 m).length = 32
  passcrypt : Passcrypt.Env
  metadata : Bytes
  pepper : Bytes
  gist : Bytes
  prekey : Bytes
  loginKey : Bytes
  deviceSalt : Bytes
  root : Bytes → Name

/-- generics/transform.py:144-152 `xi_mix`. -/
def xiMix (hash : Bytes) (size : Nat) : Except Err Bytes :=
  toBytesBE size ((Text.batch size hash).foldl (fun result chunk => result ^^^ fromBE chunk) 0)

/-- A call that may loop for ever. -/
def returned {α : Type} : Text.Outcome α → Except Err α
  | .ok a => .ok a
  | .error e => .error e
  | .diverges => .error .diverges

/-- _paths.py:123-134 `deniable_filename` with `size` 8. `FILENAME_HASH_SLICE` takes 24 bytes (_constants/misc.py:31, 253). -/
def deniableFilename (E : Env) (key : Bytes) : Except Err Name := do
  raiseIf (¬ 2 * 8 ≤ key.length) .value
  let mixed ← xiMix key 8
  returned (Text.bytesToFilename ((E.sha256 mixed).take 24))

/-- The salt files of a directory. -/
abbrev Dir := Name → Option Bytes

/-- A write to a file. -/
def Dir.set (dir : Dir) (name : Name) (content : Option Bytes) : Dir := fun n => if n = name then content else dir n

/-- _paths.py:317-343 `SecureSaltPath` and 205-224 `read_salt_file`: the path, the salt, and the directory afterwards. `draw` is `token_bytes(32)`. -/
def summonSalt (E : Env) (dir : Dir) (key draw : Bytes) : Except Err (Name × Bytes × Dir) := do
  let name ← deniableFilename E key
  match dir name with
  | none => .ok (name, draw, dir.set name (some draw))
  | some salt =>
    raiseIf (¬ 32 ≤ salt.length) .value
    .ok (name, salt, dir)

/-- The arguments of `generate_profile` (sync_database.py:93-110). -/
structure Login where
  credentials : List Bytes
  username : Bytes
  passphrase : Bytes
  salt : Bytes
  aad : Bytes
  mb : Nat
  cpu : Nat
  cores : Nat
  deriving DecidableEq, Repr

/-- profile_tokens.py:228-238: the gist of the credentials. -/
def gistOf (E : Env) (device : Bytes) (l : Login) : Except Err Bytes := do
  let message ← hashBytesInput ([E.gist, device, l.salt, l.aad, l.username] ++ l.credentials) 72 64 [0] none (some device)
  .ok (E.sha512 message)

/-- profile_tokens.py:193-210 `_generate_profile_login_key`. `MIN_KEY_BYTES` is 64. The default salt size of a `Passcrypt` object is 8. -/
def loginKey (E : Env) (l : Login) (gist salt : Bytes) : Except Err Bytes := do
  (Passcrypt.spec E.metadata).validateSettings l.mb l.cpu l.cores 64 8
  let message ← hashBytesInput [E.prekey, salt, gist] 72 64 [0] none (some l.passphrase)
  Passcrypt.new E.passcrypt (Passcrypt.spec E.metadata) ⟨l.mb, l.cpu, l.cores, 64, 8, E.pepper⟩ (E.sha512 message) salt E.loginKey

/-- The files. -/
structure Disk where
  /-- the salts of the directory `_admin` -/
  admin : Dir
  /-- the salts of the profiles -/
  salts : Dir
  /-- the root files of databases -/
  roots : Name → Bool

/-- What `generate_profile` returns: the key of the database and the path of the salt; `created` tells that there was no database with this key. -/
structure Opened where
  key : Bytes
  saltPath : Name
  created : Bool
  deriving DecidableEq, Repr

/-- sync_database.py:129-145 `generate_profile` and profile_tokens.py:212-244 `generate`: the result, and the files afterwards. The draws are those of the device
salt and of the profile salt. -/
def openProfile (E : Env) (d : Disk) (l : Login) (deviceDraw profileDraw : Bytes) : Except Err Opened × Disk :=
  match summonSalt E d.admin E.deviceSalt deviceDraw with
  | .error e => (.error e, d)
  | .ok (_, device, admin) =>
    let d := { d with admin := admin }
    match gistOf E device l with
    | .error e => (.error e, d)
    | .ok gist =>
      match summonSalt E d.salts gist profileDraw with
      | .error e => (.error e, d)
      | .ok (path, salt, salts) =>
        let d := { d with salts := salts }
        match loginKey E l gist salt with
        | .error e => (.error e, d)
        | .ok key => (.ok ⟨key, path, !d.roots (E.root key)⟩, { d with roots := fun n => if n = E.root key then true else d.roots n })

/-- sync_database.py:678-699 `delete_database` of an opened profile. -/
def deleteProfile (E : Env) (d : Disk) (o : Opened) : Disk :=
  { d with salts := d.salts.set o.saltPath none, roots := fun n => if n = E.root o.key then false else d.roots n }

/-- What users of one directory do. -/
inductive Event where
  | login (l : Login) (deviceDraw profileDraw : Bytes)
  | delete (o : Opened)

/-- One event. -/
def step (E : Env) (d : Disk) : Event → Disk
  | .login l deviceDraw profileDraw => (openProfile E d l deviceDraw profileDraw).2
  | .delete o => deleteProfile E d o

/-- A history. -/
def run (E : Env) (d : Disk) (events : List Event) : Disk := events.foldl (step E) d

end Aiootp.Profile
