import Verif.Model.Py

/-
`aiootp/databases/sync_database.py` and `database_properties.py`: one database object and the directory it works on.

Parameters (`Env`): the names and keys that a database derives from its key, its root salt and a tag (`_root_kdf`, dbkdf.py:32-39);
the cipher (`Chunky2048`, see `Model/Cipher`); JSON. The props `C46` and `C41` tie the parameters to the models of these parts.

Simplifications:
- `_root_salt` is not stored apart from the manifest, which holds its text form; the two agree from `_load_manifest` on.
- the manifest is a structure with the root salt (record "0"), the metatags (record "1") and the file names; that no file name is "0" or
  "1" is an assumption. `Model/DatabaseManifest.lean` has the dictionary and its text.
- values are immutable: a list that the user changes after having stored it is a new `set`.
- file system calls do not fail, apart from the reading and unlinking of missing files.
-/

namespace Aiootp.Database

/-! ### dictionaries -/

/-- `Namespace.__dict__` (commons/namespaces.py:63, slots.py:217-247) in order of insertion. -/
abbrev Dict (α : Type) := List (String × α)

/-- `getattr(namespace, name)` and `name in namespace`: slots.py:167-173, 229-236. -/
def Dict.get {α : Type} : Dict α → String → Option α
  | [], _ => none
  | (k, v) :: d, name => if k = name then some v else Dict.get d name

/-- `setattr(namespace, name, value)`: slots.py:217-227. An existing name keeps its place. -/
def Dict.set {α : Type} : Dict α → String → α → Dict α
  | [], name, value => [(name, value)]
  | (k, v) :: d, name, value => if k = name then (k, value) :: d else (k, v) :: Dict.set d name value

/-- `del namespace[name]`: slots.py:238-245. -/
def Dict.del {α : Type} : Dict α → String → Dict α
  | [], _ => []
  | (k, v) :: d, name => if k = name then Dict.del d name else (k, v) :: Dict.del d name

/-! ### the parts of a database -/

/-- A value of a tag: `bytes`, or what JSON can represent. -/
inductive Value (J : Type) where
  | bytes (b : Bytes)
  | json (j : J)
  deriving DecidableEq

/-- sync_database.py:252-264: the manifest. -/
structure Manifest where
  salt : Bytes
  metatags : List String
  files : Dict String
  deriving DecidableEq

/-- The derivations, the cipher and JSON. `ρ` is the randomness that one encryption draws. -/
structure Env (ρ J : Type) where
  /-- database_properties.py:74-82 `_root_filename` -/
  rootName : (key : Bytes) → String
  /-- sync_database.py:212-215: the key of the manifest -/
  manifestKey : (key : Bytes) → Bytes
  /-- sync_database.py:316-326 `filename` -/
  fileName : (key salt : Bytes) → (tag : String) → String
  /-- sync_database.py:339-345: the key of a file -/
  fileKey : (key salt : Bytes) → (filename : String) → Bytes
  /-- sync_database.py:595-603 `_metatag_key` -/
  metaKey : (key salt : Bytes) → (tag : String) → Bytes
  /-- `_Cipher(key).bytes_encrypt(plaintext)` -/
  encrypt : (key : Bytes) → ρ → Bytes → Bytes
  /-- `_Cipher(key).bytes_decrypt(ciphertext, ttl=ttl)`, at some time -/
  decrypt : (key : Bytes) → (now : Int) → (ttl : Option Int) → Bytes → Except Err Bytes
  /-- `json.dumps(value).encode()` -/
  dumps : J → Except Err Bytes
  /-- `json.loads` -/
  loads : Bytes → Except Err J
  /-- `json.dumps(manifest).encode()` -/
  dumpManifest : Manifest → Bytes
  /-- `json.loads`, and the reading of the records "0" and "1" (sync_database.py:218-224, 243-250) -/
  loadManifest : Bytes → Except Err Manifest

/-- A database object without its metatags: sync_database.py:180-187. -/
structure Node (J : Type) where
  key : Bytes
  man : Manifest
  cache : Dict (Value J)

/-- The files of the directory. -/
abbrev Disk := String → Option Bytes

/-- A change of the directory. -/
inductive Write where
  | put (name : String) (data : Bytes)
  | unlink (name : String)
  deriving DecidableEq

def Disk.apply (disk : Disk) : Write → Disk
  | .put name data => fun n => if n = name then some data else disk n
  | .unlink name => fun n => if n = name then none else disk n

def Disk.applyAll (disk : Disk) (ws : List Write) : Disk := ws.foldl Disk.apply disk

variable {ρ J : Type} (E : Env ρ J)

/-- sync_database.py:316-326 `filename`, database_properties.py:130-140 `_filename`. -/
def Node.filename (n : Node J) (tag : String) : String := E.fileName n.key n.man.salt tag

/-- `BYTES_FLAG`: _constants/misc.py:28. -/
def bytesFlag : Bytes := [1, 2]

/-- sync_database.py:735-738: the plaintext of a file. -/
def encodeValue : Value J → Except Err Bytes
  | .bytes b => .ok (bytesFlag ++ b)
  | .json j => E.dumps j

/-- sync_database.py:522-525. -/
def decodeValue (text : Bytes) : Except Err (Value J) :=
  if text.take 2 = bytesFlag then .ok (.bytes (text.drop 2))
  else do
    let j ← E.loads text
    .ok (.json j)

/-! ### operations on the tags -/

/-- sync_database.py:729-740 `_save_file`. -/
def Node.saveFile (n : Node J) (filename : String) (r : ρ) : Except Err Write :=
  match n.cache.get filename with
  | none => .error .attribute
  | some v => do
    let text ← encodeValue E v
    .ok (.put filename (E.encrypt (E.fileKey n.key n.man.salt filename) r text))

/-- sync_database.py:757-776 `save_tag`. The cache is dropped in `finally`, also if an exception is raised. -/
def Node.saveTag (n : Node J) (tag : String) (dropCache : Bool) (r : ρ) : Except Err Unit × Node J × List Write :=
  let filename := n.filename E tag
  let n' := if dropCache then { n with cache := n.cache.del filename } else n
  match n.saveFile E filename r with
  | .ok w => (.ok (), n', [w])
  | .error .attribute => (.error .key, n', [])
  | .error e => (.error e, n', [])

/-- sync_database.py:467-483 `set_tag`; with `cache`, also database_properties.py:164-171 `__setitem__`. -/
def Node.setTag (n : Node J) (tag : String) (data : Value J) (cache : Bool) (r : ρ) : Except Err Unit × Node J × List Write :=
  let filename := n.filename E tag
  let n := { n with cache := n.cache.set filename data, man := { n.man with files := n.man.files.set filename tag } }
  if cache then (.ok (), n, []) else n.saveTag E tag true r

/-- sync_database.py:502-528 `query_tag`, with 485-500 `_query_ciphertext`. -/
def Node.queryTag (n : Node J) (disk : Disk) (tag : String) (ttl : Option Int) (silent cache : Bool) (now : Int) :
    Except Err (Option (Value J)) × Node J :=
  let filename := n.filename E tag
  match n.cache.get filename with
  | some v => (.ok (some v), n)
  | none =>
    match disk filename with
    | none => (if silent then .ok none else .error .key, n)
    | some [] => (.ok none, n)
    | some (c :: cs) =>
      match (do let text ← E.decrypt (E.fileKey n.key n.man.salt filename) now ttl (c :: cs); decodeValue E text) with
      | .error e => (.error e, n)
      | .ok v => (.ok (some v), if cache then { n with cache := n.cache.set filename v } else n)

/-- The deletion of the records and the file of a tag: sync_database.py:557-562, database_properties.py:182-193 `__delitem__`. -/
def Node.forget (n : Node J) (tag : String) : Node J :=
  let filename := n.filename E tag
  { n with cache := n.cache.del filename, man := { n.man with files := n.man.files.del filename } }

/-- sync_database.py:540-565 `pop_tag`. -/
def Node.popTag (n : Node J) (disk : Disk) (tag : String) (silent : Bool) (now : Int) :
    Except Err (Option (Value J)) × Node J × List Write :=
  let filename := n.filename E tag
  match (n.queryTag E disk tag none true false now).1 with
  | .error e => (.error e, n, [])
  | .ok value =>
    let failed := (n.man.files.get filename).isNone && (n.cache.get filename).isNone && (disk filename).isNone
    (if failed && !silent then .error .key else .ok value, n.forget E tag, [.unlink filename])

/-- sync_database.py:567-582 `rollback_tag`. The query in the end ignores a `LookupError`. -/
def Node.rollbackTag (n : Node J) (disk : Disk) (tag : String) (cache : Bool) (now : Int) : Except Err Unit × Node J :=
  let filename := n.filename E tag
  let files := if (disk filename).isNone then n.man.files.del filename else n.man.files
  let n := { n with cache := n.cache.del filename, man := { n.man with files := files } }
  if cache then
    match n.queryTag E disk tag none false true now with
    | (.ok _, n) => (.ok (), n)
    | (.error .key, n) => (.ok (), n)
    | (.error e, n) => (.error e, n)
  else (.ok (), n)

/-- sync_database.py:584-593 `clear_cache` of one database. -/
def Node.clearCache (n : Node J) : Node J := { n with cache := [] }

/-! ### saving and opening -/

/-- sync_database.py:701-727 `_close_manifest`. -/
def Node.manifestWrite (n : Node J) (r : ρ) : Write := .put (E.rootName n.key) (E.encrypt (E.manifestKey n.key) r (E.dumpManifest n.man))

/-- sync_database.py:742-748 `_save_tags`: the files are written in the order of the cache until one fails. `rs` gives the randomness
of the encryption of each file. -/
def Node.saveTags (n : Node J) (rs : String → ρ) : Dict (Value J) → Except Err Unit × List Write
  | [] => (.ok (), [])
  | (filename, _) :: rest =>
    match n.saveFile E filename (rs filename) with
    | .error e => (.error e, [])
    | .ok w =>
      let r := Node.saveTags n rs rest
      (r.1, w :: r.2)

/-- sync_database.py:778-785 `save_database` of a database without metatags. -/
def Node.save (n : Node J) (rs : String → ρ) : Except Err Unit × List Write :=
  let r := n.saveTags E rs n.cache
  (r.1, n.manifestWrite E (rs (E.rootName n.key)) :: r.2)

/-- sync_database.py:252-264 `_load_manifest`, with 207-216 `_open_manifest`. `salt` is the random new salt of a new database. -/
def openManifest (disk : Disk) (key salt : Bytes) (now : Int) : Except Err Manifest :=
  match disk (E.rootName key) with
  | none => .ok ⟨salt, [], []⟩
  | some ciphertext => do
    let text ← E.decrypt (E.manifestKey key) now none ciphertext
    E.loadManifest text

/-- sync_database.py:147-187 `__init__` of a database without metatags, without preloading; dbkdf.py:37-38. -/
def openNode (disk : Disk) (key salt : Bytes) (now : Int) : Except Err (Node J) := do
  raiseIf (key.length < 64) .value
  let man ← openManifest E disk key salt now
  .ok ⟨key, man, []⟩

/-- sync_database.py:266-273 `load_tags`. The tags are a Python set, whose order is unspecified; here it is the order of the
manifest. -/
def Node.loadTags (disk : Disk) (silent : Bool) (now : Int) : List String → Node J → Except Err Unit × Node J
  | [], n => (.ok (), n)
  | tag :: tags, n =>
    match n.queryTag E disk tag none silent true now with
    | (.ok _, n) => Node.loadTags disk silent now tags n
    | (.error e, n) => (.error e, n)

/-! ### views -/

/-- database_properties.py:101-112 `tags`. -/
def Node.tags (n : Node J) : List String := n.man.files.map (·.2)

/-- database_properties.py:142-148 `__contains__`. -/
def Node.contains (n : Node J) (tag : String) : Bool :=
  (n.man.files.get (n.filename E tag)).isSome || (n.cache.get (n.filename E tag)).isSome

/-- database_properties.py:158-162 `__len__`. -/
def Node.len (n : Node J) : Nat := n.man.files.length

/-- database_properties.py:173-180 `__getitem__`. -/
def Node.getItem (n : Node J) (tag : String) : Option (Value J) := n.cache.get (n.filename E tag)

/-! ### histories -/

/-- The calls on one database object, with the randomness, the clock and the arguments of each. -/
inductive Op (ρ J : Type) where
  | set (tag : String) (data : Value J) (cache : Bool) (r : ρ)
  | query (tag : String) (ttl : Option Int) (silent cache : Bool) (now : Int)
  | pop (tag : String) (silent : Bool) (now : Int)
  | delItem (tag : String)
  | rollback (tag : String) (cache : Bool) (now : Int)
  | clearCache
  | saveTag (tag : String) (dropCache : Bool) (r : ρ)
  | save (rs : String → ρ)
  | loadTags (silent : Bool) (now : Int)

/-- One call: what it returns (`none` also for calls that return the database), the object and the changes of the directory. -/
def Op.run (n : Node J) (disk : Disk) : Op ρ J → Except Err (Option (Value J)) × Node J × List Write
  | .set tag data cache r =>
    let x := n.setTag E tag data cache r
    (x.1.map (fun _ => none), x.2)
  | .query tag ttl silent cache now =>
    let x := n.queryTag E disk tag ttl silent cache now
    (x.1, x.2, [])
  | .pop tag silent now => n.popTag E disk tag silent now
  | .delItem tag => (.ok none, n.forget E tag, [.unlink (n.filename E tag)])
  | .rollback tag cache now =>
    let x := n.rollbackTag E disk tag cache now
    (x.1.map (fun _ => none), x.2, [])
  | .clearCache => (.ok none, n.clearCache, [])
  | .saveTag tag dropCache r =>
    let x := n.saveTag E tag dropCache r
    (x.1.map (fun _ => none), x.2)
  | .save rs =>
    let x := n.save E rs
    (x.1.map (fun _ => none), n, x.2)
  | .loadTags silent now =>
    let x := n.loadTags E disk silent now n.tags
    (x.1.map (fun _ => none), x.2, [])

/-- A database object and the directory. -/
structure Sys (J : Type) where
  node : Node J
  disk : Disk

def Sys.step (s : Sys J) (op : Op ρ J) : Sys J :=
  let x := op.run E s.node s.disk
  ⟨x.2.1, s.disk.applyAll x.2.2⟩

def Sys.run (s : Sys J) : List (Op ρ J) → Sys J
  | [] => s
  | op :: ops => Sys.run (s.step E op) ops

end Aiootp.Database
