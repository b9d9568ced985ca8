import Verif.Model.Keys

/-
`aiootp/keygens/package_signer.py` and `aiootp/keygens/package_verifier.py`. The signature scheme is a `Curve` (Model/Keys.lean), `hash` is SHA-384 and `dumps`
is `json.dumps(...).encode()`.
-/

namespace Aiootp.Package

open Keys

/-- A JSON value: a string, an object (a `dict`, in insertion order), or anything else. -/
inductive Json where
  | str (s : String)
  | obj (items : List (String × Json))
  | other (id : Nat)

/-- A `dict` with string keys, in insertion order. -/
abbrev Dict (α : Type) := List (String × α)

/-- `d[key] = value`: a key that is present stays where it is. -/
def Dict.set {α} (d : Dict α) (key : String) (value : α) : Dict α :=
  match d with
  | [] => [(key, value)]
  | (k, v) :: rest => if k = key then (k, value) :: rest else (k, v) :: Dict.set rest key value

/-- `d.update(items)`. -/
def Dict.update {α} (d : Dict α) (items : Dict α) : Dict α := items.foldl (fun d item => d.set item.1 item.2) d

/-- The rest of the `dict` after `d.pop(key)`. -/
def Dict.without {α} (d : Dict α) (key : String) : Dict α := d.filter fun item => item.1 ≠ key

/-- `d[key]`, `KeyError` if it is absent. -/
def Dict.get {α} (d : Dict α) (key : String) : Except Err α :=
  match d.lookup key with
  | some v => .ok v
  | none => .error .key

/-- `dict(sorted(d.items()))`: the keys are different from each other, so that the values are never compared. -/
def Dict.sorted {α} (d : Dict α) : Dict α := d.mergeSort fun a b => decide (a.1 ≤ b.1)

/-! ### hexadecimal -/

/-- The digit of a value below 16. -/
def hexDigit (n : Nat) : Char := (['0', '1', '2', '3', '4', '5', '6', '7', '8', '9', 'a', 'b', 'c', 'd', 'e', 'f'])[n]?.getD 'f'

/-- The value of a digit, in upper or lower case. -/
def hexValue (c : Char) : Option Nat :=
  if '0' ≤ c ∧ c ≤ '9' then some (c.toNat - 48)
  else if 'a' ≤ c ∧ c ≤ 'f' then some (c.toNat - 87)
  else if 'A' ≤ c ∧ c ≤ 'F' then some (c.toNat - 55)
  else none

/-- `bytes.hex`. -/
def hexChars : Bytes → List Char
  | [] => []
  | b :: bs => hexDigit (b.toNat / 16) :: hexDigit (b.toNat % 16) :: hexChars bs

/-- `bytes.hex`. -/
def hex (b : Bytes) : String := String.ofList (hexChars b)

/-- `bytes.fromhex` skips ASCII white space between bytes. -/
def isSpace (c : Char) : Bool := c = ' ' || c = '\t' || c = '\n' || c = '\r' || c.toNat = 11 || c.toNat = 12

/-- `bytes.fromhex`, CPython 3: `ValueError` for anything else. -/
def fromHexChars : List Char → Except Err Bytes
  | [] => .ok []
  | [c] => if isSpace c then .ok [] else .error .value
  | c :: d :: rest =>
    if isSpace c then fromHexChars (d :: rest)
    else match hexValue c, hexValue d with
      | some h, some l => do
        let bs ← fromHexChars rest
        .ok (UInt8.ofNat (16 * h + l) :: bs)
      | _, _ => .error .value

/-- `bytes.fromhex` of a JSON value: `TypeError` if it is not a string. -/
def fromHex : Json → Except Err Bytes
  | .str s => fromHexChars s.toList
  | _ => .error .type

/-! ### the verifier -/

/-- What signer and verifier share: package_signer.py:111, 236, package_verifier.py:58, 100. -/
structure Env where
  hash : Bytes → Bytes
  dumps : Dict Json → Bytes

/-- package_verifier.py:124-129: one file. -/
def checkFile (E : Env) (read : String → Except Err Bytes) (file : String) (purported : Json) : Except Err Unit := do
  let digest ← fromHex purported
  let data ← read file
  raiseIf (digest ≠ E.hash data) .invalidDigest

/-- package_verifier.py:117-129 `_verify_file_checksums`. `read` is what `Path(path / file_path).read_bytes()` returns. -/
def checkFiles (E : Env) (read : String → Except Err Bytes) : Dict Json → Except Err Unit
  | [] => .ok ()
  | (file, purported) :: rest => do
    checkFile E read file purported
    checkFiles E read rest

/-- `.items()` of a JSON value: `AttributeError` if it is not a `dict`. -/
def itemsOf : Json → Except Err (Dict Json)
  | .obj items => .ok items
  | _ => .error .attribute

/-- package_verifier.py:102-115 `_import_summary`: the checksum and the signature. -/
def importSummary (E : Env) (summary : Dict Json) : Except Err (Bytes × Bytes) := do
  let checksum ← summary.get "checksum"
  let checksum ← fromHex checksum
  let signature ← (summary.without "checksum").get "signature"
  let signature ← fromHex signature
  raiseIf (E.hash (E.dumps ((summary.without "checksum").without "signature")) ≠ checksum) .value
  .ok (checksum, signature)

/-- package_verifier.py:131-147 `verify_summary`, for a `dict`. `key` is the public key of the verifier; `read` is `none` for `verify_files=False`. -/
def verifySummary {Sk Pk : Type} (E : Env) (C : Curve Sk Pk) (key : Pk) (read : Option (String → Except Err Bytes)) (summary : Dict Json) : Except Err Unit := do
  let purported ← summary.get "signing_key"
  let purported ← fromHex purported
  raiseIf (purported ≠ C.rawPublic key) .value
  let (checksum, signature) ← importSummary E summary
  match read with
  | some read => do
    let files ← summary.get "checksums"
    let files ← itemsOf files
    checkFiles E read files
  | none => .ok ()
  raiseIf (C.verify key signature checksum = false) .invalidSignature

/-! ### the signer -/

/-- package_signer.py:127-137 `_database_template`: what the database holds for a package. The signing key is stored as a token of the database (Model/Token.lean); `none`
is the empty string. -/
structure Entry (Sk : Type) where
  key : Option Sk := none
  versions : Dict Json := []
  credentials : Dict Json := []

/-- package_signer.py:108 a `PackageSigner`. `db` is the cache of the connected database. -/
structure Signer (Sk : Type) where
  scope : Dict Json
  files : Dict Json := []
  db : Option (Dict (Entry Sk)) := none

/-- Names that an `OpenNamespace` does not let be set: commons/slots.py:84-90, 218-226; `object.__setattr__` raises `TypeError` for the last two.
(Names that hide what the namespace itself uses, as `_slots_set`, are treated as ordinary names; see Model/Slots.lean.) -/
def settable (name : String) : Except Err Unit := do
  raiseIf (name = "keys" ∨ name = "values" ∨ name = "items" ∨ name = "update" ∨ name = "clear") .permission
  raiseIf (name = "__class__" ∨ name = "__dict__") .type

namespace Signer
variable {Sk Pk : Type} (E : Env) (C : Curve Sk Pk) (s : Signer Sk)

/-- `self._scope.package` and `self._scope.version`. Other types than `str` are not modelled. -/
def scopeName (name : String) : Except Err String := do
  match s.scope.lookup name with
  | some (.str x) => .ok x
  | some _ => .error .type
  | none => .error .attribute

/-- package_signer.py:196-205 `db`. -/
def connected : Except Err (Dict (Entry Sk)) :=
  match s.db with
  | some db => .ok db
  | none => .error .databaseNotConnected

/-- `self.db[package]`. -/
def entry : Except Err (Entry Sk) := do
  let db ← s.connected
  let package ← s.scopeName "package"
  db.get package

/-- package_signer.py:179-194 `signing_key`: `KeyError`s become `SigningKeyNotSet`. -/
def signingKey : Except Err Sk := do
  let db ← s.connected
  let package ← s.scopeName "package"
  match (db.lookup package).bind (·.key) with
  | some k => .ok k
  | none => .error .signingKeyNotSet

/-- package_signer.py:207-229 `_checksums`, `_summary`. -/
def summary : Except Err (Dict Json) := do
  let e ← s.entry
  let key ← s.signingKey
  .ok [("checksums", .obj s.files.sorted), ("public_credentials", .obj e.credentials.sorted), ("scope", .obj s.scope.sorted),
    ("signing_key", .str (hex (C.rawPublic (C.publicOf key))))]

/-- package_signer.py:231-236 `_checksum`. -/
def checksum : Except Err Bytes := do
  let d ← s.summary C
  .ok (E.hash (E.dumps d))

/-- package_signer.py:238-247 `_signature`: `KeyError`s become `PackageNotSigned`. -/
def signature : Except Err Bytes := do
  let db ← s.connected
  let package ← s.scopeName "package"
  let version ← s.scopeName "version"
  match (db.lookup package).bind (·.versions.lookup version) with
  | some x => fromHex x
  | none => .error .packageNotSigned

/-- package_signer.py:249-278 `connect_to_secure_database`, for the contents of the opened database. -/
def connect (stored : Dict (Entry Sk)) : Except Err (Signer Sk) := do
  let package ← s.scopeName "package"
  .ok { s with db := some (match stored.lookup package with
    | some _ => stored
    | none => stored.set package {}) }

/-- package_signer.py:280-286 `update_scope`, for one name. -/
def updateScope (name : String) (value : Json) : Except Err (Signer Sk) := do
  settable name
  .ok { s with scope := s.scope.set name value }

/-- Changes what is stored for the package. -/
def change (f : Entry Sk → Entry Sk) : Except Err (Signer Sk) := do
  let db ← s.connected
  let package ← s.scopeName "package"
  let e ← db.get package
  .ok { s with db := some (db.set package (f e)) }

/-- package_signer.py:288-299 `update_public_credentials`. -/
def updateCredentials (items : Dict Json) : Except Err (Signer Sk) := s.change fun e => { e with credentials := e.credentials.update items }

/-- package_signer.py:301-316 `update_signing_key`. -/
def updateKey (key : Given Sk) : Except Err (Signer Sk) := do
  let k ← C.processSecret key
  s.change fun e => { e with key := some k }

/-- package_signer.py:318-324 `add_file`. -/
def addFile (name : String) (data : Bytes) : Except Err (Signer Sk) := do
  settable name
  .ok { s with files := s.files.set name (.str (hex (E.hash data))) }

/-- package_signer.py:326-338 `sign_package`. -/
def signPackage : Except Err (Signer Sk) := do
  let c ← s.checksum E C
  let version ← s.scopeName "version"
  let key ← s.signingKey
  s.change fun e => { e with versions := e.versions.set version (.str (hex (C.sign key c))) }

/-- package_signer.py:340-358 `summarize`. -/
def summarize : Except Err (Dict Json) := do
  let c ← s.checksum E C
  let sig ← s.signature
  let key ← s.signingKey
  raiseIf (C.verify (C.publicOf key) sig c = false) .value
  let d ← s.summary C
  .ok (("checksum", .str (hex c)) :: d ++ [("signature", .str (hex sig))])

end Signer

end Aiootp.Package
