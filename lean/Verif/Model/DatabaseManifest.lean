import Verif.Model.Json
import Verif.Model.DatabaseKdf

/-
The text of the manifest of a database: `json` of the `__dict__` of a `Namespace` with the root salt under "0", the metatags under "1" and the
tags under the names of their files.
-/

namespace Aiootp.Database

open Json (Code Val Vals Items)

variable {F : Type}

/-- The characters of a `str` without surrogates. -/
def codes (s : String) : List Code := s.toList.map fun c => Json.chr c.toNat

/-- The `str` with these characters. One with surrogates is not modelled. -/
def ofCodes : List Code → Except Err String
  | s => if s.all fun c => decide (c.val.isValidChar) then .ok (String.ofList (s.map fun c => Char.ofNat c.val)) else .error .value

/-- A list of `str`. -/
def strs : List String → Vals F
  | [] => .nil
  | s :: rest => .cons (.str (codes s)) (strs rest)

/-- The records of files: the tags under the file names. -/
def fileItems : Dict String → Items F
  | [] => .nil
  | (name, tag) :: rest => .cons (.str (codes name)) (.str (codes tag)) (fileItems rest)

/-- The `__dict__` of the manifest: sync_database.py:236-250, 252-264, database_properties.py:61-62. -/
def manifestValue (man : Manifest) : Val F :=
  .dict (.cons (.str (codes "0")) (.str ((Text.bytesToUrlsafe man.salt).map fun b => Json.chr b.toNat))
    (.cons (.str (codes "1")) (.list (strs man.metatags)) (fileItems man.files)))

/-- sync_database.py:701-710 `_encrypt_manifest`, cipher_interface.py:398: the plaintext. -/
def dumpManifestJson (E : Json.Env F) (man : Manifest) : Bytes := orElse (Json.dumps E (manifestValue man)) []

/-- `mapping[name]` -/
def itemOf (name : List Code) : Items F → Option (Val F)
  | .nil => none
  | .cons (.str k) v items => if k = name then some v else itemOf name items
  | .cons _ _ items => itemOf name items

/-- A list of `str`; others are not modelled. -/
def readStrs : Vals F → Except Err (List String)
  | .nil => .ok []
  | .cons (.str s) rest => do
    let s ← ofCodes s
    let l ← readStrs rest
    return s :: l
  | _ => .error .type

/-- The records that are not "0" and "1": database_properties.py:94-125. Values that are no `str` are not modelled. -/
def readFiles : Items F → Except Err (Dict String)
  | .nil => .ok []
  | .cons (.str k) v items =>
    if k = codes "0" ∨ k = codes "1" then readFiles items
    else match v with
      | .str tag => do
        let k ← ofCodes k
        let tag ← ofCodes tag
        let d ← readFiles items
        return (k, tag) :: d
      | _ => .error .type
  | _ => .error .type

/-- The bytes of an ASCII `str`; others are refused by `urlsafe_to_bytes` or read as if the other characters were not there, which is not
modelled. -/
def asciiBytes (s : List Code) : Except Err Bytes :=
  if s.all fun c => decide (c.val < 128) then .ok (s.map fun c => UInt8.ofNat c.val) else .error .value

/-- sync_database.py:207-224, 243-262 `_open_manifest`, `_load_root_salt`, `_initialize_metatags`: the manifest that a text has. -/
def loadManifestJson (E : Json.Env F) (text : Bytes) : Except Err Manifest := do
  match ← Json.loads E text with
  | .dict items =>
    let salt ← match itemOf (codes "0") items with
      | some (.str s) => do
        let b ← asciiBytes s
        Text.urlsafeToBytes b
      | some _ => .error .type
      | none => .error .attribute
    let metatags ← match itemOf (codes "1") items with
      | some (.list l) => readStrs l
      | some _ => .error .type
      | none => .ok []
    let files ← readFiles items
    return ⟨salt, metatags, files⟩
  | _ => .error .type

/-- The environment of `Database`, with the cipher `Chunky2048` and `json`. -/
def jsonEnv (K : KdfEnv) (X : Cipher.DualEnv) (E : Json.Env F) : Env Cipher.Draws (Val F) :=
  realEnv K X (Json.dumps E) (Json.loads E) (dumpManifestJson E) (loadManifestJson E)

end Aiootp.Database
