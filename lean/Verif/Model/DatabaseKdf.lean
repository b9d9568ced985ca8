import Verif.Model.DomainKdf
import Verif.Model.Text
import Verif.Model.Cipher
import Verif.Model.DatabaseTree

/-
`aiootp/databases/`: the names, keys and ciphertexts of databases. The hash functions are parameters; what they absorb is modelled
(Model/Canon.lean, Model/DomainKdf.lean).
-/

namespace Aiootp.Database

open Kdf

/-- `str.encode()`. Lean strings are sequences of Unicode scalar values; a Python `str` with lone surrogates raises. -/
def utf8 (s : String) : Bytes := s.toUTF8.data.toList

/-- dbdomains.py:38-50: the constants that are used here. -/
structure DBDomains where
  rootKdf : Bytes
  rootFilename : Bytes
  manifest : Bytes
  filename : Bytes
  metatagKey : Bytes
  cipher : Bytes

/-- dbkdf.py:26: the hash functions and the constants of `DBKDF`. -/
structure KdfEnv where
  shake128 : Hasher
  sha3_512 : Hasher
  /-- the salt of the class `DBKDF` -/
  salt : Bytes
  /-- `Domains.KDF` -/
  kdfDomain : Bytes
  dom : DBDomains

namespace KdfEnv
variable (K : KdfEnv)

/-- sync_database.py:200-205 `_initialize_keys`, dbkdf.py:32-39: what the root kdf has absorbed. -/
def root (key : Bytes) : Except Err Bytes := do
  raiseIf (key.length < 64) .value
  initialPayload K.shake128 K.salt K.kdfDomain K.dom.rootKdf [] key

/-- database_properties.py:74-82 `_root_filename`, before the encoding. -/
def rootFilename (root : Bytes) : Except Err Bytes := runKdf K.shake128 K.shake128 root [] (some 24) K.dom.rootFilename

/-- sync_database.py:212-215, 706-709. `SHAKE_128_BLOCKSIZE` is 168. -/
def manifestKey (root : Bytes) : Except Err Bytes := runKdf K.shake128 K.shake128 root [] (some 168) K.dom.manifest

/-- sync_database.py:316-326 `filename`, before the encoding. -/
def filename (root salt : Bytes) (tag : String) : Except Err Bytes :=
  runKdf K.shake128 K.shake128 root [salt, utf8 tag] (some 24) K.dom.filename

/-- sync_database.py:339-345, 360-366, 381-387, 404-410, 427-433, 450-456. -/
def cipherKey (root salt : Bytes) (filename : String) (aad : Bytes) : Except Err Bytes :=
  runKdf K.shake128 K.shake128 root [K.dom.cipher, salt, utf8 filename] (some 64) aad

/-- sync_database.py:595-603 `_metatag_key`. -/
def metatagKey (root salt : Bytes) (tag : String) : Except Err Bytes :=
  runKdf K.shake128 K.sha3_512 root [salt, utf8 tag] none K.dom.metatagKey

end KdfEnv

/-- The names and keys of a database object. -/
structure Keys where
  root : Bytes
  salt : Bytes

/-- sync_database.py:328-346 `bytes_encrypt`, with the cipher `Chunky2048`. -/
def bytesEncrypt (K : KdfEnv) (X : Cipher.DualEnv) (k : Keys) (d : Cipher.Draws) (plaintext : Bytes) (filename : String) (aad : Bytes) : Except Err Bytes := do
  let key ← K.cipherKey k.root k.salt filename aad
  (Cipher.dualCipher X).bytesEncrypt key d none [] plaintext

/-- sync_database.py:390-411 `bytes_decrypt`. -/
def bytesDecrypt (K : KdfEnv) (X : Cipher.DualEnv) (k : Keys) (saltDraw : Bytes) (now : Int) (ciphertext : Bytes) (filename : String) (aad : Bytes)
    (ttl : Option Int) : Except Err Bytes := do
  let key ← K.cipherKey k.root k.salt filename aad
  (Cipher.dualCipher X).bytesDecrypt key saltDraw now ttl [] ciphertext

/-! ### the environment of Model/Database.lean -/

/-- What the calls of the code return; inputs of 2^64 bytes and more, for which they raise, are not considered by `Env`. -/
def orElse (x : Except Err Bytes) (other : Bytes) : Bytes :=
  match x with
  | .ok b => b
  | .error _ => other

/-- database_properties.py:66-71 `_encode_filename`. -/
def encodeFilename (value : Bytes) : String :=
  match Text.bytesToFilename value with
  | .ok codes => String.ofList (codes.map Char.ofNat)
  | _ => ""

/-- The environment of `Database`, with its cipher `Chunky2048`; `json` are the functions of the module `json`, and the functions for manifests. -/
def realEnv {J : Type} (K : KdfEnv) (X : Cipher.DualEnv) (dumps : J → Except Err Bytes) (loads : Bytes → Except Err J)
    (dumpManifest : Manifest → Bytes) (loadManifest : Bytes → Except Err Manifest) : Env Cipher.Draws J where
  rootName key := encodeFilename (orElse (K.rootFilename (orElse (K.root key) [])) [])
  manifestKey key := orElse (K.manifestKey (orElse (K.root key) [])) (List.replicate 168 0)
  fileName key salt tag := encodeFilename (orElse (K.filename (orElse (K.root key) []) salt tag) [])
  fileKey key salt name := orElse (K.cipherKey (orElse (K.root key) []) salt name []) (List.replicate 64 0)
  metaKey key salt tag := orElse (K.metatagKey (orElse (K.root key) []) salt tag) (List.replicate 64 0)
  encrypt key d text := orElse ((Cipher.dualCipher X).bytesEncrypt key d none [] text) []
  decrypt key now ttl c := (Cipher.dualCipher X).bytesDecrypt key (List.replicate X.cfg.saltBytes 0) now ttl [] c
  dumps := dumps
  loads := loads
  dumpManifest := dumpManifest
  loadManifest := loadManifest

end Aiootp.Database
