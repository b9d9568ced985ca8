import Verif.Model.DomainKdf
import Verif.Model.Text
import Verif.Model.WordList2048

/-
`aiootp/keygens/mnemonics.py`. The asynchronous versions are the same apart from `await`.
-/

namespace Aiootp.Mnemonic

open Kdf

/-- The hash functions and the constants of generics/domains.py that are used. -/
structure Env where
  shake128 : Hasher
  shake256 : Hasher
  /-- the salt of the class `DomainKDF` -/
  salt : Bytes
  /-- `Domains.KDF` -/
  kdfDomain : Bytes
  /-- `Domains.PRNG` -/
  prng : Bytes
  /-- `Domains.MNEMONIC` -/
  mnemonic : Bytes

/-- mnemonics.py:68-74: the bytes that select. -/
def Env.stream (E : Env) (total size : Nat) (domain key : Bytes) : Except Err Bytes := do
  let totalBytes ← toBytesBE 8 total
  let sizeBytes ← toBytesBE 8 size
  let payload ← initialPayload E.shake128 E.salt E.kdfDomain domain [totalBytes, sizeBytes] key
  runKdf E.shake128 E.shake256 payload [] (some (16 * size)) E.prng

/-- mnemonics.py:76: `choices[int.from_bytes(index, BIG) % total_choices]`. -/
def pick {α} (choices : List α) (index : Bytes) : Except Err α :=
  if choices.length = 0 then .error .zeroDivision
  else match choices[fromBE index % choices.length]? with
    | some x => .ok x
    | none => .error .index

/-- mnemonics.py:56-76 `keyed_choices`, all of its values, for a non-negative `selection_size`. -/
def Env.keyedChoices {α} (E : Env) (choices : List α) (size : Nat) (domain key : Bytes) : Except Err (List α) := do
  let stream ← E.stream choices.length size domain key
  (Text.batch 16 stream).mapM (pick choices)

/-- What `mnemonic` is given besides the passphrase: the salt and the words may be absent, `settings` says if there are keyword arguments for passcrypt. -/
structure Args where
  size : Nat := 8
  salt : Option Bytes := none
  words : Option (List Bytes) := none
  settings : Bool := false

/-- mnemonics.py:127-134: the key. `passcrypt` is `Passcrypt(**passcrypt_settings, tag_size=64).new` (Model/Passcrypt.lean), `random` is the result of `csprng()`. -/
def mnemonicKey (passcrypt : Bytes → Bytes → Except Err Bytes) (random salt : Bytes) (passphrase : Option Bytes) (settings : Bool) : Except Err Bytes :=
  match passphrase with
  | some (b :: bs) => passcrypt (b :: bs) salt
  | _ => if settings then .error .value else .ok random

/-- mnemonics.py:109-135 `mnemonic`. The default `blocksize` and `pad` of `canonical_pack` are 1 and a zero byte. -/
def Env.newMnemonic (E : Env) (passcrypt : Bytes → Bytes → Except Err Bytes) (random : Bytes) (passphrase : Option Bytes) (a : Args) : Except Err (List Bytes) := do
  let words := match a.words with
    | none => wordList
    | some [] => wordList
    | some l => l
  let salt ← Canon.canonicalPack [a.salt.getD [], E.mnemonic] 1 [0] 8
  let key ← mnemonicKey passcrypt random salt passphrase a.settings
  E.keyedChoices words a.size E.mnemonic key

end Aiootp.Mnemonic
