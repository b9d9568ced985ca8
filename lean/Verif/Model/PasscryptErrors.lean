import Verif.Model.Messages

/-
What the exceptions of `Passcrypt` tell about the inputs that were refused.
Modelled: `Metadata` and `PasscryptIssue` of /repo/aiootp/_exceptions.py,
`validate_inputs` of keygens/passcrypt/config.py and `in_allowed_ranges` of
keygens/passcrypt/hash_format.py.
-/

namespace Aiootp.Messages

/-- A value that is given to the API: its class, whether that class is
`bytes`, its length if it has one, and its content, which is secret.
Simplification: objects whose `__len__` raises are not modelled.
Models the values of aiootp/keygens/passcrypt/config.py:343-348. -/
inductive PyVal where
  | bytes (content : List UInt8)
  | other (clss : Text) (size : Option Nat) (content : List UInt8)

/-- `Metadata`: whether the type is `bytes` and the size.
Models aiootp/_exceptions.py:80-82. -/
structure Meta where
  isBytes : Bool
  size : Option Nat
  deriving DecidableEq

/-- `Metadata.__init__`.
Models aiootp/_exceptions.py:80-82. -/
def PyVal.metadata : PyVal → Meta
  | .bytes b => ⟨true, some b.length⟩
  | .other _ n _ => ⟨false, n⟩

/-- An exception as the caller gets it: its class, its message and the
attributes that are set.
Models aiootp/_exceptions.py:838-848, 949-963. -/
structure Exc where
  kind : String
  message : Text
  missing : Option Int := none
  deriving DecidableEq

/-- The limits of `passcrypt_spec`.
Models aiootp/keygens/passcrypt/config.py:285-305. -/
structure Limits where
  minPassphrase : Nat
  minSalt : Nat
  maxSalt : Nat

/-- The end of the template after the placeholder.
Models aiootp/_exceptions.py:775-784. -/
def passphraseHelp : Text :=
  (" more characters " ++
    "need to be added. \nTry using aiootp.mnemonic, it can help in " ++
    "generating a strong passphrase.\n" ++
    " _____________________________________\n" ++
    "|                                     |\n" ++
    "|            Usage Example:           |\n" ++
    "|_____________________________________|\n\n" ++
    "my_new_passphrase = b'-'.join(aiootp.mnemonic())\n\n" ++
    "print(my_new_passphrase)\n" ++
    "b'review-letter-blast-giant-connect-ring-balcony-frown'").toList

/-- The text of `repr(bytes)`.
Models the argument of aiootp/_exceptions.py:843. -/
def bytesClass : Text := "<class 'bytes'>".toList

/-- `PasscryptIssue.improper_passphrase`.  `bytes` always have a size.
Models aiootp/_exceptions.py:838-848. -/
def improperPassphrase (c : Limits) (m : Meta) : Exc :=
  if m.isBytes then
    let missing : Int := (c.minPassphrase : Int) - (m.size.getD 0 : Nat)
    { kind := "ImproperPassphrase"
      message := sub ("The given passphrase is too short, at least NEED".toList ++ passphraseHelp)
        "NEED".toList (intText missing)
      missing := some missing }
  else { kind := "TypeError", message := mustBeType "'`passphrase`'".toList bytesClass }

/-- `PasscryptIssue.improper_salt`.
Models aiootp/_exceptions.py:786-788, 850-863. -/
def improperSalt (c : Limits) (m : Meta) : Exc :=
  if m.isBytes then
    let a := sub "len(salt) must be >= MIN_SALT_SIZE and <= MAX_SALT_SIZE".toList
      "MIN_SALT_SIZE".toList (intText c.minSalt)
    { kind := "ValueError", message := sub a "MAX_SALT_SIZE".toList (intText c.maxSalt) }
  else { kind := "TypeError", message := mustBeType "'`salt`'".toList bytesClass }

/-- `PasscryptIssue.improper_aad`.
Models aiootp/_exceptions.py:865-867. -/
def improperAad : Exc := { kind := "TypeError", message := mustBeType "'`aad`'".toList bytesClass }

/-- `is_passphrase`.
Models aiootp/keygens/passcrypt/config.py:285-292. -/
def isPassphrase (c : Limits) : PyVal → Bool
  | .bytes b => decide (c.minPassphrase ≤ b.length)
  | .other .. => false

/-- `is_salt`.
Models aiootp/keygens/passcrypt/config.py:294-299. -/
def isSalt (c : Limits) : PyVal → Bool
  | .bytes b => decide (c.minSalt ≤ b.length) && decide (b.length < c.maxSalt + 1)
  | .other .. => false

/-- `is_aad`.
Models aiootp/keygens/passcrypt/config.py:301-305. -/
def isAad : PyVal → Bool
  | .bytes _ => true
  | .other .. => false

/-- `validate_inputs`: the exception, if one is raised.
Models aiootp/keygens/passcrypt/config.py:343-358. -/
def validateInputs (c : Limits) (passphrase salt aad : PyVal) : Option Exc :=
  if !isPassphrase c passphrase then some (improperPassphrase c passphrase.metadata)
  else if !isSalt c salt then some (improperSalt c salt.metadata)
  else if !isAad aad then some improperAad
  else none

/-- The `ResourceWarning` as the caller gets it.
Models aiootp/_exceptions.py:955-963. -/
structure Danger where
  parameter : String
  value : Nat
  mb : Nat
  cpu : Nat
  cores : Nat
  deriving DecidableEq

/-- `untrusted_resource_consumption`: `header[parameter]`.
Models aiootp/_exceptions.py:949-963 (without the message). -/
def untrusted (parameter : String) (mb cpu cores : Nat) : Danger :=
  { parameter
    value := if parameter = "mb" then mb else if parameter = "cpu" then cpu else cores
    mb, cpu, cores }

/-- `in_allowed_ranges`: the exception, if one is raised.
Models aiootp/keygens/passcrypt/hash_format.py:187-193. -/
def allowedResources (mb cpu cores : Nat) (mbOk cpuOk coresOk : Nat → Bool) : Option Danger :=
  if !mbOk mb then some (untrusted "mb" mb cpu cores)
  else if !cpuOk cpu then some (untrusted "cpu" mb cpu cores)
  else if !coresOk cores then some (untrusted "cores" mb cpu cores)
  else none

end Aiootp.Messages
