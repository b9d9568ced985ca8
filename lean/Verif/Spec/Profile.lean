import Verif.Model.Profile
import Verif.Spec.Passcrypt

/-
What a login hashes.
-/

namespace Aiootp.Profile

open Canon Passcrypt

/-- The message whose digest is the gist. -/
def gistMessage (E : Env) (device : Bytes) (l : Login) : Except Err Bytes :=
  hashBytesInput ([E.gist, device, l.salt, l.aad, l.username] ++ l.credentials) 72 64 [0] none (some device)

/-- The message whose digest is given to passcrypt as the passphrase. -/
def prekeyMessage (E : Env) (l : Login) (gist salt : Bytes) : Except Err Bytes := hashBytesInput [E.prekey, salt, gist] 72 64 [0] none (some l.passphrase)

/-- The sessions of passcrypt. -/
def loginSessions (E : Env) (l : Login) (prekey salt : Bytes) : Except Err (List Session) :=
  spawn (spec E.metadata) (E.sha512 prekey) salt E.loginKey E.pepper l.mb l.cpu l.cores 64

/-- What a login hashes: the message `gist` after the salt of the device was read, the message `prekey` after the salt of the profile was read, and what the sessions of passcrypt hash. -/
structure LoginHashes (E : Env) (d : Disk) (l : Login) (deviceDraw profileDraw gist prekey : Bytes) (sessions : List Session) : Prop where
  first : ∃ name device dir, summonSalt E d.admin E.deviceSalt deviceDraw = .ok (name, device, dir) ∧ gistMessage E device l = .ok gist
  second : ∃ name salt dir, summonSalt E d.salts (E.sha512 gist) profileDraw = .ok (name, salt, dir) ∧ prekeyMessage E l (E.sha512 gist) salt = .ok prekey ∧
    loginSessions E l prekey salt = .ok sessions

/-- Two logins show a collision: their two gists, their two prekeys, or something that passcrypt hashes for each of them. -/
def LoginsCollide (E : Env) (d : Disk) (l : Login) (a b : Bytes) (d' : Disk) (l' : Login) (a' b' : Bytes) : Prop :=
  ∃ gist prekey sessions gist' prekey' sessions', LoginHashes E d l a b gist prekey sessions ∧ LoginHashes E d' l' a' b' gist' prekey' sessions' ∧
    (Collide E.sha512 gist gist' ∨ Collide E.sha512 prekey prekey' ∨
      CollideIn E.passcrypt.xof (Hashes E.passcrypt (spec E.metadata) sessions 64) (Hashes E.passcrypt (spec E.metadata) sessions' 64))

end Aiootp.Profile
