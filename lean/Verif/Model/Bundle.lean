import Verif.Model.Shmac

/-
`aiootp/ciphers/key_bundle.py` and `stream_junction.py` as a state machine: which calls a key bundle and the stream-hmacs
made from it allow, in which order. The cryptographic values are left out (they are in `Shmac` and `Cipher`).
-/

namespace Aiootp.Cipher

/-- `ASYNC`, `SYNC`. -/
inductive RunMode where
  | sync
  | async
  deriving DecidableEq, Repr

/-- A key bundle with the stream-hmacs made from it, numbered in the order of their creation. `mode` is `_mode._mode`,
`registered` the content of `_registers.shmac`, `shmacs[i]` the `_mode` of stream-hmac number `i`. -/
structure Bundle where
  ivGiven : Bool
  mode : Option RunMode
  registered : Option Nat
  shmacs : List (Option Direction)
  deriving DecidableEq, Repr

/-- A new bundle (key_bundle.py:187-215). -/
def Bundle.fresh (ivGiven : Bool) : Bundle := { ivGiven, mode := none, registered := none, shmacs := [] }

/-- The calls that can be made on a bundle and its stream-hmacs. -/
inductive BundleCall where
  /-- `sync_mode` / `async_mode` -/
  | setMode (m : RunMode)
  /-- `StreamHMAC(bundle)` -/
  | newShmac
  /-- `_for_encryption` / `_for_decryption` of stream-hmac number `i` -/
  | direct (i : Nat) (d : Direction)
  /-- `bytes_encipher`, `abytes_encipher`, `bytes_decipher`, `abytes_decipher` with stream-hmac number `i` -/
  | junction (i : Nat) (d : Direction) (m : RunMode)
  deriving DecidableEq, Repr

/-- key_bundle.py:148-158 with commons/slots.py:365-378 `FrozenSlots`: the mode can be set once
(shake_permute_cipher.py:92-105, dual_output_shake_cipher.py:175-191). -/
def Bundle.setMode (b : Bundle) (m : RunMode) : Except Err Unit × Bundle :=
  match b.mode with
  | some _ => (.error .permission, b)
  | none => (.ok (), { b with mode := some m })

/-- stream_hmac.py:59-86 `__init__`: the mode of the bundle must be set (key_bundle.py:160-164). -/
def Bundle.newShmac (b : Bundle) : Except Err Unit × Bundle :=
  match b.mode with
  | none => (.error .modeNotDeclared, b)
  | some _ => (.ok (), { b with shmacs := b.shmacs ++ [none] })

/-- stream_hmac.py:120-150 `_for_encryption`, `_for_decryption`. `AttributeError` stands for a stream-hmac that does not
exist. -/
def Bundle.direct (b : Bundle) (i : Nat) (d : Direction) : Except Err Unit × Bundle :=
  match b.shmacs[i]? with
  | none => (.error .attribute, b)
  | some (some _) => (.error .permission, b)
  | some none =>
    if b.ivGiven = (d == .encryption) then (.error .shmacMisuse, b)
    else (.ok (), { b with shmacs := b.shmacs.set i (some d) })

/-- stream_junction.py:37-148: the stream-hmac is registered first (key_bundle.py:235-243), then its mode and the
bundle's are checked. -/
def Bundle.junction (b : Bundle) (i : Nat) (d : Direction) (m : RunMode) : Except Err Unit × Bundle :=
  match b.shmacs[i]? with
  | none => (.error .attribute, b)
  | some mode =>
    if b.registered.isSome then (.error .permission, b)
    else
      let b := { b with registered := some i }
      if mode ≠ some d then (.error .value, b)
      else if b.mode ≠ some m then (.error .value, b)
      else (.ok (), b)

/-- One call. -/
def Bundle.exec (b : Bundle) : BundleCall → Except Err Unit × Bundle
  | .setMode m => b.setMode m
  | .newShmac => b.newShmac
  | .direct i d => b.direct i d
  | .junction i d m => b.junction i d m

/-- A sequence of calls with their replies. -/
def Bundle.trace (b : Bundle) : List BundleCall → List (BundleCall × Except Err Unit)
  | [] => []
  | c :: cs => (c, (b.exec c).1) :: Bundle.trace (b.exec c).2 cs

end Aiootp.Cipher
