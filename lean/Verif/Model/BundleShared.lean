import Verif.Model.Bundle

/-
`aiootp/ciphers/key_bundle.py`, `stream_hmac.py` and `stream_junction.py`: one key bundle, with the stream-hmacs made from it, that
coroutines and threads share. A coroutine runs from one `await` to the next without interruption; a thread may be interrupted
between any two accesses to the shared objects. The cryptographic values are left out, as in `Bundle`.
-/

namespace Aiootp.BundleShared

open Cipher

/-- Where a call is. `waiting`: a coroutine that waits before it makes the call (shake_permute_cipher.py:92-98 `async_mode`, or its own
`await`). The others are the next access of a thread; see `step`. -/
inductive Phase where
  | waiting
  | first
  | second
  | store
  | third
  | fourth
  | done (result : Except Err Unit)
  deriving DecidableEq, Repr

/-- The next access to the shared objects. -/
def step (b : Bundle) : BundleCall → Phase → Phase × Bundle
  -- all of the call, in one go
  | call, .waiting => (.done (b.exec call).1, (b.exec call).2)
  -- key_bundle.py:241-242: is a stream-hmac registered?
  | .junction i _ _, .first => match b.shmacs[i]? with
    | none => (.done (.error .attribute), b)
    | some _ => if b.registered.isSome then (.done (.error .permission), b) else (.second, b)
  -- key_bundle.py:106, commons/slots.py:365-378: `FrozenSlots` asks again
  | .junction _ _ _, .second => if b.registered.isSome then (.done (.error .permission), b) else (.store, b)
  -- commons/slots.py:365-378: and assigns
  | .junction i _ _, .store => (.third, { b with registered := some i })
  -- stream_junction.py:61-62, 92-93, 118-119, 144-145
  | .junction i d _, .third => if b.shmacs[i]? ≠ some (some d) then (.done (.error .value), b) else (.fourth, b)
  -- stream_junction.py:63-65, 94-96, 120-122, 146-148
  | .junction _ _ m, .fourth => if b.mode ≠ some m then (.done (.error .value), b) else (.done (.ok ()), b)
  -- stream_hmac.py:125-126, 141-142
  | .direct i _, .first => match b.shmacs[i]? with
    | none => (.done (.error .attribute), b)
    | some (some _) => (.done (.error .permission), b)
    | some none => (.second, b)
  -- stream_hmac.py:127-128, 143-144
  | .direct _ d, .second => if b.ivGiven = (d == .encryption) then (.done (.error .shmacMisuse), b) else (.store, b)
  -- stream_hmac.py:129, 145
  | .direct i d, .store => (.done (.ok ()), { b with shmacs := b.shmacs.set i (some d) })
  -- key_bundle.py:148-158, commons/slots.py:365-378
  | .setMode _, .first => if b.mode.isSome then (.done (.error .permission), b) else (.store, b)
  | .setMode m, .store => (.done (.ok ()), { b with mode := some m })
  -- stream_hmac.py:59-86
  | .newShmac, .first => match b.mode with
    | none => (.done (.error .modeNotDeclared), b)
    | some _ => (.store, b)
  | .newShmac, .store => (.done (.ok ()), { b with shmacs := b.shmacs ++ [none] })
  | _, p => (p, b)

/-- A call that was begun (key_bundle.py:167-300). -/
structure Entry where
  call : BundleCall
  phase : Phase
  deriving DecidableEq, Repr

/-- The shared bundle, and all calls so far in the order in which they were begun (key_bundle.py:167-300). -/
structure Sys where
  bundle : Bundle
  calls : List Entry
  deriving DecidableEq, Repr

/-- What happens next: a coroutine makes a call, or begins one that waits first; a thread begins a call; call `i` goes on. -/
inductive Action where
  | now (call : BundleCall)
  | wait (call : BundleCall)
  | thread (call : BundleCall)
  | go (i : Nat)
  deriving DecidableEq, Repr

/-- One action (key_bundle.py:167-300). -/
def Sys.act (s : Sys) : Action → Sys
  | .now call => ⟨(s.bundle.exec call).2, s.calls ++ [⟨call, .done (s.bundle.exec call).1⟩]⟩
  | .wait call => ⟨s.bundle, s.calls ++ [⟨call, .waiting⟩]⟩
  | .thread call => ⟨s.bundle, s.calls ++ [⟨call, .first⟩]⟩
  | .go i => match s.calls[i]? with
    | none => s
    | some e => ⟨(step s.bundle e.call e.phase).2, s.calls.set i ⟨e.call, (step s.bundle e.call e.phase).1⟩⟩

/-- Any sequence of actions (key_bundle.py:167-300). -/
def Sys.run (s : Sys) : List Action → Sys
  | [] => s
  | a :: rest => (s.act a).run rest

/-- A new bundle (key_bundle.py:187-215). -/
def fresh (ivGiven : Bool) : Sys := ⟨Bundle.fresh ivGiven, []⟩

end Aiootp.BundleShared
