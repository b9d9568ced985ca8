import Verif.Model.Perm

/-
`aiootp/_permutations/affine_xor_chain.py`: one chain object that several coroutines and threads use at once.

A call is either an asynchronous one (`astep`, `aupdate_increment`, `apermute`, `ainvert`), which runs without interruption from
one `await asleep()` to the next, or a plain one (`step`, `update_increment`, `permute`, `invert`) of some thread, where every
access to an attribute that may change (`_in_key`, `_increment`) is a step of its own. All other attributes are set by
`__init__` alone (affine_xor_chain.py:200-217), so it does not matter when they are read. A plain call that coroutines make is
the case in which its steps follow each other directly. The uncapped versions read no attribute that changes, and are left out.
-/

namespace Aiootp.ChainShared

open Perm

/-- affine_xor_chain.py:219-368: the calls, with their arguments. Negative arguments of `permute` and `invert` are left out. -/
inductive Call where
  | step
  | update (value : Int)
  | permute (value : Nat)
  | invert (value : Nat)
  deriving DecidableEq, Repr

/-- How a call is made: by the asynchronous version, or by the plain one in some thread. -/
inductive Style where
  | awaited
  | plain
  deriving DecidableEq, Repr

/-- How a call ends: with `None`, with a number, with `ValueError`, or cancelled while it waits. -/
inductive Outcome where
  | nothing
  | number (n : Nat)
  | refused
  | cancelled
  deriving DecidableEq, Repr

/-- Where a call is. `begun`: nothing was read yet. `read`: `step` has read `_in_key`. `ready`: `step` or `update_increment`
knows what it will store. `inner`, `middle`, `outer`: the call waits before it uses `_aff_in`, `_aff_mid`, `_aff_out`, with
the number that it will give to it. -/
inductive Phase where
  | begun
  | read (inKey : Nat)
  | ready (new : Nat)
  | inner (value : Nat)
  | middle (value : Nat)
  | outer (value : Nat)
  | done (outcome : Outcome)
  deriving DecidableEq, Repr

/-- Where a call first stops. affine_xor_chain.py:290-296: `apermute` computes the argument `value ^ self._in_key` of the first inner call before
that waits (affine_permutation.py:102); affine_xor_chain.py:345-348 the same for `ainvert` and `_out_key`. affine_xor_chain.py:223, 243: `aupdate_increment` and
`astep` wait first. A plain call has read nothing yet. -/
def start (c : Chain) : Style → Call → Phase
  | .awaited, .permute x => .inner (x ^^^ c.inKey)
  | .awaited, .invert y => .outer (y ^^^ c.outKey)
  | _, _ => .begun

/-- What a call does until it stops again; `none`: it never stops, since a permutation does not end.
affine_xor_chain.py:226-234, 246-254, 284-314, 340-368. -/
def resume (c : Chain) (style : Style) : Call → Phase → Option (Phase × Chain)
  | .step, .begun => match style with
    | .awaited => some (.done .nothing, c.step)
    | .plain => some (.read c.inKey, c)
  | .step, .read k => some (.ready ((k + c.increment) % domain c.size), c)
  | .step, .ready n => some (.done .nothing, { c with inKey := n })
  | .update v, .begun => match style with
    | .awaited => match c.updateIncrement v with
      | .ok c' => some (.done .nothing, c')
      | .error _ => some (.done .refused, c)
    | .plain =>
      if (domain c.size : Int) > v ∧ v > 0 then some (.ready ((c.increment ^^^ v.toNat) ||| 1), c)
      else some (.done .refused, c)
  | .update _, .ready n => some (.done .nothing, { c with increment := n })
  | .permute x, .begun => some (.inner (x ^^^ c.inKey), c)
  | .permute _, .inner v => (c.affIn.permute v).map fun r => (.middle (r ^^^ c.inMidKey), c)
  | .permute _, .middle v => (c.affMid.permute v).map fun r => (.outer (r ^^^ c.outMidKey), c)
  | .permute _, .outer v => (c.affOut.permute v).map fun r => (.done (.number (r ^^^ c.outKey)), c)
  | .invert y, .begun => some (.outer (y ^^^ c.outKey), c)
  | .invert _, .outer v => (c.affOut.invert v).map fun r => (.middle (r ^^^ c.outMidKey), c)
  | .invert _, .middle v => (c.affMid.invert v).map fun r => (.inner (r ^^^ c.inMidKey), c)
  | .invert _, .inner v => (c.affIn.invert v).map fun r => (.done (.number (r ^^^ c.inKey)), c)
  | _, p => some (p, c)

/-- A call that was begun, with the times of its begin and its end (model bookkeeping, affine_xor_chain.py:219-368). -/
structure Entry where
  style : Style
  call : Call
  phase : Phase
  began : Nat
  ended : Option Nat
  deriving DecidableEq, Repr

/-- The shared object, all calls so far, in the order in which they were begun, and the time (affine_xor_chain.py:34-93). -/
structure Sys where
  chain : Chain
  calls : List Entry
  time : Nat
  deriving DecidableEq, Repr

/-- What happens next: a call is begun, call `i` goes on, or call `i` is cancelled where it waits. -/
inductive Action where
  | begin (style : Style) (call : Call)
  | go (i : Nat)
  | cancel (i : Nat)
  deriving DecidableEq, Repr

/-- `some time` if the call has ended now (model bookkeeping, affine_xor_chain.py:219-368). -/
def endTime (time : Nat) : Phase → Option Nat
  | .done _ => some time
  | _ => none

/-- One action (affine_xor_chain.py:219-368). What is not possible (a call that is over goes on, a plain call is cancelled) does nothing. `none`: the
action never ends. -/
def Sys.act (s : Sys) : Action → Option Sys
  | .begin style call =>
    some { s with calls := s.calls ++ [⟨style, call, start s.chain style call, s.time, none⟩], time := s.time + 1 }
  | .go i => match s.calls[i]? with
    | some ⟨style, call, phase, began, none⟩ =>
      match resume s.chain style call phase with
      | none => none
      | some (phase', chain') =>
        some ⟨chain', s.calls.set i ⟨style, call, phase', began, endTime s.time phase'⟩, s.time + 1⟩
    | _ => some { s with time := s.time + 1 }
  | .cancel i => match s.calls[i]? with
    | some ⟨.awaited, call, _, began, none⟩ =>
      some { s with calls := s.calls.set i ⟨.awaited, call, .done .cancelled, began, some s.time⟩, time := s.time + 1 }
    | _ => some { s with time := s.time + 1 }

/-- Any sequence of actions (affine_xor_chain.py:219-368): the schedule, the arguments and the cancellations are all in the list. -/
def Sys.run (s : Sys) : List Action → Option Sys
  | [] => some s
  | a :: rest => match s.act a with
    | none => none
    | some s' => s'.run rest

/-- A chain that nobody uses yet (affine_xor_chain.py:200-217). -/
def fresh (c : Chain) : Sys := ⟨c, [], 0⟩

end Aiootp.ChainShared
