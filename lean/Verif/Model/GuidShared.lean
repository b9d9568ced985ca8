import Verif.Model.Ids

/-
`aiootp/randoms/ids/guid.py`: one `GUID` object that many coroutines of an event loop use at once. Each call runs without
interruption from one `await asleep()` to the next. Nothing changes the permutation of a `GUID` object (C115 is about chains
that are stepped); its raw generator has a counter, which does change. Threads that share a generator are in `Ids.Sys` (C17).
-/

namespace Aiootp.GuidShared

open Perm Ids

/-- guid.py:164-205: the asynchronous calls. -/
inductive Call where
  | new
  | read (guid : Bytes)
  deriving DecidableEq, Repr

/-- Where a call is. `waiting`: `anew` has not read the clock. `inner`, `middle`, `outer`: `apermute` waits before it uses `_aff_in`,
`_aff_mid`, `_aff_out`; `unouter`, `unmiddle`, `uninner` the same for `ainvert`. `parsing`: the raw guid waits to be parsed. -/
inductive Phase where
  | waiting
  | inner (value : Nat)
  | middle (value : Nat)
  | outer (value : Nat)
  | made (result : Except Err Bytes)
  | unouter (value : Nat)
  | unmiddle (value : Nat)
  | uninner (value : Nat)
  | parsing (raw : Bytes)
  | parsed (result : Except Err Container)
  | cancelled
  deriving DecidableEq, Repr

/-- Where a call first stops. raw_guid.py:102 for `anew`. guid.py:188-191 for `aread`: the length is checked and the argument of the
first inner call is computed (affine_xor_chain.py:345-348) before anything waits. -/
def start (g : Guid) : Call → Phase
  | .new => .waiting
  | .read guid =>
    if guid.length ≠ g.raw.config.size then .parsed (.error .value)
    else .unouter (fromBE guid ^^^ g.permutation.outKey)

/-- What a call does until it stops again: raw_guid.py:98-128, guid.py:164-172, 183-194, affine_xor_chain.py:282-297, 340-353. `time` and `token` are
what the clock and the random source give if they are asked. `none`: a permutation does not end. -/
def resume (g : Guid) (time : Nat) (token : Bytes) : Phase → Option (Phase × Guid)
  | .waiting => match g.raw.make time token with
    | .error e => some (.made (.error e), g)
    | .ok (raw, r) => some (.inner (fromBE raw ^^^ g.permutation.inKey), { g with raw := r })
  | .inner v => (g.permutation.affIn.permute v).map fun r => (.middle (r ^^^ g.permutation.inMidKey), g)
  | .middle v => (g.permutation.affMid.permute v).map fun r => (.outer (r ^^^ g.permutation.outMidKey), g)
  | .outer v => (g.permutation.affOut.permute v).map fun r =>
      (.made (toBytesBE g.raw.config.size (r ^^^ g.permutation.outKey)), g)
  | .unouter v => (g.permutation.affOut.invert v).map fun r => (.unmiddle (r ^^^ g.permutation.outMidKey), g)
  | .unmiddle v => (g.permutation.affMid.invert v).map fun r => (.uninner (r ^^^ g.permutation.inMidKey), g)
  | .uninner v => (g.permutation.affIn.invert v).map fun r =>
      (match toBytesBE g.raw.config.size (r ^^^ g.permutation.inKey) with
        | .ok b => .parsing b
        | .error e => .parsed (.error e), g)
  | .parsing b => some (.parsed (rawRead g.raw.config b), g)
  | p => some (p, g)

/-- A call that was begun (guid.py:164-205). -/
structure Entry where
  call : Call
  phase : Phase
  deriving DecidableEq, Repr

/-- The shared object, all calls so far in the order in which they were begun, and what the clock and the random source gave to which
call, in the order in which they were asked (raw_guid.py:105-115). -/
structure Sys where
  guid : Guid
  calls : List Entry
  drawn : List (Nat × Nat × Bytes)
  deriving DecidableEq, Repr

/-- What happens next: an asynchronous call is begun, call `i` goes on, call `i` is cancelled where it waits, or a coroutine
calls `new()`. -/
inductive Action where
  | begin (call : Call)
  | go (i time : Nat) (token : Bytes)
  | cancel (i : Nat)
  | now (time : Nat) (token : Bytes)
  deriving DecidableEq, Repr

/-- The clock and the random source were asked if the call was about to make a raw guid (raw_guid.py:105-115). -/
def draw (i time : Nat) (token : Bytes) : Phase → List (Nat × Nat × Bytes)
  | .waiting => [(i, time, token)]
  | _ => []

/-- One action (guid.py:164-205); `none`: it never ends. -/
def Sys.act (s : Sys) : Action → Option Sys
  | .begin call => some { s with calls := s.calls ++ [⟨call, start s.guid call⟩] }
  | .go i time token => match s.calls[i]? with
    | none => some s
    | some e => match resume s.guid time token e.phase with
      | none => none
      | some (phase, guid) =>
        some ⟨guid, s.calls.set i ⟨e.call, phase⟩, s.drawn ++ draw i time token e.phase⟩
  | .cancel i => match s.calls[i]? with
    | none => some s
    | some ⟨_, .made _⟩ => some s
    | some ⟨_, .parsed _⟩ => some s
    | some e => some { s with calls := s.calls.set i ⟨e.call, .cancelled⟩ }
  | .now time token => match s.guid.make time token with
    | .diverges => none
    | .error e => some { s with calls := s.calls ++ [⟨.new, .made (.error e)⟩], drawn := s.drawn ++ [(s.calls.length, time, token)] }
    | .ok (b, guid) => some ⟨guid, s.calls ++ [⟨.new, .made (.ok b)⟩], s.drawn ++ [(s.calls.length, time, token)]⟩

/-- Any sequence of actions (guid.py:164-205). -/
def Sys.run (s : Sys) : List Action → Option Sys
  | [] => some s
  | a :: rest => match s.act a with
    | none => none
    | some s' => s'.run rest

/-- An object that nobody uses yet (guid.py:148-162). -/
def fresh (g : Guid) : Sys := ⟨g, [], []⟩

end Aiootp.GuidShared
