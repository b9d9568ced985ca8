/-
`aiootp/_debug_control.py: DebugControl` and its one switch, in `aiootp/asynchs/loops.py`.
-/

namespace Aiootp.Debug

/-- _debug_control.py:35 `_DEBUG_MODE`, and for each event loop whether asyncio's debug mode is on. -/
structure State where
  flag : Bool
  loops : Nat → Bool

/-- _debug_control.py:43-61: a call of `enable_debugging` or `disable_debugging`, and the event loop that `get_event_loop()` gives where it is called;
`none` if there is none, and `RuntimeError` is raised. The warning (49-50) is left out: a filter that makes an exception of it ends the call before
anything has happened. -/
structure Call where
  on : Bool
  loop : Option Nat
  deriving DecidableEq

/-- Where a call is: before the test of the flag (51, 58), before its assignment (52, 59), before `get_event_loop()` and before `is_debugging()` in the switch
(loops.py:56), before `set_debug` with the argument that was read, or at its end. -/
inductive Pc where
  | start
  | assign
  | loop
  | read
  | apply (value : Bool)
  | returned
  | raised
  deriving DecidableEq

/-- The call has ended. -/
def Pc.ended : Pc → Bool
  | .returned => true
  | .raised => true
  | _ => false

/-- _debug_control.py:51-54, 58-61 with the switch of loops.py:55-57, one step. `_switches` (37) has no other entry in the package. -/
def step (c : Call) : Pc → State → Pc × State
  | .start, s => (if s.flag = c.on then .returned else .assign, s)
  | .assign, s => (.loop, { s with flag := c.on })
  | .loop, s => (if c.loop = none then .raised else .read, s)
  | .read, s => (.apply s.flag, s)
  | .apply v, s =>
    match c.loop with
    | none => (.raised, s)
    | some l => (.returned, { s with loops := fun m => if m = l then v else s.loops m })
  | .returned, s => (.returned, s)
  | .raised, s => (.raised, s)

/-- A call without others at the same time: five steps end it. -/
def call (c : Call) (s : State) : Pc × State :=
  let r := step c .start s
  let r := step c r.1 r.2
  let r := step c r.1 r.2
  let r := step c r.1 r.2
  step c r.1 r.2

/-- Calls one after the other. -/
def calls : List Call → State → State
  | [], s => s
  | c :: cs, s => calls cs (call c s).2

/-- Threads, each with its call. -/
structure Threads where
  state : State
  pc : Nat → Pc

/-- A schedule: at each step one thread goes on. -/
def run (call : Nat → Call) : List Nat → Threads → Threads
  | [], t => t
  | i :: is, t =>
    let r := step (call i) (t.pc i) t.state
    run call is { state := r.2, pc := fun j => if j = i then r.1 else t.pc j }

end Aiootp.Debug
