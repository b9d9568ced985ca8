import Verif.Model.Py

/-
`aiootp/randoms/entropy_daemon.py`: `EntropyDaemon`, with any number of threads that call its methods while its own threads run.

Loads and stores of attributes are single steps. Times and delays are whole numbers of some unit (floats in the code, where sums may round); `sec` of them are a second. The clock moves
in steps of its own.
-/

namespace Aiootp.Daemon

/-- The stores of `set_temporary_max_delay` (entropy_daemon.py:106-109) and `set_max_delay` (121-123). -/
inductive Write where
  | deadline (duration : Int)
  | maxDelay (d : Int)
  | mutating
  | initial (d : Int)
  deriving DecidableEq, Repr

/-- entropy_daemon.py:94-112 `set_temporary_max_delay`. -/
def temporary (d duration : Int) : Except Err (List Write) :=
  if d > 0 then .ok [.deadline duration, .maxDelay d, .mutating] else .error .value

/-- entropy_daemon.py:114-126 `set_max_delay`. -/
def permanent (d : Int) : Except Err (List Write) :=
  if d > 0 then .ok [.initial d, .maxDelay d] else .error .value

/-- Where a thread of the daemon is. -/
inductive Pc where
  /-- not started -/
  | idle
  /-- 137-139: before the hash is put into the pool -/
  | mix
  /-- 83 -/
  | ack
  /-- 85-86: with `deadline_delta` -/
  | delta
  /-- 87: `delay_skips_deadline`, with `deadline_delta` -/
  | skips (delta : Int)
  /-- 89: the load of `_initial_max_delay` -/
  | restore
  /-- 89: the store of `_max_delay` -/
  | restored (initial : Int)
  /-- 90 -/
  | flag
  /-- 92 -/
  | clip (delta : Int)
  /-- 141: the load of `_max_delay` -/
  | sleep
  /-- 141, asleep -/
  | asleep (until_ : Int)
  /-- 142-143 -/
  | check
  | ended
  deriving DecidableEq, Repr

/-- The object, the clock, the threads of the daemon and the calls that are going on. -/
structure State where
  now : Int
  maxDelay : Int
  initial : Int
  deadline : Int := 0
  mutating : Bool := false
  cancelled : Bool := false
  thread : Nat → Pc := fun _ => .idle
  calls : Nat → List Write := fun _ => []
  /-- how often a thread has put a hash into the pool -/
  mixed : Nat → Nat := fun _ => 0

/-- What happens. -/
inductive Event where
  /-- time passes -/
  | tick (dt : Nat)
  /-- a thread of the daemon goes on; `u` is the time it would sleep -/
  | daemon (i : Nat) (u : Int)
  /-- a call goes on -/
  | call (k : Nat)
  /-- 145-159 `start`: the thread `i` -/
  | start (i : Nat)
  /-- 161-166 `cancel` -/
  | cancel
  deriving DecidableEq, Repr

/-- A new value at one place. -/
def put {α : Type} (f : Nat → α) (k : Nat) (a : α) : Nat → α := fun n => if n = k then a else f n

/-- A store. -/
def State.write (s : State) : Write → State
  | .deadline duration => { s with deadline := s.now + duration }
  | .maxDelay d => { s with maxDelay := d }
  | .mutating => { s with mutating := true }
  | .initial d => { s with initial := d }

/-- entropy_daemon.py:128-143 `_araw_loop`, 77-92 `_acknowledge_temporary_frequency_deadline`; simple.py:65-70 `arandom_sleep`: the sleep is at most `_max_delay` long. -/
def State.advance (sec : Int) (s : State) (i : Nat) (u : Int) : State :=
  match s.thread i with
  | .idle => s
  | .mix => { s with thread := put s.thread i .ack, mixed := put s.mixed i (s.mixed i + 1) }
  | .ack => { s with thread := put s.thread i (if s.mutating then .delta else .sleep) }
  | .delta =>
    let delta := s.deadline - s.now
    { s with thread := put s.thread i (.skips delta) }
  | .skips delta =>
    -- `_max_delay` is read also if the deadline is reached
    { s with thread := put s.thread i (if delta ≤ 0 then .restore else if s.maxDelay - delta > sec then .clip delta else .sleep) }
  | .restore => { s with thread := put s.thread i (.restored s.initial) }
  | .restored d => { s with maxDelay := d, thread := put s.thread i .flag }
  | .flag => { s with mutating := false, thread := put s.thread i .sleep }
  | .clip delta => { s with maxDelay := delta, thread := put s.thread i .sleep }
  | .sleep => { s with thread := put s.thread i (.asleep (s.now + max 0 (min u s.maxDelay))) }
  | .asleep until_ => if until_ ≤ s.now then { s with thread := put s.thread i .check } else s
  | .check => { s with thread := put s.thread i (if s.cancelled then .ended else .mix) }
  | .ended => s

/-- One event. -/
def State.step (sec : Int) (s : State) : Event → State
  | .tick dt => { s with now := s.now + dt }
  | .daemon i u => s.advance sec i u
  | .call k =>
    match s.calls k with
    | [] => s
    | w :: ws => { s.write w with calls := put s.calls k ws }
  | .start i =>
    match s.thread i with
    | .idle => { s with thread := put s.thread i .mix }
    | _ => s
  | .cancel => { s with cancelled := true }

/-- A schedule. -/
def State.run (sec : Int) (s : State) : List Event → State
  | [] => s
  | e :: es => (s.step sec e).run sec es

end Aiootp.Daemon
