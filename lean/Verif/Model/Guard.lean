import Verif.Model.Py

/-
`aiootp/asynchs/guards/`: use trackers, the exclusive and the non-exclusive policy, `ConcurrencyGuard` and
`MultiConcurrencyGaurd`.

A guard object is a number. Guards are used by any number of threads or tasks; what is atomic is one operation on a
deque (as in CPython), and one block under `_resource_lock`. A guard goes through the program of `__enter__`, the
guarded block and `__exit__` (or their async versions) one atomic operation at a time.

Simplifications: the policies whose `get_in_queue` does nothing (`QueueManually`, `NonExclusiveQueueManually`) are not
modelled: there the caller appends the guard to the queue. Time and probe delays are left out: a guard may be scheduled at
any time. The exceptions that end an `__enter__` or `__exit__` are not told apart beyond `failed` and `broken`.
-/

namespace Aiootp.Guard

/-! ### state_machine.py -/

/-- state_machine.py:52-117: the states of a guard. -/
inductive Use where
  | unused
  | pending
  | running
  | done
  deriving DecidableEq, Repr

/-- The transitions of a `ConcurrencyGuardUseTracker` (state_machine.py:194, 206, 218). -/
inductive Transition where
  | toPending
  | toRunning
  | toDone
  deriving DecidableEq, Repr

/-- `begin_waiting`, `run` and `finish`, each of which only one kind of state has (state_machine.py:59-109); `none` is
`AttributeError`. -/
def Transition.apply : Transition → Use → Option Use
  | .toPending, .unused => some .pending
  | .toRunning, .pending => some .running
  | .toDone, .running => some .done
  | _, _ => none

/-- A thread that uses the tracker: before the call, holding the new state between `pop` and `append`
(state_machine.py:200-204), or after the call, which returned or raised `InvalidStateTransition`. -/
inductive Hand where
  | before (t : Transition)
  | holding (t : Transition) (u : Use)
  | returned (t : Transition)
  | raised
  deriving DecidableEq, Repr

/-- A tracker, its `_state` deque with `maxlen=1`, and the calls made on it by all threads. -/
structure Tracker where
  state : List Use
  calls : Nat → Hand

/-- state_machine.py:143-145 `__init__`. -/
def Tracker.new (calls : Nat → Transition) : Tracker := ⟨[.unused], fun i => .before (calls i)⟩

/-- The next atomic step of call `i` (state_machine.py:194-228): `pop`, then `append` (which drops the oldest element of a
full deque). -/
def Tracker.step (s : Tracker) (i : Nat) : Tracker :=
  let set (h : Hand) : Nat → Hand := fun j => if j = i then h else s.calls j
  match s.calls i with
  | .before t =>
    match s.state.getLast? with
    | none => { s with calls := set .raised }
    | some u =>
      match t.apply u with
      | none => ⟨s.state.dropLast, set .raised⟩
      | some u => ⟨s.state.dropLast, set (.holding t u)⟩
  | .holding t u => ⟨(s.state ++ [u]).drop ((s.state ++ [u]).length - 1), set (.returned t)⟩
  | .returned _ => s
  | .raised => s

/-- state_machine.py:230-236 `enter_fault_state`. -/
def Tracker.fault (s : Tracker) : Tracker := { s with state := [] }

/-! ### policies.py, concurrency_guard.py -/

/-- What a guard does next. -/
inductive PC where
  /-- not entered yet -/
  | idle
  /-- `policy.notify_on` (concurrency_guard.py:348; for exclusive guards) -/
  | notifyOn
  /-- `policy.get_in_queue` (concurrency_guard.py:349) -/
  | getIn
  /-- waiting; next is to look at `queue[0]` (policies.py:108, 210) -/
  | check
  /-- next is to look at `observers[0]` (policies.py:109); the guard was first in the queue or not -/
  | checkObservers (isNext : Bool)
  /-- `observers.appendleft` (policies.py:213; non-exclusive guards) -/
  | announce
  /-- `queue.popleft` (policies.py:215; non-exclusive guards) -/
  | takeOff
  /-- `transition_to_running` (policies.py:114, 217) -/
  | start
  /-- inside the guarded block -/
  | run
  /-- `policy.notify_off` (concurrency_guard.py:374, 395) -/
  | notifyOff
  /-- `queue.popleft` (policies.py:96; exclusive guards) -/
  | getOff
  /-- `transition_to_done` (policies.py:100, 200) -/
  | finish
  | done
  /-- the first fault signal (policies.py:112, 214) -/
  | fault1
  /-- the second fault signal (policies.py:113; exclusive guards) -/
  | fault2
  /-- `InvalidStateTransition` was raised -/
  | failed
  /-- `IndexError` or `IncoherentConcurrencyState` was raised -/
  | broken
  /-- the task was cancelled while it was waiting (concurrency_guard.py:334) -/
  | lostWaiting
  /-- the task was cancelled in `__aexit__` (concurrency_guard.py:373) -/
  | lostLeaving
  deriving DecidableEq, Repr

/-- concurrency_guard.py:37-83 `DequePair`. -/
structure Deques where
  queue : List Nat
  observers : List Nat
  deriving DecidableEq, Repr

/-- What an observer may note down when a guard moves. -/
inductive Mark where
  | entered (g : Nat)
  | started (g : Nat)
  deriving DecidableEq, Repr

/-- The next atomic operation of the guard `g` (concurrency_guard.py:338-397, policies.py:57-218). `exclusive` tells the
policies of the guards. `spoiled` tells whether the state was taken out of the use tracker of `g` by entering it again. -/
def move (exclusive : Nat → Bool) (g : Nat) (spoiled : Bool) (d : Deques) : PC → Deques × PC × Option Mark
  | .idle => (d, if exclusive g then .notifyOn else .getIn, none)
  | .notifyOn => ({ d with observers := d.observers ++ [g] }, .getIn, none)
  | .getIn => ({ d with queue := d.queue ++ [g] }, .check, some (.entered g))
  | .check =>
    match d.queue with
    | [] => (d, .broken, none)
    | first :: _ =>
      if exclusive g then (d, .checkObservers (first = g), none)
      else (d, if first = g then .announce else .check, none)
  | .checkObservers isNext =>
    match d.observers with
    | [] => (d, .broken, none)
    | first :: _ => (d, if isNext && exclusive first then .start else .check, none)
  | .announce => ({ d with observers := g :: d.observers }, .takeOff, none)
  | .takeOff =>
    match d.queue with
    | [] => (d, .broken, none)
    | first :: rest => ({ d with queue := rest }, if first = g then .start else .broken, none)
  | .start => if spoiled then (d, .fault1, none) else (d, .run, some (.started g))
  | .run => (d, .notifyOff, none)
  | .notifyOff =>
    if d.observers = [] then (d, .broken, none)
    else if exclusive g then ({ d with observers := d.observers.dropLast }, .getOff, none)
    else ({ d with observers := d.observers.tail }, .finish, none)
  | .getOff =>
    match d.queue with
    | [] => (d, .broken, none)
    | first :: rest => ({ d with queue := rest }, if first = g then .finish else .broken, none)
  | .finish => (d, if spoiled then .failed else .done, none)
  | .fault1 =>
    if d.observers = [] then (d, .broken, none)
    else if exclusive g then ({ d with observers := d.observers.dropLast }, .fault2, none)
    else ({ d with observers := d.observers.tail }, .failed, none)
  | .fault2 =>
    match d.queue with
    | [] => (d, .broken, none)
    | first :: rest => ({ d with queue := rest }, if first = g then .failed else .broken, none)
  | .done => (d, .done, none)
  | .failed => (d, .failed, none)
  | .broken => (d, .broken, none)
  | .lostWaiting => (d, .lostWaiting, none)
  | .lostLeaving => (d, .lostLeaving, none)

/-- All guards of one pair of deques. `log` is what an observer noted down. -/
structure State where
  deques : Deques
  pc : Nat → PC
  spoiled : Nat → Bool
  log : List Mark

/-- New deques and guards. -/
def State.init : State := ⟨⟨[], []⟩, fun _ => .idle, fun _ => false, []⟩

/-- What may happen. -/
inductive Event where
  /-- the guard does its next atomic operation -/
  | step (g : Nat)
  /-- someone else enters the guard object, too, and gets `InvalidStateTransition` (policies.py:69, 162) -/
  | reenter (g : Nat)
  /-- the task that enters or leaves the guard is cancelled while it sleeps -/
  | cancel (g : Nat)
  deriving DecidableEq, Repr

/-- A guard whose task is cancelled (concurrency_guard.py:334, 373): `asyncio.CancelledError` goes through `__aenter__` or
`__aexit__`, which leave the deques as they are. -/
def cancelled : PC → PC
  | .check => .lostWaiting
  | .notifyOff => .lostLeaving
  | pc => pc

/-- One event. -/
def State.next (exclusive : Nat → Bool) (s : State) : Event → State
  | .step g =>
    let r := move exclusive g (s.spoiled g) s.deques (s.pc g)
    { s with deques := r.1, pc := fun h => if h = g then r.2.1 else s.pc h, log := s.log ++ r.2.2.toList }
  | .reenter g => if s.pc g = .idle then s else { s with spoiled := fun h => if h = g then true else s.spoiled h }
  | .cancel g => { s with pc := fun h => if h = g then cancelled (s.pc g) else s.pc h }

/-- A schedule. -/
def State.run (exclusive : Nat → Bool) (s : State) : List Event → State
  | [] => s
  | e :: es => (s.next exclusive e).run exclusive es

/-- Leaving a guard object that was never entered (concurrency_guard.py:378-397, policies.py:80-100, 172-200): `notify_off`
and `get_off_queue` change the deques before the use tracker, or the comparison with the guard taken off the queue, raises. -/
def leaveUnused (exclusive : Nat → Bool) (g : Nat) (d : Deques) : Deques :=
  if d.observers = [] then d
  else if exclusive g then ⟨d.queue.tail, d.observers.dropLast⟩
  else { d with observers := d.observers.tail }

end Aiootp.Guard
