import Verif.Model.Py

/-
`aiootp/asynchs/concurrency_interface.py: ConcurrencyInterface.new`, `anew`: one function in a new thread (threads.py) or a new
process (processes.py).

The queue of a thread is a deque. The queue of a process is a pipe: `put_nowait` hands the pickled result to a helper thread that
writes it to the pipe, and the process ends when that thread has written everything. A pipe holds a limited number of bytes that
are not read. Bytes are written one at a time here. A process that dies while it writes, and the time between two looks at
`is_alive`, are not modelled.
-/

namespace Aiootp.Spawn

/-- What the function does: it returns a value, of so many bytes when pickled with its header, or raises. -/
inductive Func where
  | returns (v : Nat) (size : Nat) (pickles : Bool)
  | raises (e : Nat)
  deriving DecidableEq, Repr

/-- `Threads` (threads.py:41-54), or `Processes` (processes.py:41-56) with the capacity of the pipe. -/
inductive Kind where
  | thread
  | process (capacity : Nat)
  deriving DecidableEq, Repr

inductive Worker where
  | running
  /-- the result is being written; so many bytes are left -/
  | flushing (left : Nat)
  | ended
  deriving DecidableEq, Repr

inductive Caller where
  | polling
  | returned (v : Nat)
  /-- `queue.Empty` -/
  | empty
  deriving DecidableEq, Repr

/-- `pipe` is the number of bytes in the pipe. `queue` is the result that can be read. -/
structure State where
  worker : Worker
  pipe : Nat
  queue : Option Nat
  caller : Caller
  deriving DecidableEq, Repr

/-- concurrency_interface.py:126-134, 157-165: `task.start()`. -/
def State.init : State := ⟨.running, 0, none, .polling⟩

/-- The next step of the new thread or process: concurrency_interface.py:94-107 `_run_func`, or 70-92 `_arun_func`. Exceptions end it;
they are printed. -/
def State.work (k : Kind) (f : Func) (s : State) : State :=
  match s.worker with
  | .running =>
    match k, f with
    | _, .raises _ => { s with worker := .ended }
    | .thread, .returns v _ _ => { s with worker := .ended, queue := some v }
    | .process _, .returns _ size pickles => if pickles then { s with worker := .flushing size } else { s with worker := .ended }
  | .flushing 0 =>
    match f with
    | .returns v _ _ => { s with worker := .ended, queue := some v }
    | .raises _ => { s with worker := .ended }
  | .flushing (n + 1) =>
    match k with
    | .process capacity => if s.pipe < capacity then { s with worker := .flushing n, pipe := s.pipe + 1 } else s
    | .thread => s
  | .ended => s

/-- The caller looks whether the worker is alive (concurrency_interface.py:135-136, 166-167), and reads the queue if not (137-138, 168-169). -/
def State.poll (s : State) : State :=
  match s.caller, s.worker, s.queue with
  | .polling, .ended, some v => { s with caller := .returned v }
  | .polling, .ended, none => { s with caller := .empty }
  | _, _, _ => s

inductive Event where
  | work
  | poll
  /-- the process is killed before it has a result -/
  | kill
  deriving DecidableEq, Repr

def State.next (k : Kind) (f : Func) (s : State) : Event → State
  | .work => s.work k f
  | .poll => s.poll
  | .kill =>
    match k, s.worker with
    | .process _, .running => { s with worker := .ended }
    | _, _ => s

/-- A schedule. -/
def State.run (k : Kind) (f : Func) (s : State) : List Event → State
  | [] => s
  | e :: es => (s.next k f e).run k f es

end Aiootp.Spawn
