import Verif.Model.Guard

/-
The salt file functions of `aiootp/_paths.py` in an event loop and in threads: who waits for the guard of a file (Model/Guard.lean), and whether the thread
of the event loop is free meanwhile.

Simplifications: one event loop, and one file. What the functions do inside of their guarded blocks is left out (Model/Salt.lean); the asynchronous ones
wait there for helper threads, so that the loop is free. Cancelled tasks are left out (Model/Guard.lean has them).
-/

namespace Aiootp.EventLoop

open Guard (PC)

/-- The functions, and the lines where they enter their guards: _paths.py:165, 181, 194, 213, 237, 255, 271, 282. -/
inductive Fn where
  | amake
  | make
  | aread
  | read
  | aupdate
  | update
  | adelete
  | delete
  deriving DecidableEq, Repr

/-- `guards.guard` or `guards.monitor`, same lines. -/
def Fn.exclusive : Fn → Bool
  | .aread | .read => false
  | _ => true

/-- `async def` functions are run by tasks of the loop; the others here by threads. -/
def Fn.inLoop : Fn → Bool
  | .amake | .aread | .aupdate | .adelete => true
  | _ => false

/-- `async with` or `with`, same lines. -/
def Fn.asyncWith : Fn → Bool
  | .amake | .aread | .aupdate => true
  | _ => false

/-- Whether a task gives the thread of the loop back after an operation of its guard that led from one point to another: `asleep` when it has to wait
(concurrency_guard.py:334) and before it leaves (373), the first helper thread in the block (_paths.py:166, 196, 239, 272), and the end of the call.
`__enter__` and `__exit__` (concurrency_guard.py:338-356, 378-397) have `sleep` instead, or nothing. -/
def pauses (asyncWith : Bool) (before after : PC) : Bool :=
  match after with
  | .check => asyncWith && (match before with | .check | .checkObservers _ => true | _ => false)
  | .notifyOff => asyncWith
  | .run | .done | .failed | .broken => true
  | _ => false

/-- The guards, and the task whose code the thread of the loop runs; `none` if the loop can choose a task. -/
structure World where
  guards : Guard.State
  holder : Option Nat

def World.init : World := ⟨.init, none⟩

/-- A moment: another thread does its next operation, or the thread of the loop does. `loop k`: should the loop be free then it goes on with task `k`. -/
inductive Tick where
  | thread (k : Nat)
  | loop (k : Nat)
  deriving DecidableEq, Repr

/-- Who does the next operation. -/
def World.actor (w : World) : Tick → Nat
  | .thread k => k
  | .loop k => w.holder.getD k

/-- asyncio: a task runs until it awaits something that is not ready. -/
def World.next (calls : Nat → Fn) (w : World) (tick : Tick) : World :=
  let j := w.actor tick
  let s := w.guards.next (fun k => (calls k).exclusive) (.step j)
  match tick with
  | .thread _ => ⟨s, w.holder⟩
  | .loop _ => ⟨s, if pauses (calls j).asyncWith (w.guards.pc j) (s.pc j) then none else some j⟩

/-- What there is before moment `n`. -/
def worlds (calls : Nat → Fn) (ticks : Nat → Tick) : Nat → World
  | 0 => .init
  | n + 1 => (worlds calls ticks n).next calls (ticks n)

end Aiootp.EventLoop
