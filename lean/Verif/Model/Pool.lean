import Verif.Model.Py

/-
`aiootp/asynchs/concurrency_interface.py`: `submit`, `gather` (and `asubmit`, `agather`) on the shared pool of `Threads`
(threads.py) or of `Processes` (processes.py).

The pool is that of the standard library: its threads or processes take the submitted tasks in the order of submission. A task
that was cancelled before it was taken is dropped. The caller polls `future.done()`; how often is left open, that is, a poll that
fails is no step. Functions are numbers. A function is a leaf, about which nothing is known but the outcomes it may have, or calls
`gather` on other functions and returns what that returns. Pools that break or are shut down are not modelled.
-/

namespace Aiootp.Pool

/-- What a call gives: a value or an exception. -/
inductive Out (V : Type) where
  | ok (v : V)
  | err (e : Nat)
  deriving DecidableEq, Repr

/-- The body of a function. -/
inductive Code where
  | leaf
  | gather (fs : List Nat)
  deriving DecidableEq, Repr

/-- The functions, the outcomes that leaves may have, and the list that `gather` builds of the results. -/
structure Prog (V : Type) where
  code : Nat → Code
  may : Nat → Out V → Prop
  pack : List V → V

/-- The state of one call of a function. -/
inductive Status (V : Type) where
  /-- submitted, not taken by a worker -/
  | pending
  /-- runs; a `gather` has collected the results `got` -/
  | running (got : List V)
  /-- concurrency_interface.py:300-303: inside of `finally`, before the tasks `rest` are cancelled -/
  | closing (o : Out V) (rest : List Nat)
  | done (o : Out V)
  | cancelled
  deriving DecidableEq, Repr

/-- One call. `subs` are the tasks that it has submitted, in order; `parent` is the call that has submitted it, or `none` if it
does not run in the pool but in a thread of the user. -/
structure Task (V : Type) where
  fn : Nat
  parent : Option Nat
  st : Status V
  subs : List Nat
  deriving DecidableEq, Repr

/-- All calls in the order of their creation, the work queue of the pool, and a record of the tasks that workers have begun, which
the code does not have. -/
structure State (V : Type) where
  tasks : List (Task V)
  queue : List Nat
  log : List Nat

variable {V : Type}

/-- Threads of the user have called functions. -/
def State.init (fns : List Nat) : State V := ⟨fns.map (fun f => ⟨f, none, .running [], []⟩), [], []⟩

/-- The call has been taken and is not finished. -/
def Status.active : Status V → Bool
  | .running _ | .closing _ _ => true
  | _ => false

/-- The number of workers that are occupied. -/
def State.busy (s : State V) : Nat := (s.tasks.filter (fun t => t.parent.isSome && t.st.active)).length

/-- Replaces a call's record. -/
def State.put (s : State V) (i : Nat) (t : Task V) : State V := { s with tasks := s.tasks.set i t }

/-- `Future.cancel`: has an effect on tasks that are not taken. -/
def Task.cancel (t : Task V) : Task V :=
  match t.st with
  | .pending => { t with st := .cancelled }
  | _ => t

/-- The steps of a pool with `w` workers. -/
inductive Step (P : Prog V) (w : Nat) : State V → State V → Prop where
  /-- an idle worker takes the next task -/
  | start {s : State V} {i : Nat} {q : List Nat} {t : Task V} (hq : s.queue = i :: q) (hw : s.busy < w) (ht : s.tasks[i]? = some t)
      (hp : t.st = .pending) : Step P w s { tasks := s.tasks.set i { t with st := .running [] }, queue := q, log := s.log ++ [i] }
  /-- an idle worker drops a cancelled task -/
  | drop {s : State V} {i : Nat} {q : List Nat} {t : Task V} (hq : s.queue = i :: q) (hw : s.busy < w) (ht : s.tasks[i]? = some t)
      (hp : t.st = .cancelled) : Step P w s { s with queue := q }
  /-- a leaf ends -/
  | leaf {s : State V} {i : Nat} {t : Task V} {o : Out V} (ht : s.tasks[i]? = some t) (hr : t.st = .running [])
      (hc : P.code t.fn = .leaf) (ho : P.may t.fn o) : Step P w s (s.put i { t with st := .done o })
  /-- concurrency_interface.py:299, 260-262: `gather` submits its next function -/
  | submit {s : State V} {i : Nat} {t : Task V} {fs : List Nat} {f : Nat} (ht : s.tasks[i]? = some t) (hr : t.st = .running [])
      (hc : P.code t.fn = .gather fs) (hf : fs[t.subs.length]? = some f) :
      Step P w s { s with tasks := s.tasks.set i { t with subs := t.subs ++ [s.tasks.length] } ++ [⟨f, some i, .pending, []⟩],
                          queue := s.queue ++ [s.tasks.length] }
  /-- concurrency_interface.py:301: the next task has a result -/
  | collect {s : State V} {i k : Nat} {t u : Task V} {fs : List Nat} {got : List V} {v : V} (ht : s.tasks[i]? = some t)
      (hr : t.st = .running got) (hc : P.code t.fn = .gather fs) (hall : t.subs.length = fs.length)
      (hk : t.subs[got.length]? = some k) (hu : s.tasks[k]? = some u) (hd : u.st = .done (.ok v)) :
      Step P w s (s.put i { t with st := .running (got ++ [v]) })
  /-- concurrency_interface.py:301: the next task has an exception, which is raised -/
  | fail {s : State V} {i k : Nat} {t u : Task V} {fs : List Nat} {got : List V} {e : Nat} (ht : s.tasks[i]? = some t)
      (hr : t.st = .running got) (hc : P.code t.fn = .gather fs) (hall : t.subs.length = fs.length)
      (hk : t.subs[got.length]? = some k) (hu : s.tasks[k]? = some u) (hd : u.st = .done (.err e)) :
      Step P w s (s.put i { t with st := .closing (.err e) t.subs })
  /-- concurrency_interface.py:301: the next task was cancelled, `CancelledError` (0) is raised -/
  | gone {s : State V} {i k : Nat} {t u : Task V} {fs : List Nat} {got : List V} (ht : s.tasks[i]? = some t)
      (hr : t.st = .running got) (hc : P.code t.fn = .gather fs) (hall : t.subs.length = fs.length)
      (hk : t.subs[got.length]? = some k) (hu : s.tasks[k]? = some u) (hd : u.st = .cancelled) :
      Step P w s (s.put i { t with st := .closing (.err 0) t.subs })
  /-- concurrency_interface.py:301: all results are there -/
  | ready {s : State V} {i : Nat} {t : Task V} {fs : List Nat} {got : List V} (ht : s.tasks[i]? = some t)
      (hr : t.st = .running got) (hc : P.code t.fn = .gather fs) (hall : t.subs.length = fs.length) (hg : got.length = fs.length) :
      Step P w s (s.put i { t with st := .closing (.ok (P.pack got)) t.subs })
  /-- concurrency_interface.py:303: the next task is cancelled -/
  | cancel {s : State V} {i k : Nat} {t u : Task V} {o : Out V} {rest : List Nat} (ht : s.tasks[i]? = some t)
      (hr : t.st = .closing o (k :: rest)) (hu : s.tasks[k]? = some u) :
      Step P w s ((s.put k u.cancel).put i { t with st := .closing o rest })
  /-- concurrency_interface.py:301: `gather` returns or raises -/
  | finish {s : State V} {i : Nat} {t : Task V} {o : Out V} (ht : s.tasks[i]? = some t) (hr : t.st = .closing o []) :
      Step P w s (s.put i { t with st := .done o })

/-- Any number of steps. -/
inductive Steps (P : Prog V) (w : Nat) : Nat → State V → State V → Prop where
  | refl (s : State V) : Steps P w 0 s s
  | tail {n : Nat} {s s' s'' : State V} (h : Steps P w n s s') (h' : Step P w s' s'') : Steps P w (n + 1) s s''

/-- States that a pool of `w` workers can get into when threads of the user call the functions `fns`. -/
def Reachable (P : Prog V) (w : Nat) (fns : List Nat) (s : State V) : Prop := ∃ n, Steps P w n (State.init fns) s

end Aiootp.Pool
