/-
`aiootp/_exceptions.py: Ignore`, as the context manager of `with` statements. The asynchronous version differs in `await`s only.

Simplifications: `ignored_exceptions` holds classes only, handlers return (or are awaited to give) something of which only the truth value matters,
tracebacks are left out. Exceptions and handlers are numbers; what a handler does is a parameter.
-/

namespace Aiootp.Ignore

/-- An exception: its class, and which object it is. -/
structure Exc where
  cls : Nat
  id : Nat
  deriving DecidableEq, Repr

/-- _exceptions.py:139-147, 167-177: the attributes. `none` stands for the placeholder, whose call has no effect and whose result is true (149-162). -/
structure Fields where
  ignored : List Nat
  exceptCode : Option Nat := none
  elseCode : Option Nat := none
  finallyCode : Option Nat := none
  error : Option Exc := none
  deriving DecidableEq, Repr

/-- What handlers and bodies may change: the `Ignore` objects, which are numbered, and everything else. -/
structure State (σ : Type) where
  user : σ
  relay : Nat → Fields

/-- Code that runs in a state and returns or raises. -/
abbrev Code (σ α : Type) := State σ → State σ × Except Exc α

/-- What is given: `issubclass`, and the handlers, which are called with an `Ignore` object. -/
structure World (σ : Type) where
  sub : Nat → Nat → Bool
  handler : Nat → Nat → Code σ Bool

variable {σ : Type}

/-- An assignment to an attribute of an `Ignore` object. -/
def State.put (s : State σ) (r : Nat) (f : Fields) : State σ := { s with relay := fun q => if q = r then f else s.relay q }

/-- `self.except_code(self)` and its like. -/
def World.call (W : World σ) (code : Option Nat) (r : Nat) : Code σ Bool :=
  match code with
  | none => fun s => (s, .ok true)
  | some h => W.handler h r

/-- What `__exit__` calls. -/
inductive Event where
  | enter (r : Nat)
  | excepted (r : Nat)
  | elsed (r : Nat)
  | finished (r : Nat)
  deriving DecidableEq, Repr

/-- _exceptions.py:236-245: the `try` block of `__exit__`. `true` tells Python to drop the exception of the body. -/
def World.settle (W : World σ) (r : Nat) (body : Except Exc Unit) (s : State σ) : State σ × List Event × Except Exc Bool :=
  match body with
  | .ok () =>
    match W.call (s.relay r).elseCode r s with
    | (s, .ok _) => (s, [.elsed r], .ok false)
    | (s, .error e) => (s, [.elsed r], .error e)
  | .error e =>
    let s := s.put r { s.relay r with error := some e }
    if (s.relay r).ignored.any (W.sub e.cls) then
      match W.call (s.relay r).exceptCode r s with
      | (s, x) => (s, [.excepted r], x)
    else (s, [], .error e)

/-- _exceptions.py:221-247 `__exit__`, and what the `with` statement makes of it: the exception of the body, if there is one, is raised again unless the
result is true. -/
def World.leave (W : World σ) (r : Nat) (body : Except Exc Unit) (s : State σ) : State σ × List Event × Except Exc Unit :=
  match W.settle r body s with
  | (s, log, x) =>
    match W.call (s.relay r).finallyCode r s with
    | (s, .error e) => (s, log ++ [.finished r], .error e)
    | (s, .ok _) =>
      (s, log ++ [.finished r],
        match x with
        | .error e => .error e
        | .ok true => .ok ()
        | .ok false => body)

/-- Programs: any code, in sequence, in `with` blocks of any `Ignore` objects, and in blocks that catch everything. -/
inductive Prog (σ : Type) where
  | act (f : Code σ Unit)
  | seq (p q : Prog σ)
  | block (r : Nat) (p : Prog σ)
  | attempt (p : Prog σ)

/-- Runs a program: the state afterwards, the calls of handlers, and the outcome. -/
def World.run (W : World σ) : Prog σ → State σ → State σ × List Event × Except Exc Unit
  | .act f, s => let x := f s; (x.1, [], x.2)
  | .seq p q, s =>
    match W.run p s with
    | (s, log, .error e) => (s, log, .error e)
    | (s, log, .ok ()) => let x := W.run q s; (x.1, log ++ x.2.1, x.2.2)
  | .block r p, s =>
    match W.run p s with
    | (s, log, out) => let x := W.leave r out s; (x.1, .enter r :: log ++ x.2.1, x.2.2)
  | .attempt p, s => let x := W.run p s; (x.1, x.2.1, .ok ())

end Aiootp.Ignore
