import Verif.Model.Ignore

/-
What a block of an `Ignore` object stands for: a `try` statement.
-/

namespace Aiootp.Ignore

variable {σ : Type}

/-- First one, then the other. -/
def Code.andThen {α β : Type} (p : Code σ α) (q : α → Code σ β) : Code σ β := fun s =>
  match p s with
  | (s, .ok a) => q a s
  | (s, .error e) => (s, .error e)

/-- `raise e` -/
def Code.raise (e : Exc) : Code σ Unit := fun s => (s, .error e)

/-- `try: body`, `except ... as e: handler`, `else: orelse`, `finally: final`, after the Python language reference: the handler is entered for exceptions
that match, the `else` part runs if the body raises nothing, and the last part runs in any case; an exception that is on its way is raised again after it,
unless it raises itself. -/
def Code.tryStmt (body : Code σ Unit) (listed : State σ → Exc → Bool) (handler : Exc → Code σ Unit) (orelse final : Code σ Unit) : Code σ Unit := fun s =>
  let (s, out) := match body s with
    | (s, .ok ()) => orelse s
    | (s, .error e) => if listed s e then handler e s else (s, .error e)
  match final s with
  | (s, .error e) => (s, .error e)
  | (s, .ok ()) => (s, out)

/-- A block without its record. -/
def World.exec (W : World σ) (p : Prog σ) : Code σ Unit := fun s => ((W.run p s).1, (W.run p s).2.2)

/-- Any code, after which `relay.error` is the exception that it has raised. -/
def Code.noted (r : Nat) (p : Code σ Unit) : Code σ Unit := fun s =>
  match p s with
  | (s, .ok ()) => (s, .ok ())
  | (s, .error e) => (s.put r { s.relay r with error := some e }, .error e)

/-- Runs the code that an attribute of the object holds by then. -/
def World.later (W : World σ) (r : Nat) (code : Fields → Option Nat) : Code σ Bool := fun s => W.call (code (s.relay r)) r s

/-- The result of a call is not used. -/
def Code.drop {α : Type} (p : Code σ α) : Code σ Unit := Code.andThen p fun _ s => (s, .ok ())

/-- Records of blocks that are properly nested: each block that is entered runs `finally_code` once, at its end, and before that at most one of the other
handlers. -/
inductive Nested : List Event → Prop where
  | nil : Nested []
  | append {a b : List Event} (ha : Nested a) (hb : Nested b) : Nested (a ++ b)
  | unlisted {a : List Event} (r : Nat) (ha : Nested a) : Nested (.enter r :: a ++ [.finished r])
  | excepted {a : List Event} (r : Nat) (ha : Nested a) : Nested (.enter r :: a ++ [.excepted r, .finished r])
  | elsed {a : List Event} (r : Nat) (ha : Nested a) : Nested (.enter r :: a ++ [.elsed r, .finished r])

end Aiootp.Ignore
