import Verif.Model.Package

/-
`aiootp/_typing/interface.py`: the types that are added to `Typing`.
-/

namespace Aiootp.Registry

open Package (Dict)

/-- What Python knows about names: `str.isidentifier` and `str.isupper` of one character. -/
structure Chars where
  isIdentifier : String → Bool
  isUpper : Char → Bool

/-- What is given to `add_type`: its `__qualname__` (`none` if it has no such attribute), whether it has the attributes of a class, and which
object it is. -/
structure Obj where
  qualname : Option String
  isType : Bool
  id : Nat

/-- interface.py:134, 86-99 `_test_type`, 101-116 `_test_type_name`: the checks of `add_type`, for the attributes `own` that `Typing` has at the
moment. `name[0]` raises `IndexError` for the empty name. -/
def check {α : Type} (ch : Chars) (own : Dict α) (o : Obj) : Except Err String :=
  match o.qualname with
  | none => .error .attribute
  | some name =>
    if o.isType = false then .error .type
    else match name.toList with
      | [] => .error .index
      | c :: _ =>
        if ch.isIdentifier name = false then .error .value
        else if (own.lookup name).isSome then .error .attribute
        else if '_' ∈ name.toList ∨ ch.isUpper c = false then .error .value
        else .ok name

/-- interface.py:118-138 `add_type`. -/
def addType (ch : Chars) (own : Dict Obj) (o : Obj) : Except Err (Dict Obj) :=
  (check ch own o).map fun name => own.set name o

/-- One call after another; one that raises adds nothing (interface.py:118-138). -/
def addAll (ch : Chars) (own : Dict Obj) : List Obj → Dict Obj
  | [] => own
  | o :: rest => match addType ch own o with
    | .ok own' => addAll ch own' rest
    | .error _ => addAll ch own rest

/-- A thread that adds types: those that are to come, the one that has been checked but not stored yet, and those for which `add_type`
returned. -/
structure Thread where
  todo : List Obj
  checked : Option (String × Obj) := none
  returned : List Obj := []

/-- The attributes of `Typing`, and the threads. -/
structure State where
  own : Dict Obj
  threads : List Thread

/-- interface.py:134-138: a thread checks (the look-up in the class dictionary is one access), or stores what it has checked. -/
def Thread.step (ch : Chars) (own : Dict Obj) (t : Thread) : Dict Obj × Thread :=
  match t.checked with
  | some (name, o) => (own.set name o, { t with checked := none, returned := t.returned ++ [o] })
  | none => match t.todo with
    | [] => (own, t)
    | o :: rest => match check ch own o with
      | .ok name => (own, { t with todo := rest, checked := some (name, o) })
      | .error _ => (own, { t with todo := rest })

/-- The next step of thread `i` (interface.py:134-138). -/
def State.step (ch : Chars) (s : State) (i : Nat) : State :=
  match s.threads[i]? with
  | none => s
  | some t => { own := (t.step ch s.own).1, threads := s.threads.set i (t.step ch s.own).2 }

/-- A schedule: which thread takes the next step. -/
def State.run (ch : Chars) (s : State) (schedule : List Nat) : State := schedule.foldl (State.step ch) s

end Aiootp.Registry
