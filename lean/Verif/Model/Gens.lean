import Verif.Model.Py

/-
The generators of `aiootp/_gentools.py` that are not in Model/Text.lean. The asynchronous versions are the same apart from `await`s, and from `azip`, which is the
asynchronous version of `zip`.

An iterator is given by what a call of `next` does. It may change anything: `ω` is the state of everything outside of the generator, so that iterators may share what they read, or
read what others write meanwhile. The state of a generator is a value of its own. A generator that has ended or raised only stops from then on.
-/

namespace Aiootp.Gens

/-- How a call of `next` ends. -/
inductive Out (α : Type) where
  | item (a : α)
  | stop
  | raised (e : Err)
  deriving DecidableEq, Repr

/-- An iterator. -/
abbrev Iter (ω α : Type) := ω → ω × Out α

variable {ω α : Type}

/-- _gentools.py:397-405 `collate`, 380-394 `acollate`. The state is the list of the iterators that are not yet exhausted. -/
def collate : Iter (List (Iter ω α) × ω) α
  | ([], w) => (([], w), .stop)
  | (it :: rest, w) =>
    match it w with
    | (w, .item a) => ((it :: rest, w), .item a)
    | (w, .stop) => collate (rest, w)
    | (w, .raised e) => (([], w), .raised e)

/-- Where `cycle` is: in its first loop, with the results so far; in its second loop, with all results and those that are left of this round; or it has ended. -/
inductive Cycle (α : Type) where
  | first (results : List α)
  | again (results left : List α)
  | ended

/-- _gentools.py:283-285: the second loop. -/
def Cycle.replay (results : List α) : List α → Cycle α × Out α
  | a :: left => (.again results left, .item a)
  | [] =>
    match results with
    | a :: left => (.again results left, .item a)
    | [] => (.ended, .stop)

/-- _gentools.py:275-285 `cycle`, 252-272 `acycle`. A result is appended when the generator is entered again; here it is appended at once, which nothing sees. -/
def cycle (it : Iter ω α) : Iter (Cycle α × ω) α
  | (.first results, w) =>
    match it w with
    | (w, .item a) => ((.first (results ++ [a]), w), .item a)
    | (w, .stop) => let (c, out) := Cycle.replay results results; ((c, w), out)
    | (w, .raised e) => ((.ended, w), .raised e)
  | (.again results left, w) => let (c, out) := Cycle.replay results left; ((c, w), out)
  | (.ended, w) => ((.ended, w), .stop)

/-- _gentools.py:332-341 `count`, 319-329 `acount`, for an `int`. -/
def count : Iter Int Int := fun index => (index + 1, .item index)

/-- `int.to_bytes`; `little` is the byte order. Negative numbers and numbers that are too large raise `OverflowError`. -/
def toBytes (size : Nat) (little : Bool) (n : Int) : Except Err Bytes :=
  if 0 ≤ n ∧ n < 256 ^ size then .ok (if little then leDigits size n.toNat else beDigits size n.toNat) else .error .overflow

/-- _gentools.py:304-316 `bytes_count`, 288-301 `abytes_count`. `none`: the generator has raised. -/
def bytesCount (size : Nat) (little : Bool) : Iter (Option Int) Bytes
  | none => (none, .stop)
  | some index =>
    match toBytes size little index with
    | .ok b => (some (index + 1), .item b)
    | .error e => (none, .raised e)

/-- `range(start, stop, step)`: the next number, and what is left. -/
def rangeNext (step stop : Int) (at_ : Int) : Option Int :=
  if (0 < step ∧ at_ < stop) ∨ (step < 0 ∧ stop < at_) then some at_ else none

/-- _gentools.py:358-368 `bytes_range`, 344-355 `abytes_range`. A step of zero raises `ValueError` (in the first call of `next`). -/
def bytesRange (step stop : Int) (size : Nat) (little : Bool) : Iter (Option Int) Bytes
  | none => (none, .stop)
  | some index =>
    if step = 0 then (none, .raised .value)
    else match rangeNext step stop index with
      | none => (none, .stop)
      | some n =>
        match toBytes size little n with
        | .ok b => (some (n + step), .item b)
        | .error e => (none, .raised e)

/-- _gentools.py:247 `[await coroutine() for coroutine in coroutines]`. -/
def azipRow : List (Iter ω α) → ω → ω × Except (Out (List α)) (List α)
  | [], w => (w, .ok [])
  | it :: rest, w =>
    match it w with
    | (w, .stop) => (w, .error .stop)
    | (w, .raised e) => (w, .error (.raised e))
    | (w, .item a) =>
      match azipRow rest w with
      | (w, .ok row) => (w, .ok (a :: row))
      | (w, .error out) => (w, .error out)

/-- _gentools.py:237-249 `azip`. The state is the list of iterators while the generator has not ended. -/
def azip : Iter (Option (List (Iter ω α)) × ω) (List α)
  | (none, w) => ((none, w), .stop)
  | (some its, w) =>
    match azipRow its w with
    | (w, .ok row) => ((some its, w), .item row)
    | (w, .error out) => ((none, w), out)

/-! ### `popleft` -/

/-- A deque, and which generators over it have ended. -/
structure Shared (α : Type) where
  queue : List α
  ended : Nat → Bool := fun _ => false

/-- What happens to a deque. -/
inductive Event (α : Type) where
  /-- `queue.append(a)` -/
  | append (a : α)
  /-- `next(gens[i])` -/
  | next (i : Nat)

/-- What is seen of an event. -/
inductive Seen (α : Type) where
  | appended (a : α)
  | next (i : Nat) (out : Out α)
  deriving Repr

/-- _gentools.py:424-433 `popleft`, 408-421 `apopleft`, any number of generators for one deque: one event. -/
def Shared.step (s : Shared α) : Event α → Shared α × Seen α
  | .append a => ({ s with queue := s.queue ++ [a] }, .appended a)
  | .next i =>
    if s.ended i then (s, .next i .stop)
    else match s.queue with
      | a :: queue => ({ s with queue := queue }, .next i (.item a))
      | [] => ({ s with ended := fun j => if j = i then true else s.ended j }, .next i .stop)

/-- A history, with what was seen. -/
def Shared.run (s : Shared α) : List (Event α) → Shared α × List (Seen α)
  | [] => (s, [])
  | e :: es =>
    let x := s.step e
    let y := x.1.run es
    (y.1, x.2 :: y.2)

end Aiootp.Gens
