import Verif.Model.Gens

/-
What a consumer of an iterator sees.
-/

namespace Aiootp.Gens

variable {ω α : Type}

/-- Calls of `next` give these items, one after the other; the states before and after. -/
inductive Runs (it : Iter ω α) : ω → List α → ω → Prop where
  | nil (w : ω) : Runs it w [] w
  | cons {w w₁ w₂ : ω} {a : α} {l : List α} (h : it w = (w₁, .item a)) (r : Runs it w₁ l w₂) : Runs it w (a :: l) w₂

/-- A loop over the iterator sees these items and then its end (`none`) or an exception. -/
def Ends (it : Iter ω α) (w : ω) (l : List α) (e : Option Err) (w' : ω) : Prop :=
  ∃ w₁, Runs it w l w₁ ∧ it w₁ = (w', match e with
    | none => .stop
    | some e => .raised e)

/-- Loops over iterators, one after the other, see these lists. -/
inductive InTurn : List (Iter ω α) → ω → List (List α) → ω → Prop where
  | nil (w : ω) : InTurn [] w [] w
  | cons {it : Iter ω α} {its : List (Iter ω α)} {w w₁ w₂ : ω} {l : List α} {ls : List (List α)} (h : Ends it w l none w₁) (r : InTurn its w₁ ls w₂) :
      InTurn (it :: its) w (l :: ls) w₂

/-- The bytes of a number: `int.from_bytes` reads it from them. -/
def Encodes (size : Nat) (little : Bool) (n : Int) (b : Bytes) : Prop :=
  b.length = size ∧ n = (if little then fromLE b else fromBE b : Nat)

/-- The iterator over a list: the state is a number of lists, the `i`th iterator takes from the `i`th list. -/
def listIter (i : Nat) : Iter (Nat → List α) α := fun w =>
  match w i with
  | a :: l => (fun j => if j = i then l else w j, .item a)
  | [] => (w, .stop)

/-- The items in what was seen of a deque: those that were put into it. -/
def put : List (Seen α) → List α
  | [] => []
  | .appended a :: l => a :: put l
  | .next _ _ :: l => put l

/-- Those that some generator has given. -/
def taken : List (Seen α) → List α
  | [] => []
  | .next _ (.item a) :: l => a :: taken l
  | _ :: l => taken l

end Aiootp.Gens
