import Verif.Spec.Database

/-! What concurrent calls on a database are compared with: the calls of one coroutine, made one after another by the synchronous class, with
nobody else there. -/

namespace Aiootp.AsyncDb

variable {ρ J : Type}

/-- What the calls return, one after another. -/
def results (E : Database.Env ρ J) (s : Database.Sys J) : List (Database.Op ρ J) → List (Except Err (Option (Database.Value J)))
  | [] => []
  | op :: ops => (op.run E s.node s.disk).1 :: results E (s.step E op) ops

/-- Every call names a tag of the set. -/
def Names (T : String → Prop) (ops : List (Database.Op ρ J)) : Prop := ∀ op ∈ ops, ∃ t, T t ∧ op.tag? = some t

/-- The ways to put `x` and what `rest` gives for the remaining first list before, between and after the elements of the second list. -/
def mergeWith {α : Type} (x : α) (a : List α) (rest : List α → List (List (Nat × α))) : List α → List (List (Nat × α))
  | [] => [(x :: a).map (fun o => (0, o))]
  | y :: b => (rest (y :: b)).map (fun l => (0, x) :: l) ++ (mergeWith x a rest b).map (fun l => (1, y) :: l)

/-- All orders of the elements of two lists that keep the order of each; 0 and 1 say from which list an element comes. -/
def merges {α : Type} : List α → List α → List (List (Nat × α))
  | [], b => [b.map (fun o => (1, o))]
  | x :: a, b => mergeWith x a (merges a) b

/-- The calls of the coroutines 0 and 1, made in this order by the synchronous class: what each coroutine gets, and what is left. -/
def inOrder (E : Database.Env ρ J) (s : Database.Sys J) : List (Nat × Database.Op ρ J) →
    List (Except Err (Option (Database.Value J))) × List (Except Err (Option (Database.Value J))) × Database.Sys J
  | [] => ([], [], s)
  | (k, op) :: l =>
    let r := (op.run E s.node s.disk).1
    let x := inOrder E (s.step E op) l
    if k = 0 then (r :: x.1, x.2) else (x.1, r :: x.2.1, x.2.2)

end Aiootp.AsyncDb
