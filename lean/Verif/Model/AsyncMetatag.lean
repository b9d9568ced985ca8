import Verif.Model.Database

/-
`aiootp/databases/async_database.py:654-700` `ametatag`: several coroutines of one event loop that ask one database object for metatags.

Simplifications:
- database objects are numbered in the order in which they are made; what an object is apart from that is not modelled here.
- tags that are names of other attributes (which raise) are not considered, and nothing is deleted.
-/

namespace Aiootp.AsyncMetatag

/-- Where a call is. -/
inductive Pc where
  | start
  /-- lines 689-695: the object is made, which takes several `await`s -/
  | making
  deriving DecidableEq

/-- A coroutine: the tags it has still to ask for, the call it is in, and the objects that it got, with their tags. -/
structure Thread where
  todo : List String
  call : Option (String × Pc)
  got : List (String × Nat)

/-- The parent database. -/
structure Sys where
  /-- the attributes of the object that are metatags -/
  attrs : String → Option Nat
  /-- the record of the manifest -/
  listed : List String
  /-- the number of the next object -/
  next : Nat
  threads : Nat → Thread

/-- Lines 698-700: the tag is listed, and the attribute is returned. -/
def Sys.finish (s : Sys) (k : Nat) (tag : String) (id : Nat) : Sys :=
  { s with
    listed := if tag ∈ s.listed then s.listed else s.listed ++ [tag]
    threads := fun j => if j = k then { s.threads k with call := none, got := (s.threads k).got ++ [(tag, id)] } else s.threads j }

/-- The next step of a coroutine. -/
def Sys.step (s : Sys) (k : Nat) : Sys :=
  let t := s.threads k
  match t.call with
  | none =>
    match t.todo with
    | [] => s
    | tag :: rest => { s with threads := fun j => if j = k then { t with todo := rest, call := some (tag, .start) } else s.threads j }
  | some (tag, .start) =>
    -- lines 683-686
    match s.attrs tag with
    | some id => s.finish k tag id
    | none => { s with threads := fun j => if j = k then { t with call := some (tag, .making) } else s.threads j }
  | some (tag, .making) =>
    -- lines 689-696
    let s' := { s with attrs := fun u => if u = tag then some s.next else s.attrs u, next := s.next + 1 }
    s'.finish k tag s.next

def Sys.run (s : Sys) : List Nat → Sys
  | [] => s
  | k :: ks => Sys.run (s.step k) ks

/-- Coroutines that begin to ask a database whose metatags are given. -/
def Sys.start (attrs : String → Option Nat) (listed : List String) (next : Nat) (asks : Nat → List String) : Sys :=
  ⟨attrs, listed, next, fun k => ⟨asks k, none, []⟩⟩

end Aiootp.AsyncMetatag
