import Verif.Model.Views

/-
What containers are: finite maps from names to values, with an order.
-/

namespace Aiootp.Views

open Slots (Name)

variable {V : Type}

/-- Names that the containers do not use themselves (Model/Slots.lean shows what the others do). -/
def Plain : Name → Prop
  | .str s => s ≠ "__class__" ∧ s ≠ "__dict__" ∧ s ≠ "__slots__" ∧ s ≠ "_slots_set" ∧ s ≠ "_UNMAPPED_ATTRIBUTES" ∧ s ≠ "_RESTRICTED_ATTRIBUTES"
  | .other _ => True

/-- Operations with such names. -/
def Op.Plain : Op V → Prop
  | .set n _ => Views.Plain n
  | .del n => Views.Plain n
  | .update l => ∀ x ∈ l, Views.Plain x.1
  | .clear => True

/-- A class as Python makes it. -/
structure Cls.Sound (c : Cls) : Prop where
  nodup : c.slots.Nodup
  unmapped : "__dict__" ∈ c.unmapped
  dict : "__dict__" ∈ c.slots → c.hasDict = true

/-- The name of a slot. -/
def Cls.isSlot (c : Cls) : Name → Bool
  | .str s => decide (s ∈ c.slots)
  | .other _ => false

/-- A name that may be set: it is a slot, or there is a dictionary, and it is not restricted. -/
def Cls.admits (c : Cls) (n : Name) : Bool :=
  (c.isSlot n || c.hasDict) && !(match n with
    | .str s => decide (s ∈ c.restricted)
    | .other _ => false)

/-- A map. -/
abbrev Map (V : Type) := Name → Option V

/-- The map with another value for one name. -/
def Map.with (m : Map V) (n : Name) (v : Option V) : Map V := fun k => if k = n then v else m k

/-- Whether an assignment is accepted. -/
def Map.accepts (c : Cls) (m : Map V) (n : Name) : Bool := c.admits n && (!c.frozen || (m n).isNone)

/-- `update`: the assignments up to the first that is not accepted. -/
def Map.update (c : Cls) (m : Map V) : List (Name × V) → Map V
  | [] => m
  | (n, v) :: l => if m.accepts c n then Map.update c (m.with n (some v)) l else m

/-- What the operations do to the map. Frozen containers accept names that have no value. (`clear` on them removes the items of the dictionary, see C50.) -/
def Map.step (c : Cls) (m : Map V) : Op V → Map V
  | .set n v => if m.accepts c n then m.with n (some v) else m
  | .del n => if c.frozen then m else m.with n none
  | .update l => m.update c l
  | .clear => if c.frozen then fun n => if c.isSlot n then m n else none else fun _ => none

/-- What a history does to an empty map. -/
def Map.run (c : Cls) (m : Map V) : List (Op V) → Map V
  | [] => m
  | op :: ops => Map.run c (m.step c op) ops

/-- A name that is shown: it is not unmapped. -/
def Cls.shows (c : Cls) : Name → Bool
  | .str s => !decide (s ∈ c.unmapped)
  | .other _ => true

end Aiootp.Views
