import Verif.Model.Slots

/-
`aiootp/commons/slots.py` and `namespaces.py`: what is seen of a container: `in`, `[]`, iteration, `len`, `bool`, `keys`, `values`, `items` and `repr`, for the
mutable classes (`Slots`, `Namespace`) and the frozen ones (`FrozenSlots`, `FrozenNamespace`), and their `Open...` versions.

Model/Slots.lean has more kinds of classes, and the names by which containers can be broken. Here dictionaries have an order, and the names that the containers use
themselves are not among the names that are set (`Plain`). The attributes of the class that are not slots are functions and plain values: an item of the dictionary
goes before them. Containers are not changed while they are iterated.
-/

namespace Aiootp.Views

open Slots (Name)

/-- A class: slots.py:93-117. -/
structure Cls where
  /-- `__slots__`, each name once; may contain `"__dict__"` -/
  slots : List String
  /-- instances have a dictionary -/
  hasDict : Bool
  /-- `_UNMAPPED_ATTRIBUTES`; slots.py:73: contains `"__dict__"` -/
  unmapped : List String
  /-- `_RESTRICTED_ATTRIBUTES` -/
  restricted : List String
  frozen : Bool

/-- An instance: its slots, and its dictionary in the order of insertion. -/
structure Obj (V : Type) where
  cls : Cls
  slot : String → Option V
  dict : List (Name × V)

variable {V : Type}

/-- An instance without items. -/
def Obj.new (c : Cls) : Obj V := ⟨c, fun _ => none, []⟩

/-- `dictionary[name]` -/
def find (d : List (Name × V)) (n : Name) : Option V := (d.find? (·.1 = n)).map (·.2)

/-- `dictionary[name] = value`: a name that is present stays where it is. -/
def put (d : List (Name × V)) (n : Name) (v : V) : List (Name × V) :=
  match d with
  | [] => [(n, v)]
  | (m, w) :: d => if m = n then (m, v) :: d else (m, w) :: put d n v

/-- `del dictionary[name]` -/
def drop (d : List (Name × V)) (n : Name) : List (Name × V) := d.filter (·.1 ≠ n)

/-- `hasattr(self, name)`, for the name of a slot. -/
def Obj.hasSlot (o : Obj V) (s : String) : Bool := if s = "__dict__" then o.cls.hasDict else (o.slot s).isSome

/-- slots.py:167-173 `__contains__`. -/
def Obj.contains (o : Obj V) (n : Name) : Bool :=
  (match n with
    | .str s => decide (s ∈ o.cls.slots) && o.hasSlot s
    | .other _ => false) || (find o.dict n).isSome

/-- slots.py:229-236 `__getitem__`, for names that are not attributes of the class. -/
def Obj.get (o : Obj V) (n : Name) : Except Err V :=
  match n with
  | .str s =>
    match (if s ∈ o.cls.slots then o.slot s else find o.dict n) with
    | some v => .ok v
    | none => .error .attribute
  | .other _ =>
    match find o.dict n with
    | some v => .ok v
    | none => .error .key

/-- slots.py:279-286 `__iter__` and 288-292 `keys`. -/
def Obj.keys (o : Obj V) : List Name :=
  (o.cls.slots.map Name.str ++ o.dict.map (·.1)).filter fun n =>
    o.contains n && !(match n with
      | .str s => decide (s ∈ o.cls.unmapped)
      | .other _ => false)

/-- slots.py:301-306 `items`. -/
def Obj.items (o : Obj V) : Except Err (List (Name × V)) := o.keys.mapM fun n => do
  let v ← o.get n
  .ok (n, v)

/-- slots.py:294-299 `values`. -/
def Obj.values (o : Obj V) : Except Err (List V) := o.keys.mapM o.get

/-- slots.py:160-164 `__len__`. -/
def Obj.len (o : Obj V) : Nat := o.keys.length

/-- slots.py:154-158 `__bool__`. -/
def Obj.truth (o : Obj V) : Bool := o.keys.any fun _ => true

/-! ### changes -/

/-- slots.py:217-227 `__setitem__`, 365-372 for the frozen classes. -/
def Obj.set (o : Obj V) (n : Name) (v : V) : Except Err (Obj V) :=
  if o.cls.frozen && o.contains n then .error .permission
  else match n with
    | .str s =>
      if s ∈ o.cls.restricted then .error .permission
      else if s ∈ o.cls.slots then .ok { o with slot := fun t => if t = s then some v else o.slot t }
      else if o.cls.hasDict then .ok { o with dict := put o.dict n v }
      else .error .attribute
    | .other _ => if o.cls.hasDict then .ok { o with dict := put o.dict n v } else .error .attribute

/-- slots.py:238-245 `__delitem__`, 374-378 for the frozen classes. -/
def Obj.del (o : Obj V) (n : Name) : Except Err (Obj V) :=
  if o.cls.frozen then .error .permission
  else match n with
    | .str s =>
      if s ∈ o.cls.slots then
        if (o.slot s).isSome then .ok { o with slot := fun t => if t = s then none else o.slot t } else .error .attribute
      else if (find o.dict n).isSome then .ok { o with dict := drop o.dict n } else .error .attribute
    | .other _ =>
      if (find o.dict n).isSome then .ok { o with dict := drop o.dict n }
      else if o.cls.hasDict then .error .key else .error .attribute

/-- slots.py:308-324 `update`, 119-142 `__init__`: what is left, and how the call ends. -/
def Obj.update (o : Obj V) : List (Name × V) → Obj V × Except Err Unit
  | [] => (o, .ok ())
  | (n, v) :: l =>
    match o.set n v with
    | .ok o => o.update l
    | .error e => (o, .error e)

/-- slots.py:331-333: the loop of `clear`. -/
def Obj.clearSlots (o : Obj V) : List String → Obj V × Except Err Unit
  | [] => (o, .ok ())
  | s :: l =>
    if s = "__dict__" then
      -- `del self["__dict__"]` gives the instance a new dictionary; frozen classes refuse
      if o.cls.hasDict then
        if o.cls.frozen then (o, .error .permission) else Obj.clearSlots { o with dict := [] } l
      else o.clearSlots l
    else if (o.slot s).isSome then
      match o.del (.str s) with
      | .ok o => o.clearSlots l
      | .error e => (o, .error e)
    else o.clearSlots l

/-- slots.py:326-333 `clear`. -/
def Obj.clear (o : Obj V) : Obj V × Except Err Unit := Obj.clearSlots { o with dict := [] } o.cls.slots

/-- The operations. -/
inductive Op (V : Type) where
  | set (n : Name) (v : V)
  | del (n : Name)
  | update (l : List (Name × V))
  | clear

/-- One operation: what is left of the object. -/
def Obj.step (o : Obj V) : Op V → Obj V
  | .set n v =>
    match o.set n v with
    | .ok o => o
    | .error _ => o
  | .del n =>
    match o.del n with
    | .ok o => o
    | .error _ => o
  | .update l => (o.update l).1
  | .clear => o.clear.1

/-- A history; exceptions are caught. -/
def Obj.run (o : Obj V) : List (Op V) → Obj V
  | [] => o
  | op :: ops => (o.step op).run ops

/-! ### `repr` -/

/-- How things are shown: `str(name)`, `repr(value)`, `f"{value.__class__}"`, `OMITTED`, the name of the class, and the line separator. -/
structure Show (V : Type) where
  str : Name → String
  repr : V → String
  type : V → String
  omitted : String
  qualname : String
  sep : String

/-- slots.py:266-269: the parts of the body. `str(name)[0]` raises `IndexError` for an empty string. -/
def body (S : Show V) (masked : Bool) : List (Name × V) → Except Err (List String)
  | [] => .ok []
  | (n, v) :: l =>
    match (S.str n).toList with
    | [] => .error .index
    | c :: _ => do
      let rest ← body S masked l
      if c = '_' then .ok rest
      else .ok ((S.str n ++ "=" ++ (if masked then S.omitted ++ S.type v else S.repr v)) :: rest)

/-- slots.py:247-272 `__repr__` with its argument `mask`. -/
def Obj.repr (S : Show V) (mask debugging : Bool) (o : Obj V) : Except Err String := do
  let start := if o.truth then S.sep ++ "    " else ""
  let on := if o.truth then "," ++ S.sep ++ "    " else ", "
  let items ← o.items
  let parts ← body S (mask && !debugging) items
  let last := if o.truth then "," ++ S.sep else ""
  .ok (S.qualname ++ "(" ++ start ++ on.intercalate parts ++ last ++ ")")

end Aiootp.Views
