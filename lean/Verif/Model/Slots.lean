import Verif.Model.Py

/-
`aiootp/commons/slots.py`, `namespaces.py`, `typed_slots.py`, `instances.py` and `configs.py`: container objects whose attributes are in slots or in
the dictionary of the instance. What CPython does for `object.__setattr__`, `hasattr`, `obj.__dict__` and `obj.__class__ = ...` is part of the model.
The `Open...` versions differ in `__repr__` only.
-/

namespace Aiootp.Slots

/-- Names: strings and other hashable objects. (Instances of subclasses of `str` are not modelled.) -/
inductive Name where
  | str (s : String)
  | other (n : Nat)
  deriving DecidableEq, Repr

/-- The base class that defines how items are assigned and deleted. -/
inductive Kind where
  /-- instances.py:28 `FrozenInstance` -/
  | frozenInstance
  /-- slots.py:39 `Slots`, namespaces.py:32 `Namespace` -/
  | slots
  /-- slots.py:354 `FrozenSlots`, namespaces.py:84 `FrozenNamespace`: the same methods -/
  | frozen
  /-- typed_slots.py:36 `TypedSlots` -/
  | typed
  /-- typed_slots.py:198 `FrozenTypedSlots` -/
  | frozenTyped
  /-- configs.py:29 `Config` -/
  | config
  deriving DecidableEq, Repr

/-- A class: what slots.py:93-117 and typed_slots.py:149-155 `__init_subclass__` leave in it. -/
structure Cls where
  kind : Kind
  /-- `__slots__`; may contain `"__dict__"` -/
  slots : List String
  /-- instances have a dictionary: `"__dict__"` is declared as a slot, or a class of the mro declares no slots -/
  hasDict : Bool
  /-- `_RESTRICTED_ATTRIBUTES` -/
  restricted : List String
  /-- `slots_types`; types are numbers -/
  types : List (String × Nat)
  /-- the other names that are found in the classes of the mro: methods and class variables -/
  attrs : List String

/-- Objects, as far as the containers look at them. -/
inductive Value where
  /-- any other object -/
  | val (id : Nat)
  /-- a `frozenset` of strings -/
  | names (l : List String)
  /-- a `dict` -/
  | map (l : List (Name × Value))
  /-- a class -/
  | cls (c : Cls)
  /-- a function that accepts all arguments -/
  | callable

/-- `isinstance` and `==` of Python objects. -/
structure World where
  isa : Value → Nat → Bool
  same : Value → Value → Bool

/-- An instance. -/
structure Obj where
  cls : Cls
  slot : String → Option Value
  dict : Name → Option Value

/-- `m[k] = v`. -/
def assign {α β : Type} [DecidableEq α] (m : α → Option β) (k : α) (v : Option β) : α → Option β := fun x => if x = k then v else m x

/-- The dictionary with the given items. -/
def ofItems (l : List (Name × Value)) : Name → Option Value := fun n => (l.find? (·.1 = n)).map (·.2)

/-- The value of a class variable that is looked up in the instance: its dictionary comes first. `none`: the value of the class. -/
def Obj.shadow (o : Obj) (name : String) : Option Value := if o.cls.hasDict then o.dict (.str name) else none

/-- `name in self.<var>`, for a class variable that holds the strings `own`. -/
def Obj.inContainer (o : Obj) (var : String) (own : List String) (name : Name) : Except Err Bool :=
  let mem := fun (l : List String) => match name with
    | .str s => decide (s ∈ l)
    | .other _ => false
  match o.shadow var with
  | none => .ok (mem own)
  | some (.names l) => .ok (mem l)
  | some (.map l) => .ok (l.any (·.1 = name))
  | some _ => .error .type

/-- `hasattr(self, name)`. A slot is a data descriptor: the dictionary is not asked for its name. -/
def Obj.hasattr (o : Obj) (name : String) : Bool :=
  if name = "__class__" then true
  else if name = "__dict__" then o.cls.hasDict
  else if name ∈ o.cls.slots then (o.slot name).isSome
  else (o.cls.hasDict && (o.dict (.str name)).isSome) || decide (name ∈ o.cls.attrs)

/-- slots.py:167-173 `__contains__`. (`hasattr` raises `TypeError` for names that are not strings.) -/
def Obj.contains (o : Obj) (name : Name) : Except Err Bool := do
  let inSlots ← o.inContainer "_slots_set" o.cls.slots name
  let inDict := o.cls.hasDict && (o.dict name).isSome
  match name with
  | .str s => .ok ((inSlots && o.hasattr s) || inDict)
  | .other _ => if inSlots then .error .type else .ok inDict

/-- CPython: `object.__setattr__(self, name, value)`. The class of an object can be replaced by a class with the same layout (here: with the same
slots, in the same order). -/
def Obj.setattr (o : Obj) (name : String) (value : Value) : Except Err Obj :=
  if name = "__class__" then
    match value with
    | .cls c => if c.slots = o.cls.slots ∧ c.hasDict = o.cls.hasDict then .ok { o with cls := c } else .error .type
    | _ => .error .type
  else if name = "__dict__" then
    if o.cls.hasDict then
      match value with
      | .map l => .ok { o with dict := ofItems l }
      | _ => .error .type
    else .error .attribute
  else if name ∈ o.cls.slots then .ok { o with slot := assign o.slot name (some value) }
  else if o.cls.hasDict then .ok { o with dict := assign o.dict (.str name) (some value) }
  else .error .attribute

/-- CPython: `object.__delattr__(self, name)`. -/
def Obj.delattr (o : Obj) (name : String) : Except Err Obj :=
  if name = "__class__" then .error .type
  else if name = "__dict__" then if o.cls.hasDict then .ok { o with dict := fun _ => none } else .error .attribute
  else if name ∈ o.cls.slots then if (o.slot name).isSome then .ok { o with slot := assign o.slot name none } else .error .attribute
  else if o.cls.hasDict && (o.dict (.str name)).isSome then .ok { o with dict := assign o.dict (.str name) none }
  else .error .attribute

/-- slots.py:217-227 `Slots.__setitem__`. -/
def Obj.baseSet (o : Obj) (name : Name) (value : Value) : Except Err Obj := do
  let restricted ← o.inContainer "_RESTRICTED_ATTRIBUTES" o.cls.restricted name
  if restricted then .error .permission
  else match name with
    | .str s => o.setattr s value
    | .other _ => if o.cls.hasDict then .ok { o with dict := assign o.dict name (some value) } else .error .attribute

/-- slots.py:238-245 `Slots.__delitem__`. -/
def Obj.baseDel (o : Obj) (name : Name) : Except Err Obj :=
  match name with
  | .str s => o.delattr s
  | .other _ =>
    if o.cls.hasDict then if (o.dict name).isSome then .ok { o with dict := assign o.dict name none } else .error .key
    else .error .attribute

/-- typed_slots.py:157-167 `_validate_type`, looked up as `self._validate_type`, with `self.slots_types`. (Items of a dictionary that shadows
`slots_types` are taken not to be types.) -/
def Obj.validate (W : World) (o : Obj) (name : Name) (value : Value) : Except Err Unit :=
  match o.shadow "_validate_type" with
  | some .callable => .ok ()
  | some _ => .error .type
  | none =>
    match o.shadow "slots_types" with
    | some (.map l) => raiseIf (l.any (·.1 = name)) .type
    | some (.names l) =>
      match name with
      | .str s => raiseIf (s ∈ l) .type
      | .other _ => .ok ()
    | some _ => .error .type
    | none =>
      match name with
      | .other _ => .ok ()
      | .str s =>
        match o.cls.types.lookup s with
        | none => .ok ()
        | some type => raiseIf (W.isa value type = false) .type

/-- slots.py:365-372, namespaces.py:97-104, typed_slots.py:211-218: what the frozen classes put before `super().__setitem__`. -/
def Obj.denyIfIn (o : Obj) (name : Name) : Except Err Unit := do
  let present ← o.contains name
  raiseIf present .permission

/-- configs.py:81-96 `set_config_id`. -/
def Obj.setConfigId (W : World) (o : Obj) (value : Value) : Except Err Obj := do
  o.validate W (.str "CONFIG_ID") value
  match o.slot "CONFIG_ID" with
  | none => .ok { o with slot := assign o.slot "CONFIG_ID" (some value) }
  | some current => if W.same value current then .ok o else .error .value

/-- `self[name] = value` and, for strings, `setattr(self, name, value)` (slots.py:175-205). Instances of `FrozenInstance` have no items, only
attributes (instances.py:67-73). -/
def Obj.set (W : World) (o : Obj) (name : Name) (value : Value) : Except Err Obj :=
  match o.cls.kind with
  | .frozenInstance =>
    match name with
    | .str s => if o.hasattr s then .error .permission else o.setattr s value
    | .other _ => .error .type
  | .slots => o.baseSet name value
  | .frozen => do
    o.denyIfIn name
    o.baseSet name value
  | .typed => do
    o.validate W name value
    o.baseSet name value
  | .frozenTyped => do
    o.denyIfIn name
    o.validate W name value
    o.baseSet name value
  | .config =>
    if name = .str "CONFIG_ID" then o.setConfigId W value
    else do
      o.denyIfIn name
      o.validate W name value
      o.baseSet name value

/-- `del self[name]` and, for strings, `delattr(self, name)` (slots.py:207-215, 374-378; instances.py:75-79). -/
def Obj.del (o : Obj) (name : Name) : Except Err Obj :=
  match o.cls.kind with
  | .slots | .typed => o.baseDel name
  | _ => .error .permission

/-- What is left of an object by a call, and how the call ends. -/
abbrev Done := Obj × Except Err Unit

/-- A call with one effect. -/
def once (o : Obj) (r : Except Err Obj) : Done :=
  match r with
  | .ok o => (o, .ok ())
  | .error e => (o, .error e)

/-- slots.py:308-324 `update` (which is `__init__` as well, 119-142), with the items of the mapping; instances.py:48-49. -/
def Obj.update (W : World) (o : Obj) : List (Name × Value) → Done
  | [] => (o, .ok ())
  | (n, v) :: l =>
    match o.set W n v with
    | .ok o => o.update W l
    | .error e => (o, .error e)

/-- slots.py:331-333: the loop of `clear`. -/
def Obj.clearSlots (o : Obj) : List String → Done
  | [] => (o, .ok ())
  | name :: names =>
    if o.hasattr name then
      match o.del (.str name) with
      | .ok o => o.clearSlots names
      | .error e => (o, .error e)
    else o.clearSlots names

/-- slots.py:326-333 `clear`. -/
def Obj.clear (o : Obj) : Done :=
  let o := { o with dict := fun n => if o.cls.hasDict then none else o.dict n }
  o.clearSlots o.cls.slots

/-- The public operations. -/
inductive Op where
  | set (name : Name) (value : Value)
  | del (name : Name)
  | update (items : List (Name × Value))
  | clear

/-- One operation. (A `FrozenInstance` has no `clear`: `AttributeError`; its `update` is `__init__`.) -/
def Obj.step (W : World) (o : Obj) : Op → Done
  | .set n v => once o (o.set W n v)
  | .del n => once o (o.del n)
  | .update l => o.update W l
  | .clear => if o.cls.kind = .frozenInstance then (o, .error .attribute) else o.clear

/-- A history of operations; exceptions are caught. -/
def Obj.run (W : World) (o : Obj) : List Op → Obj
  | [] => o
  | op :: ops => (o.step W op).1.run W ops

/-- `self[name]`, for names that are set on the instance (slots.py:229-236). -/
def Obj.get (o : Obj) (name : Name) : Option Value :=
  match name with
  | .str s => if s ∈ o.cls.slots then o.slot s else o.dict name
  | .other _ => o.dict name

/-! ### classes -/

/-- What a class of the mro declares: slots.py:106-110, typed_slots.py:98-110. -/
structure Decl where
  /-- `none`: the class statement has no `__slots__` -/
  slots : Option (List String)
  restricted : List String
  /-- the items of `slots_types`, for subclasses of `TypedSlots` (for the bases: as merged by their own `__init_subclass__`) -/
  types : List (String × Nat)
  attrs : List String

/-- The strings of the classes, each once, in order. -/
def collected (l : List (List String)) : List String := l.flatten.eraseDups

/-- typed_slots.py:100-110, the checks of `_copy_acceptable_type_declarations` and the merged mapping: classes that come first in the mro win.
(With several defects in one mapping, which of the exceptions is raised is not modelled.) -/
def mergeTypes (checkable : Nat → Bool) (slots : List String) : List (List (String × Nat)) → Except Err (List (String × Nat))
  | [] => .ok []
  | types :: rest => do
    let merged ← mergeTypes checkable slots rest
    raiseIf (∃ t ∈ types, checkable t.2 = false) .type
    raiseIf (∃ t ∈ types, t.1 = "__dict__") .type
    raiseIf (∃ t ∈ types, ¬ t.1 ∈ slots) .attribute
    .ok (types ++ merged)

/-- typed_slots.py:126-155 `__init_subclass__`: the types of the slots of a class, for those kinds that check them. -/
def declaredTypes (checkable : Nat → Bool) (kind : Kind) (slots : List String) (mro : List Decl) : Except Err (List (String × Nat)) :=
  if kind = .typed ∨ kind = .frozenTyped ∨ kind = .config then do
    let types ← mergeTypes checkable slots (mro.map (·.types))
    raiseIf (∃ s ∈ slots, s ≠ "__dict__" ∧ types.lookup s = none) .attribute
    .ok types
  else .ok []

/-- slots.py:93-117 and typed_slots.py:126-155 `__init_subclass__`, for the mro of a class that is not a
`FrozenInstance`. -/
def makeCls (checkable : Nat → Bool) (kind : Kind) (mro : List Decl) : Except Err Cls := do
  let slots := collected (mro.map fun d => d.slots.getD [])
  let restricted := collected (mro.map (·.restricted))
  raiseIf (∃ s ∈ slots, s ∈ restricted) .value
  let hasDict := decide ("__dict__" ∈ slots) || mro.any (fun d => d.slots.isNone)
  let types ← declaredTypes checkable kind slots mro
  .ok ⟨kind, slots, hasDict, restricted, types, collected (mro.map (·.attrs))⟩

end Aiootp.Slots
