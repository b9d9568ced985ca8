import Verif.Model.Py

/-
`aiootp/commons/configs.py`: `Config.set_config_id` and `ConfigMap`, with what `ConfigMap` inherits from
`commons/namespaces.py: FrozenNamespace` and `commons/slots.py: Slots`.

Config objects are numbers. Config ids are compared as keys of a dictionary are. The attributes of the class of the map that
are not slots are functions and plain values: an attribute of the instance goes before them. Code that changes `__dict__` of a
map directly, or that calls `object.__setattr__`, is not modelled.
-/

namespace Aiootp.ConfigMap

/-- A config id. The names of which the code takes notice are kept apart from other strings and other objects. -/
inductive Key where
  /-- the slot `CONFIG_TYPE` (configs.py:131) -/
  | configType
  /-- the slot `__dict__` (namespaces.py:63) -/
  | dict
  /-- `__class__` -/
  | cls
  /-- `_slots_set` (slots.py:117, 171) -/
  | slotsSet
  /-- any other string -/
  | name (n : Nat)
  /-- any hashable object that is no string -/
  | other (n : Nat)
  deriving DecidableEq, Repr

/-- What is given as a config: no `Config` at all, or one that is of the declared type or not. -/
inductive Kind where
  | none
  | config (ofType : Bool)
  deriving DecidableEq, Repr

/-- What does not change: the kinds of all objects, `name in config` for config objects, and the attributes of the map's class. -/
structure World where
  kind : Nat → Kind
  has : Nat → Key → Bool
  classAttr : Nat → Bool

/-- A map: its instance dictionary in the order of insertion, and the config that has replaced `CONFIG_TYPE`, if one has. `cid`
are the `CONFIG_ID`s of all config objects. -/
structure State where
  entries : List (Key × Nat)
  typeSlot : Option Nat
  cid : Nat → Option Key

/-- configs.py:135-150 `__init__` before the first entry. The config ids may have been set before. -/
def State.new (cid : Nat → Option Key) : State := ⟨[], none, cid⟩

/-- `name in dictionary`, `dictionary[name]` -/
def find (entries : List (Key × Nat)) (k : Key) : Option Nat := (entries.find? (fun e => e.1 = k)).map (·.2)

/-- `dictionary[name] = value` -/
def put (entries : List (Key × Nat)) (k : Key) (c : Nat) : List (Key × Nat) :=
  if (find entries k).isSome then entries.map (fun e => if e.1 = k then (k, c) else e) else entries ++ [(k, c)]

variable (W : World)

/-- `hasattr(map, name)` -/
def State.hasAttr (s : State) : Key → Bool
  | .configType | .dict | .cls | .slotsSet => true
  | .name n => (find s.entries (.name n)).isSome || W.classAttr n
  | .other _ => false

/-- slots.py:167-173 `__contains__`. An entry `_slots_set` hides the set of slots: `in` asks the config then. -/
def State.contains (s : State) (k : Key) : Bool :=
  let inSlots := match find s.entries .slotsSet with
    | some c => W.has c k
    | none => k = .configType || k = .dict
  (inSlots && s.hasAttr W k) || (find s.entries k).isSome

/-- slots.py:229-236 `__getitem__`: the config found, or `none` for any other object and for an exception. -/
def State.get (s : State) : Key → Option Nat
  | .configType => s.typeSlot
  | .dict | .cls => none
  | k => find s.entries k

/-- configs.py:88-101 `set_config_id`. -/
def State.setConfigId (s : State) (c : Nat) (k : Key) : Except Err State :=
  match s.cid c with
  | none => .ok { s with cid := fun d => if d = c then some k else s.cid d }
  | some k' => if k' = k then .ok s else .error .value

/-- configs.py:152-173 `__setitem__` (and slots.py:175-205 `__setattr__`), with the state that an exception leaves behind. -/
def State.set (s : State) (k : Key) (c : Nat) : Except Err Unit × State :=
  match W.kind c with
  | .none => (.error .attribute, s)
  | .config ofType =>
    match s.setConfigId c k with
    | .error e => (.error e, s)
    | .ok s =>
      if s.typeSlot.isSome || !ofType then (.error .type, s)
      else if s.contains W k && s.get k ≠ some c then (.error .permission, s)
      else match k with
        | .configType => (.ok (), { s with typeSlot := some c })
        | .dict | .cls => (.error .type, s)
        | k => (.ok (), { s with entries := put s.entries k c })

/-- Calls on the map and its configs. -/
inductive Op where
  /-- `map[k] = config`, `map.k = config`, one turn of `map.update` -/
  | set (k : Key) (c : Nat)
  /-- `del map[k]`, `del map.k` (namespaces.py:106-110) -/
  | del (k : Key)
  /-- `config.set_config_id(k)`, `config.CONFIG_ID = k`, or the config is put into another map -/
  | mark (c : Nat) (k : Key)
  /-- `map.clear()` (slots.py:326-333): the dictionary is emptied, then deleting the slot `CONFIG_TYPE` is refused -/
  | clear
  deriving DecidableEq, Repr

/-- One call. -/
def State.exec (s : State) : Op → Except Err Unit × State
  | .set k c => s.set W k c
  | .del _ => (.error .permission, s)
  | .mark c k =>
    match s.setConfigId c k with
    | .error e => (.error e, s)
    | .ok s => (.ok (), s)
  | .clear => (.error .permission, { s with entries := [] })

/-- A history of calls, with or without exceptions. -/
def State.run (s : State) : List Op → State
  | [] => s
  | op :: ops => State.run (s.exec W op).2 ops

/-- slots.py:279-286 `__iter__`, `keys`: the entries of the dictionary (the slots are unmapped),
as long as no entry hides `__slots__` or `_UNMAPPED_ATTRIBUTES`. -/
def State.keys (s : State) : List Key := s.entries.map (·.1)

end Aiootp.ConfigMap
