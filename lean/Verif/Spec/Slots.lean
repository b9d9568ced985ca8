import Verif.Model.Slots

/-!
The words of C50 and C51.
-/

namespace Aiootp.Slots

/-- A new instance: nothing is set. -/
def Obj.new (c : Cls) : Obj := ⟨c, fun _ => none, fun _ => none⟩

/-- The classes whose instances are frozen, apart from `FrozenInstance`. -/
def Kind.Frozen (k : Kind) : Prop := k = .frozen ∨ k = .frozenTyped ∨ k = .config

/-- The classes whose instances check types. -/
def Kind.Typed (k : Kind) : Prop := k = .typed ∨ k = .frozenTyped ∨ k = .config

/-- An operation that assigns to a name. -/
def Op.Assigns (op : Op) (s : String) : Prop :=
  match op with
  | .set n _ => n = .str s
  | .update l => ∃ v, (Name.str s, v) ∈ l
  | .del _ => False
  | .clear => False

/-- What must not be done with frozen objects. `obj.__class__ = ...` replaces the class. If instances have a dictionary, then `clear` empties it, the
name `_slots_set` hides the names of the slots, and the dictionary itself can be replaced unless it is declared as a slot. -/
def Op.FrozenSafe (c : Cls) (op : Op) : Prop :=
  ¬ op.Assigns "__class__" ∧
  (c.hasDict = true → op ≠ .clear ∧ ¬ op.Assigns "_slots_set" ∧ ("__dict__" ∈ c.slots ∨ ¬ op.Assigns "__dict__"))

/-- What must not be done with typed objects. `obj.__class__ = ...` replaces the class. If instances have a dictionary, then two names hide what the
checks use, and the dictionary itself can be replaced. -/
def Op.TypedSafe (c : Cls) (op : Op) : Prop :=
  ¬ op.Assigns "__class__" ∧
  (c.hasDict = true → ¬ op.Assigns "_validate_type" ∧ ¬ op.Assigns "_RESTRICTED_ATTRIBUTES" ∧ ¬ op.Assigns "__dict__")

/-- Every attribute that is set has its declared type. -/
def WellTyped (W : World) (o : Obj) : Prop := ∀ s t, o.cls.types.lookup s = some t → ∀ v, o.get (.str s) = some v → W.isa v t = true

/-- What an assignment to an attribute of a declared type is to do, from its current value: the value afterwards, or the exception. Types are checked; frozen objects
keep what is set; only the id of a `Config` may be assigned again, if it is the same. -/
def assigned (W : World) (kind : Kind) (s : String) (type : Nat) (current : Option Value) (v : Value) : Except Err Value :=
  if kind = .config ∧ s = "CONFIG_ID" then
    match W.isa v type, current with
    | false, _ => .error .type
    | true, none => .ok v
    | true, some x => if W.same v x then .ok x else .error .value
  else match kind, current, W.isa v type with
    | .typed, _, true => .ok v
    | .typed, _, false => .error .type
    | _, some _, _ => .error .permission
    | _, none, true => .ok v
    | _, none, false => .error .type

end Aiootp.Slots
