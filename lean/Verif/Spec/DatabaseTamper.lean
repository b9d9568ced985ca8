import Verif.Spec.DatabaseRest

/-
Someone who changes the files of a database.
-/

namespace Aiootp.Database

variable {ρ J : Type}

/-- A way to read the directory with the key of the database: `query_tag` of an object, or the opening of the database. -/
inductive Reading (J : Type) where
  | query (n : Node J) (tag : String) (ttl : Option Int) (silent cache : Bool) (now : Int)
  | load (salt : Bytes) (now : Int)

/-- What is read: a value or a database object, or `none` if nothing is found or an exception is raised. -/
def Reading.gives (E : Env ρ J) (key : Bytes) (disk : Disk) : Reading J → Option (Value J ⊕ Node J)
  | .query n tag ttl silent cache now =>
    match (n.queryTag E disk tag ttl silent cache now).1 with
    | .ok (some v) => some (.inl v)
    | _ => none
  | .load salt now =>
    match openNode E disk key salt now with
    | .ok n => some (.inr n)
    | .error _ => none

/-- The object that is asked is one of this database, whatever else it has in it. -/
def Reading.Of (key salt : Bytes) (tags : Finset String) : Reading J → Prop
  | .query n tag _ _ _ _ => n.key = key ∧ n.man.salt = salt ∧ tag ∈ tags
  | .load _ _ => True

/-- The directory is changed to `disk`, and something is read that the reading would not have given at any moment of the past. `seen` is all that the database did to the directory. -/
def Deceived (E : Env ρ J) (key : Bytes) (seen : List (List Write)) (disk : Disk) (r : Reading J) : Prop :=
  ∃ v, r.gives E key disk = some v ∧ ∀ past, past <+: seen.flatten → r.gives E key (noFiles.applyAll past) ≠ some v

/-- Someone who has seen all that the database did to the directory, puts other files there, and has someone read it. -/
abbrev Tamperer (J : Type) := List (List Write) → Disk × Reading J

/-- The tags of a call are among these. -/
def Call.Within (tags : Finset String) : Call ρ J → Prop
  | .tags (.set t _ _ _) => t ∈ tags
  | .tags (.query t _ _ _ _) => t ∈ tags
  | .tags (.pop t _ _) => t ∈ tags
  | .tags (.delItem t) => t ∈ tags
  | .tags (.rollback t _ _) => t ∈ tags
  | .tags (.saveTag t _ _) => t ∈ tags
  | .tags .clearCache => True
  | .tags (.loadTags _ _) => True
  | .tags (.save _) => False
  | .save _ => True

end Aiootp.Database
