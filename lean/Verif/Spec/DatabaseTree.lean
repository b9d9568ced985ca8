import Verif.Spec.Database
import Verif.Model.DatabaseTree

/-! What databases with metatags are for: each database of the tree has its own values. -/

namespace Aiootp.Database

variable {ρ J : Type}

/-- The values of the database that is reached along the metatags of the path. Where there is no database there are no values. -/
abbrev TreeView (J : Type) := List String → View J

/-- What the calls are for: a call on the tags concerns one database; a save and a cleared cache concern a database and everything
below it; a new metatag is empty; a deleted metatag has no values, and nothing below it has. -/
def TreeView.after (v : TreeView J) (path : List String) : TreeOp ρ J → TreeView J
  | .tags op => fun q => if q = path then (v q).after op else v q
  | .save _ => fun q => if path <+: q then { v q with saved := (v q).current } else v q
  | .clearAll => fun q => if path <+: q then { v q with current := (v q).saved } else v q
  | .metatag .. => v
  | .deleteMetatag tag => fun q => if path ++ [tag] <+: q then View.empty else v q

/-- The names of the files that a database with this key and salt may use. -/
def Names (E : Env ρ J) (T : String → Prop) (key salt : Bytes) (name : String) : Prop :=
  name = E.rootName key ∨ ∃ t, T t ∧ name = E.fileName key salt t

mutual
/-- The names of the files that the databases of the tree may use. -/
def Tree.Owns (E : Env ρ J) (T : String → Prop) : Tree J → String → Prop
  | .mk n kids, name => Names E T n.key n.man.salt name ∨ kids.Owns E T name
def Kids.Owns (E : Env ρ J) (T : String → Prop) : Kids J → String → Prop
  | .nil, _ => False
  | .cons _ t rest, name => t.Owns E T name ∨ rest.Owns E T name
end

/-- The key and the salt of a new database are new: no file in the directory and no database of the tree has one of its names. -/
structure Fresh (E : Env ρ J) (T : String → Prop) (w : World J) (key salt : Bytes) : Prop where
  apart : Apart E T key salt
  free : ∀ name, Names E T key salt name → w.disk name = none
  unowned : ∀ name, Names E T key salt name → ¬ w.tree.Owns E T name

/-- A new database: the files of its names are not there, and it is opened with a key of at least 64 bytes. -/
structure Start (E : Env ρ J) (T : String → Prop) (reserved : String → Bool) (key salt : Bytes) (w : World J) : Prop where
  apart : Apart E T key salt
  size : 64 ≤ key.length
  free : ∀ name, Names E T key salt name → w.disk name = none
  opened : ∃ now fuel, openTree E reserved w.disk now (fuel + 1) (fun _ => salt) key = .ok w.tree

/-- The calls that are considered. -/
def TreeOp.Allowed (E : Env ρ J) (good : ρ → Prop) (T : String → Prop) (w : World J) (path : List String) (op : TreeOp ρ J) : Prop :=
  ∃ sub, w.tree.at? path = some sub ∧
    match op with
    | .tags op => op.Allowed E good T ∧ ∀ rs, op ≠ .save rs
    | .save rs => ∀ name, good (rs name)
    | .clearAll => True
    | .metatag tag salt _ => tag ∈ sub.node.man.metatags ∨ Fresh E T w (E.metaKey sub.node.key sub.node.man.salt tag) salt
    | .deleteMetatag _ => True

/-- Every call of the history is one of those considered. -/
def AllAllowed (E : Env ρ J) (good : ρ → Prop) (T : String → Prop) (reserved : String → Bool) : World J → List (List String × TreeOp ρ J) → Prop
  | _, [] => True
  | w, (path, op) :: rest => op.Allowed E good T w path ∧ AllAllowed E good T reserved (w.step E reserved path op) rest

/-- The values after a history. -/
def TreeView.afterAll (v : TreeView J) : List (List String × TreeOp ρ J) → TreeView J
  | [] => v
  | (path, op) :: rest => (v.after path op).afterAll rest

end Aiootp.Database
