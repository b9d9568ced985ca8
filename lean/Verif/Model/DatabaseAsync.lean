import Verif.Model.DatabaseTree

/-
`aiootp/databases/async_database.py:753-845`: `asave_database` of a tree of databases. The manifest of a database is written first. Then
the saves of its metatags and of its tags run together in `gather`, and so do the saves of the different metatags and those of the
different tags. The files are written by threads, so that they come in any order that these dependencies leave open.

Simplifications: nothing else uses the objects while they are saved (`Model/AsyncDb.lean` is about that). A file is written in one step
(`C42_torn_file` is about that). If a value cannot be encoded then the model leaves out its file and goes on with the others, as
`gather` does until the event loop is closed.
-/

namespace Aiootp.Database

variable {ρ J : Type} (E : Env ρ J)

/-- The third list has the elements of the first two in some order that keeps the order within each of them. -/
inductive Merge {α : Type} : List α → List α → List α → Prop where
  | nil : Merge [] [] []
  | left {x : α} {a b c : List α} : Merge a b c → Merge (x :: a) b (x :: c)
  | right {x : α} {a b c : List α} : Merge a b c → Merge a (x :: b) (x :: c)

/-- async_database.py:799-806 `_asave_tags`, 781-797 `_asave_file`: the files of the cached tags. -/
def Node.tagWrites (n : Node J) (rs : String → ρ) : List Write :=
  n.cache.filterMap (fun p => (n.saveFile E p.1 (rs p.1)).toOption)

mutual
/-- async_database.py:839-845 `asave_database`: the list is a possible order of the writes. -/
inductive Tree.ASave (rs : String → ρ) : Tree J → List Write → Prop where
  | mk {n : Node J} {kids : Kids J} {a b c : List Write} : Kids.ASave rs kids a → b.Perm (n.tagWrites E rs) → Merge a b c →
      Tree.ASave rs (.mk n kids) (n.manifestWrite E (rs (E.rootName n.key)) :: c)
/-- async_database.py:808-816 `_asave_metatags`. -/
inductive Kids.ASave (rs : String → ρ) : Kids J → List Write → Prop where
  | nil : Kids.ASave rs .nil []
  | cons {m : String} {t : Tree J} {rest : Kids J} {a b c : List Write} : Tree.ASave rs t a → Kids.ASave rs rest b → Merge a b c →
      Kids.ASave rs (.cons m t rest) c
end

/-- async_database.py:147-187 `__init__` and 654-700 `ametatag` (sync_database.py:147-187, 605-651): the database object that one gets by
opening the database with this key and asking for the metatags of the path, one after the other. `salt` is the new random salt of a
database that has no manifest. Simplification: the metatags that are not on the path are not opened. -/
def reach (disk : Disk) (salt : Bytes) (now : Int) : (path : List String) → (key : Bytes) → Except Err (Node J)
  | [], key => openNode E disk key salt now
  | m :: path, key => do
    let n ← (openNode E disk key salt now : Except Err (Node J))
    reach disk salt now path (E.metaKey n.key n.man.salt m)

end Aiootp.Database
