import Verif.Model.DatabaseTree

/-
`with` blocks of databases: `__enter__`, `__exit__` (sync_database.py:787-806), `__aenter__`, `__aexit__` (async_database.py:847-866).

The code in the block is arbitrary: it calls methods of the database and its metatags, sees what they return or raise, and decides what
to do next; in the end it is done, or an exception leaves it.
-/

namespace Aiootp.Database

variable {ρ J : Type} (E : Env ρ J)

/-- The code in a block. -/
inductive Block (ρ J : Type) where
  /-- the end of the block is reached -/
  | ends
  /-- an exception that the code does not catch -/
  | raises (e : Err)
  /-- a call on the object that is reached along the metatags `path`; `next` is the rest of the block, which depends on the result -/
  | call (path : List String) (op : TreeOp ρ J) (next : Except Err (Option (Value J)) → Block ρ J)
  /-- `delete_database()` of the outermost object -/
  | delete (next : Except Err Unit → Block ρ J)

/-- The run of a block. After `delete_database` the object has no attributes (sync_database.py:664-676 `_nullify`), and every call
raises `AttributeError`; `none` stands for such an object. -/
def Block.run (reserved : String → Bool) : Block ρ J → Option (Tree J) → Disk → Except Err Unit × Option (Tree J) × Disk
  | .ends, object, disk => (.ok (), object, disk)
  | .raises e, object, disk => (.error e, object, disk)
  | .call _ _ next, none, disk => Block.run reserved (next (.error .attribute)) none disk
  | .call path op next, some tree, disk =>
    let x := tree.exec E reserved disk op path
    Block.run reserved (next x.1) (some x.2.1) (disk.applyAll x.2.2)
  | .delete next, none, disk => Block.run reserved (next (.error .attribute)) none disk
  | .delete next, some tree, disk => Block.run reserved (next (.ok ())) none (disk.applyAll (tree.delete E))

/-- sync_database.py:794-806 `__exit__` of the object at `path`: the database is saved, whatever has happened in the block. If this
raises, then that exception leaves the statement. Else an exception of the block goes on, for `__exit__` returns `False` then. -/
def exitBlock (reserved : String → Bool) (path : List String) (rs : String → ρ) (result : Except Err Unit) :
    Option (Tree J) → Disk → Except Err Unit × Option (Tree J) × Disk
  | none, disk => (.error .attribute, none, disk)
  | some tree, disk =>
    let x := tree.exec E reserved disk (.save rs) path
    (match x.1 with
      | .error e => .error e
      | .ok _ => result, some x.2.1, disk.applyAll x.2.2)

/-- `with database.a.b: block`, where `path` is `a`, `b`: sync_database.py:787-806. -/
def withBlock (reserved : String → Bool) (path : List String) (rs : String → ρ) (block : Block ρ J) (object : Option (Tree J)) (disk : Disk) :
    Except Err Unit × Option (Tree J) × Disk :=
  let b := block.run E reserved object disk
  exitBlock E reserved path rs b.1 b.2.1 b.2.2

end Aiootp.Database
