import Verif.Model.Database

/-
`aiootp/databases/sync_database.py`: databases with metatags. A metatag is a database with its own key, held by its parent as an
attribute; its files are in the same directory.

Simplifications:
- the attributes of a database object that are metatags are kept in a list, in the order of their creation; the record "1" of the
  manifest has the same names (`Tree.Rep`), except after `load_database(manifest=True)`, which is not modelled here.
- Python sets have no order: where the code runs over `self.metatags`, the model runs over the list.
- `load_metatags` opens every metatag that is listed, and their metatags; `fuel` bounds the depth (real directories have a finite depth).
- profile tokens are not modelled.
-/

namespace Aiootp.Database

variable {ρ J : Type} (E : Env ρ J)

mutual
/-- A database object with its metatags. -/
inductive Tree (J : Type) where
  | mk (node : Node J) (kids : Kids J)
/-- The metatag attributes of a database object. -/
inductive Kids (J : Type) where
  | nil
  | cons (name : String) (tree : Tree J) (rest : Kids J)
end

def Tree.node : Tree J → Node J
  | .mk n _ => n

def Tree.kids : Tree J → Kids J
  | .mk _ ks => ks

/-- `getattr(self, tag)`. -/
def Kids.get : Kids J → String → Option (Tree J)
  | .nil, _ => none
  | .cons m t rest, name => if m = name then some t else rest.get name

/-- The metatag object has changed. -/
def Kids.put : Kids J → String → Tree J → Kids J
  | .nil, _, _ => .nil
  | .cons m t rest, name, tree => if m = name then .cons m tree rest else .cons m t (rest.put name tree)

/-- `setattr(self, tag, sub_database)` of a new metatag. -/
def Kids.add : Kids J → String → Tree J → Kids J
  | .nil, name, tree => .cons name tree .nil
  | .cons m t rest, name, tree => .cons m t (rest.add name tree)

/-- `delattr(self, tag)`. -/
def Kids.del : Kids J → String → Kids J
  | .nil, _ => .nil
  | .cons m t rest, name => if m = name then rest.del name else .cons m t (rest.del name)

def Kids.names : Kids J → List String
  | .nil => []
  | .cons m _ rest => m :: rest.names

/-! ### saving -/

mutual
/-- sync_database.py:778-785 `save_database`: the manifest, then the metatags, then the tags. -/
def Tree.save (rs : String → ρ) : Tree J → Except Err Unit × List Write
  | .mk n kids =>
    let w := n.manifestWrite E (rs (E.rootName n.key))
    let k := kids.save rs
    match k.1 with
    | .error e => (.error e, w :: k.2)
    | .ok _ =>
      let t := n.saveTags E rs n.cache
      (t.1, w :: (k.2 ++ t.2))
/-- sync_database.py:750-755 `_save_metatags`. -/
def Kids.save (rs : String → ρ) : Kids J → Except Err Unit × List Write
  | .nil => (.ok (), [])
  | .cons _ t rest =>
    let a := t.save rs
    match a.1 with
    | .error e => (.error e, a.2)
    | .ok _ =>
      let b := rest.save rs
      (b.1, a.2 ++ b.2)
end

mutual
/-- sync_database.py:584-593 `clear_cache`. -/
def Tree.clear : Tree J → Tree J
  | .mk n kids => .mk n.clearCache kids.clear
def Kids.clear : Kids J → Kids J
  | .nil => .nil
  | .cons m t rest => .cons m t.clear rest.clear
end

/-! ### opening -/

/-- database_properties.py:114-128 `metatags`: the record "1" as a set. -/
def unique : List String → List String
  | [] => []
  | m :: ms => if m ∈ ms then unique ms else m :: unique ms

/-- sync_database.py:275-289 `load_metatags` of a new object: `make` is `metatag` for each listed name. -/
def openKids (make : String → Except Err (Tree J)) : List String → Except Err (Kids J)
  | [] => .ok .nil
  | m :: ms => do
    let t ← make m
    let rest ← openKids make ms
    .ok (.cons m t rest)

/-- sync_database.py:147-187 `__init__`, 291-314 `load_database` without preloading. `salts` gives the random new salt of each new
database by its place in the tree. `reserved` are the names of the attributes of the class. -/
def openTree (reserved : String → Bool) (disk : Disk) (now : Int) : (fuel : Nat) → (salts : List String → Bytes) → (key : Bytes) → Except Err (Tree J)
  | 0, _, _ => .error .diverges
  | fuel + 1, salts, key => do
    let n ← openNode E disk key (salts []) now
    let kids ← openKids (fun m => do
      raiseIf (reserved m = true) .attribute
      openTree reserved disk now fuel (fun p => salts (m :: p)) (E.metaKey n.key n.man.salt m)) (unique n.man.metatags)
    .ok (.mk n kids)

/-- sync_database.py:605-651 `metatag`. -/
def Tree.metatag (reserved : String → Bool) (disk : Disk) (now : Int) (fuel : Nat) (salts : List String → Bytes) (tag : String) :
    Tree J → Except Err Unit × Tree J
  | .mk n kids =>
    if reserved tag then (.error .attribute, .mk n kids)
    else
      let n' := if tag ∈ n.man.metatags then n else { n with man := { n.man with metatags := n.man.metatags ++ [tag] } }
      match kids.get tag with
      | some _ => (.ok (), .mk n' kids)
      | none =>
        match openTree E reserved disk now fuel salts (E.metaKey n.key n.man.salt tag) with
        | .error e => (.error e, .mk n kids)
        | .ok t => (.ok (), .mk n' (kids.add tag t))

/-! ### deleting -/

mutual
/-- sync_database.py:688-699 `delete_database`: metatags, then the files of the manifest (also for its records "0" and "1"), then the
manifest. Missing files are ignored. -/
def Tree.delete : Tree J → List Write
  | .mk n kids =>
    kids.delete ++ ([.unlink "0", .unlink "1"] ++ n.man.files.map (fun p => .unlink p.1)) ++ [.unlink (E.rootName n.key)]
def Kids.delete : Kids J → List Write
  | .nil => []
  | .cons _ t rest => t.delete ++ rest.delete
end

/-- sync_database.py:653-662 `delete_metatag`. (If the metatag is listed but not an attribute, `metatag` opens it first; the two agree
here.) -/
def Tree.deleteMetatag (tag : String) : Tree J → Except Err Unit × Tree J × List Write
  | .mk n kids =>
    if tag ∈ n.man.metatags then
      match kids.get tag with
      | none => (.error .attribute, .mk n kids, [])
      | some t => (.ok (), .mk { n with man := { n.man with metatags := n.man.metatags.erase tag } } (kids.del tag), t.delete E)
    else (.error .key, .mk n kids, [])

/-! ### histories -/

/-- The calls on one object of the tree. -/
inductive TreeOp (ρ J : Type) where
  /-- a call that concerns the tags of the object only; not `save` -/
  | tags (op : Op ρ J)
  | save (rs : String → ρ)
  | clearAll
  | metatag (tag : String) (salt : Bytes) (now : Int)
  | deleteMetatag (tag : String)

/-- One call on the object `tree`. -/
def TreeOp.run (reserved : String → Bool) (disk : Disk) (tree : Tree J) : TreeOp ρ J → Except Err (Option (Value J)) × Tree J × List Write
  | .tags op =>
    let x := op.run E tree.node disk
    (x.1, .mk x.2.1 tree.kids, x.2.2)
  | .save rs =>
    let x := tree.save E rs
    (x.1.map (fun _ => none), tree, x.2)
  | .clearAll => (.ok none, tree.clear, [])
  | .metatag tag salt now =>
    let x := tree.metatag E reserved disk now 1 (fun _ => salt) tag
    (x.1.map (fun _ => none), x.2, [])
  | .deleteMetatag tag =>
    let x := tree.deleteMetatag E tag
    (x.1.map (fun _ => none), x.2)

/-- A call on the object that is reached from `tree` along the metatags `path`; nothing happens if there is none. -/
def Tree.exec (reserved : String → Bool) (disk : Disk) (op : TreeOp ρ J) : (path : List String) → Tree J → Except Err (Option (Value J)) × Tree J × List Write
  | [], tree => op.run E reserved disk tree
  | m :: path, .mk n kids =>
    match kids.get m with
    | none => (.error .attribute, .mk n kids, [])
    | some t =>
      let x := Tree.exec reserved disk op path t
      (x.1, .mk n (kids.put m x.2.1), x.2.2)

/-- The tree of objects and the directory. -/
structure World (J : Type) where
  tree : Tree J
  disk : Disk

def World.step (reserved : String → Bool) (w : World J) (path : List String) (op : TreeOp ρ J) : World J :=
  let x := w.tree.exec E reserved w.disk op path
  ⟨x.2.1, w.disk.applyAll x.2.2⟩

def World.run (reserved : String → Bool) (w : World J) : List (List String × TreeOp ρ J) → World J
  | [] => w
  | (path, op) :: rest => World.run reserved (w.step E reserved path op) rest

/-- The object that is reached along the metatags `path`. -/
def Tree.at? : (path : List String) → Tree J → Option (Tree J)
  | [], tree => some tree
  | m :: path, .mk _ kids =>
    match kids.get m with
    | none => none
    | some t => Tree.at? path t

end Aiootp.Database
