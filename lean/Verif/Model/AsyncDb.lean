import Verif.Model.Database

/-
`aiootp/databases/async_database.py`: one `AsyncDatabase` object that is used by several coroutines of one event loop. A coroutine runs
until its next `await`; then another one may run. The steps below are the parts between the `await`s at which shared things (the cache,
the manifest, the files) are read or changed. Files are opened, which empties them, and written by a helper thread (byte_io.py:238-243
`awrite`), in two steps.

Simplifications, beside those of Model/Database.lean:
- databases without metatags (see Model/AsyncMetatag.lean).
- a file that is removed while it is written is not created again in between.
- the reading of a file is one step.
- if several parts of a `gather` fail, then the exception is that of the first part instead of the first in time.
-/

namespace Aiootp.AsyncDb

open Database

variable {ρ J : Type} (E : Env ρ J)

/-! ### writing and reading files -/

/-- Writing to an open file, from its beginning. A file that was removed after it was opened stays removed. -/
def overwrite (disk : Disk) (name : String) (data : Bytes) : Disk := fun n =>
  if n = name then (disk name).map (fun old => data ++ old.drop data.length) else disk n

/-- The states of `_asave_file`: async_database.py:781-797. -/
inductive Save where
  | begin
  | opening (data : Bytes)
  | writing (data : Bytes)
  | ended (r : Except Err Unit)

/-- async_database.py:781-797 `_asave_file`, byte_io.py:238-243. -/
def Save.step (n : Node J) (disk : Disk) (filename : String) (r : ρ) : Save → Save × Disk
  | .begin =>
    match n.cache.get filename with
    | none => (.ended (.error .attribute), disk)
    | some v =>
      match encodeValue E v with
      | .error e => (.ended (.error e), disk)
      | .ok text => (.opening (E.encrypt (E.fileKey n.key n.man.salt filename) r text), disk)
  | .opening data => (.writing data, disk.apply (.put filename []))
  | .writing data => (.ended (.ok ()), overwrite disk filename data)
  | .ended x => (.ended x, disk)

/-- The states of `aquery_tag`. -/
inductive Look (J : Type) where
  | lookup
  | reading
  | decrypting (c : Bytes)
  | found (x : Except Err (Option (Value J)))

/-- async_database.py:536-566 `aquery_tag`, 519-534 `_aquery_ciphertext`. -/
def Look.step (n : Node J) (disk : Disk) (filename : String) (ttl : Option Int) (silent cache : Bool) (now : Int) : Look J → Look J × Node J
  | .lookup =>
    match n.cache.get filename with
    | some v => (.found (.ok (some v)), n)
    | none => (.reading, n)
  | .reading =>
    match disk filename with
    | none => (.found (if silent then .ok none else .error .key), n)
    | some [] => (.found (.ok none), n)
    | some (c :: cs) => (.decrypting (c :: cs), n)
  | .decrypting c =>
    match (do let text ← E.decrypt (E.fileKey n.key n.man.salt filename) now ttl c; decodeValue E text) with
    | .error e => (.found (.error e), n)
    | .ok v => (.found (.ok (some v)), if cache then { n with cache := n.cache.set filename v } else n)
  | .found x => (.found x, n)

/-! ### the calls -/

/-- A part of a `gather`, which runs as a task of its own. -/
inductive Part (ρ J : Type) where
  | save (filename : String) (r : ρ) (s : Save)
  | look (tag : String) (silent : Bool) (now : Int) (l : Look J)

/-- Where a call is. -/
inductive Pc (J : Type) where
  | start
  | saving (s : Save) (drop : Bool)
  | looking (l : Look J)
  /-- `apop_tag`, before the file is removed -/
  | removing (value : Option (Value J)) (failed : Bool)
  /-- `asave_database`: the manifest -/
  | manifestOpen (data : Bytes)
  | manifestWrite (data : Bytes)
  | spawning
  | gathering
  | ended (x : Except Err (Option (Value J)))

/-- What a call on a tag has to work with: the object, the directory, and the place where the call is. -/
structure Local (J : Type) where
  node : Node J
  disk : Disk
  pc : Pc J

/-- async_database.py:818-837 `asave_tag`, from the call of `_asave_file` on. The code in `finally` runs when `_asave_file` has raised, or
later, when the file is closed. -/
def saveStep (filename : String) (drop : Bool) (r : ρ) (n : Node J) (disk : Disk) (s : Save) : Local J :=
  let finish (x : Except Err Unit) (disk : Disk) : Local J :=
    ⟨if drop then { n with cache := n.cache.del filename } else n, disk,
      .ended (match x with
        | .ok _ => .ok none
        | .error .attribute => .error .key
        | .error e => .error e)⟩
  match s with
  | .ended x => finish x disk
  | s =>
    match s.step E n disk filename r with
    | (.ended (.error e), disk) => finish (.error e) disk
    | (s, disk) => ⟨n, disk, .saving s drop⟩

/-- async_database.py:536-566 `aquery_tag` called by the user. -/
def queryLook (filename : String) (n : Node J) (disk : Disk) (ttl : Option Int) (silent cache : Bool) (now : Int) (l : Look J) : Local J :=
  match l.step E n disk filename ttl silent cache now with
  | (.found x, n) => ⟨n, disk, .ended x⟩
  | (l, n) => ⟨n, disk, .looking l⟩

/-- async_database.py:583-608 `apop_tag`: the query, and the part without `await` after it. -/
def popLook (filename : String) (n : Node J) (disk : Disk) (now : Int) (l : Look J) : Local J :=
  match l.step E n disk filename none true false now with
  | (.found (.error e), n) => ⟨n, disk, .ended (.error e)⟩
  | (.found (.ok value), n) =>
    ⟨{ n with cache := n.cache.del filename, man := { n.man with files := n.man.files.del filename } }, disk,
      .removing value ((n.man.files.get filename).isNone && (n.cache.get filename).isNone)⟩
  | (l, n) => ⟨n, disk, .looking l⟩

/-- The next step of a call on one tag. (Calls on all tags: `wideStep`.) -/
def tagStep (n : Node J) (disk : Disk) (op : Op ρ J) (pc : Pc J) : Local J :=
  match op, pc with
  -- async_database.py:501-517 `aset_tag`
  | .set tag data cache _, .start =>
    let filename := n.filename E tag
    let n := { n with cache := n.cache.set filename data, man := { n.man with files := n.man.files.set filename tag } }
    ⟨n, disk, if cache then .ended (.ok none) else .saving .begin true⟩
  | .set tag _ _ r, .saving s drop => saveStep E (n.filename E tag) drop r n disk s
  -- async_database.py:818-837 `asave_tag`
  | .saveTag tag drop r, .start => saveStep E (n.filename E tag) drop r n disk .begin
  | .saveTag tag _ r, .saving s drop => saveStep E (n.filename E tag) drop r n disk s
  -- async_database.py:536-566 `aquery_tag`
  | .query tag ttl silent cache now, .start =>
    queryLook E (n.filename E tag) n disk ttl silent cache now .lookup
  | .query tag ttl silent cache now, .looking l =>
    queryLook E (n.filename E tag) n disk ttl silent cache now l
  -- async_database.py:583-608 `apop_tag`
  | .pop tag _ now, .start => popLook E (n.filename E tag) n disk now .lookup
  | .pop tag _ now, .looking l => popLook E (n.filename E tag) n disk now l
  | .pop tag silent _, .removing value failed =>
    let filename := n.filename E tag
    ⟨n, disk.apply (.unlink filename), .ended (if failed && (disk filename).isNone && !silent then .error .key else .ok value)⟩
  -- database_properties.py:182-193 `__delitem__`
  | .delItem tag, .start => ⟨n.forget E tag, disk.apply (.unlink (n.filename E tag)), .ended (.ok none)⟩
  -- async_database.py:610-630 `arollback_tag`
  | .rollback tag cache _, .start =>
    let filename := n.filename E tag
    let files := if (disk filename).isNone then n.man.files.del filename else n.man.files
    ⟨{ n with cache := n.cache.del filename, man := { n.man with files := files } }, disk, if cache then .looking .lookup else .ended (.ok none)⟩
  | .rollback tag _ now, .looking l =>
    match l.step E n disk (n.filename E tag) none false true now with
    | (.found (.error .key), n) => ⟨n, disk, .ended (.ok none)⟩
    | (.found (.error e), n) => ⟨n, disk, .ended (.error e)⟩
    | (.found (.ok _), n) => ⟨n, disk, .ended (.ok none)⟩
    | (l, n) => ⟨n, disk, .looking l⟩
  | _, pc => ⟨n, disk, pc⟩

/-! ### several coroutines -/

/-- A coroutine: the calls it has still to make, the call it is in, with the parts of its `gather`, and the results so far. -/
structure Thread (ρ J : Type) where
  todo : List (Op ρ J)
  call : Option (Op ρ J × Pc J)
  parts : List (Part ρ J)
  results : List (Except Err (Option (Value J)))

structure Sys (ρ J : Type) where
  node : Node J
  disk : Disk
  threads : Nat → Thread ρ J

/-- What has happened to the first part that has failed. -/
def failure : List (Part ρ J) → Option Err
  | [] => none
  | .save _ _ (.ended (.error e)) :: _ => some e
  | .look _ _ _ (.found (.error e)) :: _ => some e
  | _ :: ps => failure ps

/-- Whether all parts have ended. -/
def allEnded : List (Part ρ J) → Bool
  | [] => true
  | .save _ _ (.ended _) :: ps => allEnded ps
  | .look _ _ _ (.found _) :: ps => allEnded ps
  | _ :: _ => false

/-- The next step of a call that concerns all tags. -/
def wideStep (n : Node J) (disk : Disk) (parts : List (Part ρ J)) (op : Op ρ J) (pc : Pc J) : Local J × List (Part ρ J) :=
  match op, pc with
  -- async_database.py:632-642 `aclear_cache`
  | .clearCache, .start => (⟨n.clearCache, disk, .ended (.ok none)⟩, parts)
  -- async_database.py:839-845 `asave_database`, 753-779
  | .save rs, .start => (⟨n, disk, .manifestOpen (E.encrypt (E.manifestKey n.key) (rs (E.rootName n.key)) (E.dumpManifest n.man))⟩, parts)
  | .save _, .manifestOpen data => (⟨n, disk.apply (.put (E.rootName n.key) []), .manifestWrite data⟩, parts)
  | .save _, .manifestWrite data => (⟨n, overwrite disk (E.rootName n.key) data, .spawning⟩, parts)
  -- async_database.py:799-806 `_asave_tags`
  | .save rs, .spawning => (⟨n, disk, .gathering⟩, n.cache.map (fun p => .save p.1 (rs p.1) .begin))
  -- async_database.py:281-296 `aload_tags`
  | .loadTags silent now, .start => (⟨n, disk, .gathering⟩, n.tags.map (fun t => .look t silent now .lookup))
  | _, .gathering =>
    match failure parts with
    | some e => (⟨n, disk, .ended (.error e)⟩, parts)
    | none => (⟨n, disk, if allEnded parts then .ended (.ok none) else .gathering⟩, parts)
  | _, pc => (⟨n, disk, pc⟩, parts)

/-- Whether a call concerns all tags. -/
def isWide : Op ρ J → Bool
  | .clearCache => true
  | .save _ => true
  | .loadTags .. => true
  | _ => false

/-- The next step of a coroutine: it makes its next call, or goes on with the call it is in. -/
def Sys.main (s : Sys ρ J) (k : Nat) : Sys ρ J :=
  let t := s.threads k
  let put (node : Node J) (disk : Disk) (t : Thread ρ J) : Sys ρ J := ⟨node, disk, fun j => if j = k then t else s.threads j⟩
  match t.call with
  | none =>
    match t.todo with
    | [] => s
    | op :: rest => put s.node s.disk { t with todo := rest, call := some (op, .start) }
  | some (op, pc) =>
    let x := if isWide op then wideStep E s.node s.disk t.parts op pc else (tagStep E s.node s.disk op pc, t.parts)
    match x.1.pc with
    | .ended r => put x.1.node x.1.disk { t with call := none, parts := x.2, results := t.results ++ [r] }
    | pc => put x.1.node x.1.disk { t with call := some (op, pc), parts := x.2 }

/-- The next step of a part of the last `gather` of a coroutine. -/
def Sys.part (s : Sys ρ J) (k i : Nat) : Sys ρ J :=
  let t := s.threads k
  let put (node : Node J) (disk : Disk) (p : Part ρ J) : Sys ρ J :=
    ⟨node, disk, fun j => if j = k then { t with parts := t.parts.set i p } else s.threads j⟩
  match t.parts[i]? with
  | none => s
  | some (.save filename r x) =>
    let y := x.step E s.node s.disk filename r
    put s.node y.2 (.save filename r y.1)
  | some (.look tag silent now l) =>
    let y := l.step E s.node s.disk (s.node.filename E tag) none silent true now
    put y.2 s.disk (.look tag silent now y.1)

/-- One step of a schedule: coroutine `k`, or part `i` of its last `gather`. -/
inductive Move where
  | main (k : Nat)
  | part (k i : Nat)
  deriving DecidableEq

def Sys.step (s : Sys ρ J) : Move → Sys ρ J
  | .main k => s.main E k
  | .part k i => s.part E k i

def Sys.run (s : Sys ρ J) : List Move → Sys ρ J
  | [] => s
  | m :: ms => Sys.run (s.step E m) ms

/-- Coroutines that begin with the calls given. -/
def Sys.start (node : Node J) (disk : Disk) (calls : Nat → List (Op ρ J)) : Sys ρ J :=
  ⟨node, disk, fun k => ⟨calls k, none, [], []⟩⟩

end Aiootp.AsyncDb
