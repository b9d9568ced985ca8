import Verif.Model.AsyncDb

/-
`aiootp/databases/async_database.py`: calls that are cancelled, as by `asyncio.wait_for` and `Task.cancel`. The exception `CancelledError` is
raised where the call waits. The code of `finally` runs. The parts of a `gather` are cancelled with it. Work that a helper thread has begun
(opening and writing of a file by aiofiles, byte_io.py:238-243; removing of a file, loops.py:74-90 `wrap_in_executor`) cannot be cancelled: the thread may do it
later, at any time. Work that it has not begun is never done.

Simplifications: those of Model/AsyncDb.lean. The coroutine goes on with its next call; the exception is not among its results.
-/

namespace Aiootp.AsyncDb

open Database

variable {ρ J : Type} (E : Env ρ J)

/-- What a helper thread may still do. -/
inductive Job where
  | empty (name : String)
  | write (name : String) (data : Bytes)
  | remove (name : String)

/-- byte_io.py:238-243 `awrite`: `open` in mode `wb+` and `write`; async_database.py:568-581 `_adelete_file`. -/
def Job.run (disk : Disk) : Job → Disk
  | .empty name => disk.apply (.put name [])
  | .write name data => overwrite disk name data
  | .remove name => disk.apply (.unlink name)

/-- What `_asave_file` leaves to a thread: async_database.py:781-797. -/
def Save.jobs (filename : String) : Save → List Job
  | .begin => []
  | .opening _ => [.empty filename]
  | .writing data => [.write filename data]
  | .ended _ => []

/-- What a part of a `gather` leaves to a thread. -/
def Part.jobs : Part ρ J → List Job
  | .save filename _ s => s.jobs filename
  | .look .. => []

/-- async_database.py:818-837 `asave_tag`: a value that is to be dropped is dropped in `finally`, if `_asave_file` was called. -/
def cancelSave (filename : String) (drop : Bool) (n : Node J) : Save → Node J × List Job
  | .begin => (n, [])
  | s => (if drop then { n with cache := n.cache.del filename } else n, s.jobs filename)

/-- The object after a call is cancelled, and what is left to threads. -/
def cancelCall (n : Node J) (parts : List (Part ρ J)) (op : Op ρ J) (pc : Pc J) : Node J × List Job :=
  match op, pc with
  -- async_database.py:501-517 `aset_tag`
  | .set tag _ _ _, .saving s drop => cancelSave (n.filename E tag) drop n s
  -- async_database.py:818-837 `asave_tag`
  | .saveTag tag _ _, .saving s drop => cancelSave (n.filename E tag) drop n s
  -- async_database.py:583-608 `apop_tag`
  | .pop tag _ _, .removing _ _ => (n, [.remove (n.filename E tag)])
  -- async_database.py:839-845 `asave_database`, 753-779
  | .save _, .manifestOpen _ => (n, [.empty (E.rootName n.key)])
  | .save _, .manifestWrite data => (n, [.write (E.rootName n.key) data])
  -- async_database.py:799-806 `_asave_tags`, 281-296 `aload_tags`
  | _, .gathering => (n, parts.flatMap Part.jobs)
  | _, _ => (n, [])

/-- The coroutines, and what is left to threads. -/
structure CSys (ρ J : Type) where
  sys : Sys ρ J
  jobs : List Job

/-- The call that coroutine `k` is in is cancelled. -/
def CSys.cancel (c : CSys ρ J) (k : Nat) : CSys ρ J :=
  let t := c.sys.threads k
  match t.call with
  | none => c
  | some (op, pc) =>
    let x := cancelCall E c.sys.node t.parts op pc
    let parts := match pc with
      | .gathering => []
      | _ => t.parts
    ⟨⟨x.1, c.sys.disk, fun j => if j = k then { t with call := none, parts := parts } else c.sys.threads j⟩, c.jobs ++ x.2⟩

/-- A thread does what it has begun. -/
def CSys.late (c : CSys ρ J) (i : Nat) : CSys ρ J :=
  match c.jobs[i]? with
  | none => c
  | some job => ⟨{ c.sys with disk := job.run c.sys.disk }, c.jobs.eraseIdx i⟩

/-- A step of a schedule: of the coroutines, a cancellation, or a thread that is late. -/
inductive CMove where
  | step (m : Move)
  | cancel (k : Nat)
  | late (i : Nat)
  deriving DecidableEq

def CSys.step (c : CSys ρ J) : CMove → CSys ρ J
  | .step m => ⟨c.sys.step E m, c.jobs⟩
  | .cancel k => c.cancel E k
  | .late i => c.late i

def CSys.run (c : CSys ρ J) : List CMove → CSys ρ J
  | [] => c
  | m :: ms => CSys.run (c.step E m) ms

/-- Coroutines that begin with the calls given. -/
def CSys.start (node : Node J) (disk : Disk) (calls : Nat → List (Op ρ J)) : CSys ρ J := ⟨Sys.start node disk calls, []⟩

end Aiootp.AsyncDb
