import Verif.Model.Py

/-
`aiootp/generics/byte_io.py`: `read`, `write` and `append` of `ByteIO` and their asynchronous versions, with any number of calls at once.

A call opens its file, transfers data in one or more system calls, each of which transfers any positive number of bytes, and closes the file. Opening, and each transfer, is one step. What was
transferred is in the file, also after a crash (the caches of the operating system are not modelled). Paths are numbers; different paths are different files. Files are not deleted
meanwhile. Errors of the operating system are not modelled, apart from files that do not exist.
-/

namespace Aiootp.Files

/-- A call. -/
inductive Job where
  /-- byte_io.py:229-235 `read`, 221-227 `aread` -/
  | read (path : Nat) (size : Int)
  /-- byte_io.py:245-251 `write`, 237-243 `awrite` -/
  | write (path : Nat) (data : Bytes)
  /-- byte_io.py:261-267 `append`, 253-259 `aappend` -/
  | append (path : Nat) (data : Bytes)
  deriving DecidableEq, Repr

/-- Where a call is. -/
inductive Pc where
  /-- the file is not yet open -/
  | ready
  /-- reading: what was read -/
  | reading (got : Bytes)
  /-- a file opened with `"wb+"`: the position, and what is left to be written -/
  | writing (pos : Nat) (left : Bytes)
  /-- a file opened with `"ab+"` -/
  | appending (left : Bytes)
  /-- returned or raised; `write` and `append` return `None`, here the empty bytes -/
  | done (result : Except Err Bytes)
  deriving DecidableEq

/-- The files, and the calls. -/
structure State where
  file : Nat → Option Bytes
  job : Nat → Job
  pc : Nat → Pc := fun _ => .ready

/-- A new value at one place. -/
def put {α : Type} (f : Nat → α) (k : Nat) (a : α) : Nat → α := fun n => if n = k then a else f n

/-- The content after a write at a position. -/
def overlay (content : Bytes) (pos : Nat) (data : Bytes) : Bytes :=
  (content ++ List.replicate (pos - content.length) 0).take pos ++ data ++ content.drop (pos + data.length)

/-- The content of an open file. -/
def State.content (s : State) (p : Nat) : Bytes := (s.file p).getD []

/-- One step of the call `k`; the operating system transfers at most `n + 1` bytes. -/
def State.step (s : State) (k n : Nat) : State :=
  match s.pc k, s.job k with
  | .ready, .read p size =>
    match s.file p with
    | none => { s with pc := put s.pc k (.done (.error .fileNotFound)) }
    | some _ => { s with pc := put s.pc k (if size < -1 then .done (.error .value) else .reading []) }
  | .ready, .write p data => { s with file := put s.file p (some []), pc := put s.pc k (.writing 0 data) }
  | .ready, .append p data => { s with file := put s.file p (some (s.content p)), pc := put s.pc k (.appending data) }
  | .reading got, .read p size =>
    let chunk := ((s.content p).drop got.length).take (if size < 0 then n + 1 else min (n + 1) (size.toNat - got.length))
    { s with pc := put s.pc k (if chunk = [] then .done (.ok got) else .reading (got ++ chunk)) }
  | .writing pos left, .write p _ =>
    match left with
    | [] => { s with pc := put s.pc k (.done (.ok [])) }
    | _ :: _ =>
      { s with file := put s.file p (some (overlay (s.content p) pos (left.take (n + 1)))), pc := put s.pc k (.writing (pos + (left.take (n + 1)).length) (left.drop (n + 1))) }
  | .appending left, .append p _ =>
    match left with
    | [] => { s with pc := put s.pc k (.done (.ok [])) }
    | _ :: _ => { s with file := put s.file p (some (s.content p ++ left.take (n + 1))), pc := put s.pc k (.appending (left.drop (n + 1))) }
  | _, _ => s

/-- A schedule: which call goes on, and how much is transferred. -/
def State.run (s : State) : List (Nat × Nat) → State
  | [] => s
  | (k, n) :: es => (s.step k n).run es

end Aiootp.Files
