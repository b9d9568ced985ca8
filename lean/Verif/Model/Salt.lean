import Verif.Model.Guard

/-
`aiootp/_paths.py`: salt files, used by any number of threads of one process.

All calls of the sync functions on one path go through guards of one target of one `MultiConcurrencyGaurd` (_paths.py:42); the
guards of other paths do not matter (C37). Each thread makes one call. A thread does one file system call, or one operation on
the deques of the guard, at a time.

Simplifications: of the mode of a file only matters whether the owner may read and write it (`0o600`, or the default of a new
file) or not (`0o000`); `privileged` is a user whom modes do not bind (root). `read_bytes` is one step, `write_bytes` is two: the
truncation and the writing. Processes that die in the middle, other processes and the directories are not modelled.
-/

namespace Aiootp.Salt

open Guard (PC State Event)

abbrev Bytes := List Nat

structure File where
  locked : Bool
  content : Bytes
  deriving DecidableEq, Repr

/-- A call of `make_salt_file`, `SecureSaltPath`, `read_salt_file`, `update_salt_file` or `delete_salt_file`. The salts of the first
two are given or random (_paths.py:176). -/
inductive Op where
  | make (salt : Bytes)
  | ensure (salt : Bytes)
  | read
  | update (salt : Bytes)
  | delete
  deriving DecidableEq, Repr

/-- What a call ends with. -/
inductive Outcome where
  | ok
  | value (salt : Bytes)
  /-- `PermissionError` -/
  | denied
  /-- `FileNotFoundError` -/
  | missing
  /-- `ValueError` -/
  | tooShort
  /-- `SecureSaltPath` found the file and made none -/
  | present
  deriving DecidableEq, Repr

/-- How far a call is: before the guard, at a file system call of the guarded block, in `finally`, or over. -/
inductive Prog where
  | pre
  | at0
  | at1
  | at2
  | closing (o : Outcome)
  | over (o : Outcome)
  deriving DecidableEq, Repr

/-- The policies: `guards.monitor` for readers, `guards.guard` for all others (_paths.py:181, 213, 255, 282). -/
def exclusive (ops : Nat → Op) (k : Nat) : Bool := ops k != .read

/-- What is done before the guard: the test of the length (_paths.py:176-178, 251-252), and `is_file` (_paths.py:342). -/
def before (op : Op) (file : Option File) : Prog :=
  match op with
  | .make salt => if salt.length < 32 then .over .tooShort else .at0
  | .ensure _ => if file.isSome then .over .present else .at0
  | .update salt => if salt.length < 32 then .over .tooShort else .at0
  | .read => .at0
  | .delete => .at0

/-- `path.chmod(0o000)` (`true`) or `path.chmod(0o600)` (`false`). -/
def chmod (lock : Bool) (file : Option File) : Option (Option File) := file.map (fun f => some { f with locked := lock })

/-- `open(path, "wb")`: `none` is `PermissionError`. -/
def openWrite (privileged : Bool) : Option File → Option (Option File)
  | none => some (some ⟨false, []⟩)
  | some f => if f.locked && !privileged then none else some (some { f with content := [] })

/-- The writing to the open file. -/
def write (salt : Bytes) (file : Option File) : Option File := file.map (fun f => { f with content := salt })

/-- The next file system call of a guarded block: `make_salt_file` (_paths.py:182-184), `read_salt_file` (_paths.py:214-224),
`update_salt_file` (_paths.py:256-261), `delete_salt_file` (_paths.py:283-285). Readers and deleters have no third call. -/
def block (privileged : Bool) (op : Op) (file : Option File) : Prog → Prog × Option File
  | .at0 =>
    match op with
    | .make _ | .ensure _ =>
      match openWrite privileged file with
      | none => (.over .denied, file)
      | some file => (.at1, file)
    | .read | .update _ =>
      match chmod false file with
      | none => (.closing .missing, file)
      | some file => (.at1, file)
    | .delete =>
      match chmod false file with
      | none => (.over .missing, file)
      | some file => (.at1, file)
  | .at1 =>
    match op with
    | .make salt | .ensure salt => (.at2, write salt file)
    | .read =>
      match file with
      | none => (.closing .missing, file)
      | some f =>
        if f.locked && !privileged then (.closing .denied, file)
        else if f.content.length < 32 then (.closing .tooShort, file)
        else (.closing (.value f.content), file)
    | .update _ =>
      match openWrite privileged file with
      | none => (.closing .denied, file)
      | some file => (.at2, file)
    | .delete => (.over .ok, none)
  | .at2 =>
    match op with
    | .make _ | .ensure _ =>
      match chmod true file with
      | none => (.over .missing, file)
      | some file => (.over .ok, file)
    | .update salt => (.closing .ok, write salt file)
    | .read | .delete => (.closing .ok, file)
  | .closing o =>
    match chmod true file with
    | none => (.over .missing, file)
    | some file => (.over o, file)
  | .pre => (.pre, file)
  | .over o => (.over o, file)

/-- The file, the guards and the calls. Call `k` uses guard `k`. -/
structure Sys where
  guard : State
  file : Option File
  prog : Nat → Prog

def Sys.init (file : Option File) : Sys := ⟨State.init, file, fun _ => .pre⟩

/-- The next step of the thread of call `k`. -/
def Sys.step (privileged : Bool) (ops : Nat → Op) (s : Sys) (k : Nat) : Sys :=
  match s.prog k with
  | .pre => { s with prog := fun j => if j = k then before (ops k) s.file else s.prog j }
  | .over _ => if s.guard.pc k = .idle then s else { s with guard := s.guard.next (exclusive ops) (.step k) }
  | p =>
    if s.guard.pc k = .run then
      let r := block privileged (ops k) s.file p
      { s with prog := fun j => if j = k then r.1 else s.prog j, file := r.2 }
    else { s with guard := s.guard.next (exclusive ops) (.step k) }

/-- A schedule: which thread is next. -/
def Sys.run (privileged : Bool) (ops : Nat → Op) (s : Sys) : List Nat → Sys
  | [] => s
  | k :: ks => (s.step privileged ops k).run privileged ops ks

end Aiootp.Salt
