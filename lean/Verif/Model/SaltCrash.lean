import Verif.Model.Salt

/-
`aiootp/_paths.py`: salt files that are used by one process after another, each of which may die at any moment.

The guards are objects of the process (_paths.py:42): a new process begins with new guards. The file stays as it is. A process that ends
without being killed is one whose schedule was long enough. The salt is written by one system call: it is written whole or not at all.
-/

namespace Aiootp.Salt

/-- A process: its user, the calls of its threads, and the steps that are done before it ends. -/
structure Life where
  privileged : Bool
  ops : Nat → Op
  schedule : List Nat

/-- _paths.py:42, 170-285: the process at its last moment, if it begins with the file `file`. -/
def Life.last (l : Life) (file : Option File) : Sys := (Sys.init file).run l.privileged l.ops l.schedule

/-- The file that processes leave, one after another. -/
def afterLives (file : Option File) : List Life → Option File
  | [] => file
  | l :: ls => afterLives (l.last file).file ls

end Aiootp.Salt
