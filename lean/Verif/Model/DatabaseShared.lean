import Verif.Model.Database

/-
Several `Database` objects, in one process or in several, that use the same key and the same directory: `aiootp/databases/sync_database.py`. Every
object has its own cache and its own manifest; only the files are shared. The code has no locks, and reads the manifest only when an object is
created (sync_database.py:252-264 `_load_manifest`, called by 147-187 `__init__`).

Simplifications, beside those of Model/Database.lean: a call of one object is one step, as if the calls of different objects did not overlap in time.
-/

namespace Aiootp.Database

variable {ρ J : Type} (E : Env ρ J)

/-- The objects, and the directory that they share. -/
structure Shared (J : Type) where
  nodes : Nat → Node J
  disk : Disk

/-- A call of one object: Model/Database.lean `Op.run`. -/
def Shared.step (s : Shared J) (call : Nat × Op ρ J) : Shared J :=
  let x := call.2.run E (s.nodes call.1) s.disk
  ⟨fun j => if j = call.1 then x.2.1 else s.nodes j, s.disk.applyAll x.2.2⟩

def Shared.run (s : Shared J) : List (Nat × Op ρ J) → Shared J
  | [] => s
  | call :: calls => Shared.run (s.step E call) calls

/-- What the calls of object `k` return, one after another. -/
def Shared.results (s : Shared J) (k : Nat) : List (Nat × Op ρ J) → List (Except Err (Option (Value J)))
  | [] => []
  | call :: calls =>
    let rest := Shared.results (s.step E call) k calls
    if call.1 = k then (call.2.run E (s.nodes k) s.disk).1 :: rest else rest

end Aiootp.Database
