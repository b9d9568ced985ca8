import Verif.Model.Package

/-
`aiootp/commons/packaging.py`: the modules of the package are replaced by ones that have only what is meant to be imported.
-/

namespace Aiootp.Packaging

open Package (Dict)

/-- What a name of a module stands for: a namespace made by `make_module`, or anything else. -/
inductive Value where
  | obj (id : Nat)
  | space (items : List (String × Value))

/-- A module: its `__name__` and its `module_api` (packaging.py:39-50; the name is `module_api["__name__"]`). -/
structure Module where
  name : String
  api : Dict Value

mutual
/-- A package: its `__name__`, its `module_api`, and its `subpackages` and `modules`, which are empty if it has no such attribute
(packaging.py:53-62). -/
inductive Pkg where
  | mk (name : String) (api : Dict Value) (subs : Subs) (mods : List (String × Module))
/-- The items of `subpackages` (packaging.py:58). -/
inductive Subs where
  | nil
  | cons (key : String) (package : Pkg) (rest : Subs)
end

/-- What a new `ModuleType(name)` has. 0 is `None`. -/
def defaults (name : Value) : Dict Value :=
  [("__name__", name), ("__doc__", .obj 0), ("__package__", .obj 0), ("__loader__", .obj 0), ("__spec__", .obj 0)]

/-- `sys.modules`, for each name the `__dict__` of the module. -/
abbrev Sys := Dict (Dict Value)

/-- packaging.py:28-36 `make_module`: what the namespace has that is returned, and `sys.modules`. `__name__` is in all apis, so what a new module has under
that name does not matter. (Names that a namespace refuses, as `keys`, are not in any api: see Model/Slots.lean for these.) -/
def makeModule (name : String) (api : Dict Value) (sys : Sys) : Dict Value × Sys :=
  ((defaults (.obj 0)).update api, sys.set name ((defaults (.obj 0)).update api))

/-- packaging.py:60-61: the modules are made, one after the other. -/
def remakeModules : List (String × Module) → Dict Value → Sys → Dict Value × Sys
  | [], api, sys => (api, sys)
  | (key, m) :: rest, api, sys =>
    let r := makeModule m.name m.api sys
    remakeModules rest (api.set key (.space r.1)) r.2

mutual
/-- packaging.py:53-62 `remake_subpackage`. -/
def remake : Pkg → Sys → Dict Value × Sys
  | .mk name api subs mods, sys =>
    let r := remakeSubs subs api sys
    let r := remakeModules mods r.1 r.2
    makeModule name r.1 r.2
/-- packaging.py:58-59: the subpackages are made, one after the other. -/
def remakeSubs : Subs → Dict Value → Sys → Dict Value × Sys
  | .nil, api, sys => (api, sys)
  | .cons key p rest, api, sys =>
    let r := remake p sys
    remakeSubs rest (api.set key (.space r.1)) r.2
end

end Aiootp.Packaging
