import Verif.Model.DatabaseAsync

/-
The orders in which `delete_database` (sync_database.py:688-699) and `adelete_database` (async_database.py:738-750) unlink the files of a
tree of databases: the metatags come before the files of the tags, and the manifest is last. The metatags are in a Python set, so that
their order is not known; the order of the files of one database does not matter either.

Simplification: the unlinks of different metatags may come in any order here, also mixed; the code finishes one metatag before it starts
with the next.
-/

namespace Aiootp.Database

variable {ρ J : Type} (E : Env ρ J)

mutual
/-- sync_database.py:688-699 `delete_database`: the list is a possible order of the unlinks. -/
inductive Tree.Deletes : Tree J → List Write → Prop where
  | mk {n : Node J} {kids : Kids J} {a b : List Write} : Kids.Deletes kids a →
      b.Perm ([.unlink "0", .unlink "1"] ++ n.man.files.map (fun p => .unlink p.1)) → Tree.Deletes (.mk n kids) (a ++ b ++ [.unlink (E.rootName n.key)])
/-- The loop over the metatags: sync_database.py:693-695. -/
inductive Kids.Deletes : Kids J → List Write → Prop where
  | nil : Kids.Deletes .nil []
  | cons {m : String} {t : Tree J} {rest : Kids J} {a b c : List Write} : Tree.Deletes t a → Kids.Deletes rest b → Merge a b c → Kids.Deletes (.cons m t rest) c
end

end Aiootp.Database
