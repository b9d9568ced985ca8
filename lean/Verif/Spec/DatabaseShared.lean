import Verif.Spec.AsyncDb

/-! The calls of one of several database objects. -/

namespace Aiootp.Database

variable {ρ J : Type}

/-- The calls that object `k` makes. -/
def callsOf (k : Nat) (calls : List (Nat × Op ρ J)) : List (Op ρ J) := (calls.filter (fun c => c.1 = k)).map (·.2)

/-- Calls on tags of the set, and those on all values that the object itself has set or queried (not `load_tags`, which reads all tags). -/
def Op.Own (T : String → Prop) : Op ρ J → Prop
  | .loadTags .. => False
  | .clearCache => True
  | .save _ => True
  | op => ∃ t, T t ∧ op.tag? = some t

end Aiootp.Database
