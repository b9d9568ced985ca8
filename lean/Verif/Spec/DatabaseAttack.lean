import Verif.Spec.DatabaseTamper

/-
Someone who has the directory of a database in their hands while it is in use.
-/

namespace Aiootp.Database

variable {ρ J : Type}

/-- What is seen of a call: what it returned or raised, and what it did to the directory. -/
abbrev Event (J : Type) := Except Err (Option (Value J)) × List Write

/-- Someone who chooses, when they have seen the calls before, what is in the directory, and the next call. -/
abbrev Attacker (ρ J : Type) := List (Event J) → Disk × Call ρ J

/-- A new object of the database after `n` calls, and what was seen. Each call finds the directory as it is chosen then. -/
def attacked (E : Env ρ J) (f : Attacker ρ J) (key salt : Bytes) : (n : Nat) → Node J × List (Event J)
  | 0 => (newNode key salt, [])
  | n + 1 =>
    let s := attacked E f key salt n
    let x := ((f s.2).2.op E s.1).run E s.1 (f s.2).1
    (x.2.1, s.2 ++ [(x.1, x.2.2)])

/-- All that the database did to the directory. -/
def written (seen : List (Event J)) : List (List Write) := seen.map (·.2)

/-- The call is `set_tag` with this tag and value. -/
def Call.Stores (a : Call ρ J) (tag : String) (v : Value J) : Prop := ∃ cache r, a = .tags (.set tag v cache r)

/-- The call is `query_tag` or `pop_tag` with this tag. -/
def Call.Reads (a : Call ρ J) (tag : String) : Prop := (∃ ttl silent cache now, a = .tags (.query tag ttl silent cache now)) ∨ ∃ silent now, a = .tags (.pop tag silent now)

/-- One of the first `n` calls returns a value for a tag, and no call before it stored this value with this tag. -/
def Invented (E : Env ρ J) (f : Attacker ρ J) (key salt : Bytes) (n : Nat) : Prop :=
  ∃ i < n, ∃ tag v, (f (attacked E f key salt i).2).2.Reads tag ∧ (attacked E f key salt (i + 1)).2.getLast?.map (·.1) = some (.ok (some v)) ∧
    ∀ j < i, ¬ (f (attacked E f key salt j).2).2.Stores tag v

end Aiootp.Database
