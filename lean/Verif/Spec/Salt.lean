import Verif.Model.Salt

/-
What the salt file functions do to a file when no one else uses it.
-/

namespace Aiootp.Salt

/-- The outcome of a call and the file afterwards. A file that is there after a call has mode 000, unless the call has not
touched it. -/
def effect (privileged : Bool) (op : Op) (file : Option File) : Outcome × Option File :=
  match op, file with
  | .make salt, none => if salt.length < 32 then (.tooShort, none) else (.ok, some ⟨true, salt⟩)
  | .make salt, some f =>
    if salt.length < 32 then (.tooShort, some f)
    else if f.locked && !privileged then (.denied, some f)
    else (.ok, some ⟨true, salt⟩)
  | .ensure salt, none => (.ok, some ⟨true, salt⟩)
  | .ensure _, some f => (.present, some f)
  | .read, none => (.missing, none)
  | .read, some f => if f.content.length < 32 then (.tooShort, some ⟨true, f.content⟩) else (.value f.content, some ⟨true, f.content⟩)
  | .update salt, none => if salt.length < 32 then (.tooShort, none) else (.missing, none)
  | .update salt, some f => if salt.length < 32 then (.tooShort, some f) else (.ok, some ⟨true, salt⟩)
  | .delete, none => (.missing, none)
  | .delete, some _ => (.ok, none)

/-- Calls one after the other. -/
def effects (privileged : Bool) (ops : Nat → Op) (file : Option File) : List Nat → Option File
  | [] => file
  | k :: ks => effects privileged ops (effect privileged (ops k) file).2 ks

end Aiootp.Salt
