import Verif.Model.Files

/-
What callers of `read`, `write` and `append` expect.
-/

namespace Aiootp.Files

def Job.path : Job → Nat
  | .read p _ => p
  | .write p _ => p
  | .append p _ => p

/-- The bytes that a call writes. -/
def Job.data : Job → Bytes
  | .read _ _ => []
  | .write _ d => d
  | .append _ d => d

/-- Calls that are about to begin. -/
def Begin (s : State) : Prop := ∀ k, s.pc k = .ready

/-- Every system call of a schedule transfers all that the call wants to write. -/
def Whole (job : Nat → Job) (events : List (Nat × Nat)) : Prop := ∀ e ∈ events, (job e.1).data.length ≤ e.2 + 1

/-- A call has returned. -/
def State.returned (s : State) (k : Nat) : Prop := ∃ r, s.pc k = .done r

/-- Nothing but `append` and `read` touches the path. -/
def AppendOnly (job : Nat → Job) (p : Nat) : Prop := ∀ k d, job k ≠ .write p d

end Aiootp.Files
