import Verif.Model.BundleShared

/-
What it means that a key bundle is used once.
-/

namespace Aiootp.BundleShared

open Cipher

/-- Call `i` has begun to encrypt or decrypt. -/
def Started (s : Sys) (i : Nat) (d : Direction) : Prop :=
  ∃ k m, s.calls[i]? = some ⟨.junction k d m, .done (.ok ())⟩

/-- At most one call has. -/
def Once (s : Sys) : Prop := ∀ i j d e, Started s i d → Started s j e → i = j

/-- No thread is inside a call of `bytes_encipher`, `bytes_decipher` or their asynchronous versions. -/
def Quiet (s : Sys) : Prop :=
  ∀ (i : Nat) (k : Nat) (d : Direction) (m : RunMode) (p : Phase), s.calls[i]? = some ⟨.junction k d m, p⟩ →
    p = .waiting ∨ ∃ r, p = .done r

/-- The action begins such a call, or makes it. -/
def Enters (s : Sys) (a : Action) : Prop :=
  ∃ k d m, a = .now (.junction k d m) ∨ a = .thread (.junction k d m) ∨
    ∃ i, a = .go i ∧ s.calls[i]? = some ⟨.junction k d m, .waiting⟩

/-- Such calls do not overlap. Other calls may overlap with each other and with them. -/
def Separate (s : Sys) : List Action → Prop
  | [] => True
  | a :: rest => (Enters s a → Quiet s) ∧ Separate (s.act a) rest

end Aiootp.BundleShared
