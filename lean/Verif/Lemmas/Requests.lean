import Verif.Lemmas.OracleMean
import Verif.Lemmas.SecrecyGame
import Verif.Lemmas.ChosenCiphertext

/-
Programs that have messages encrypted, one after another.
-/

namespace Aiootp.Secrecy

open Oracle Cipher

/-- A program that has a message encrypted and goes on when it has the ciphertext, or ends. -/
inductive Prog (α : Type) where
  | ret (x : α)
  | ask (r : Request) (next : Bytes → Prog α)

namespace Prog
variable {α β : Type} {K : Nat}

def bind (g : α → Prog β) : Prog α → Prog β
  | ret x => g x
  | ask r next => ask r fun m => (next m).bind g

def exec (encrypt : Request → Bytes) : Prog α → α
  | ret x => x
  | ask r next => (next (encrypt r)).exec encrypt

def tree (enc : Request → HashTree K Bytes) : Prog α → HashTree K α
  | ret x => .done x
  | ask r next => (enc r).bind fun m => (next m).tree enc

theorem exec_bind (encrypt : Request → Bytes) (g : α → Prog β) : ∀ p : Prog α, (p.bind g).exec encrypt = (g (p.exec encrypt)).exec encrypt
  | ret _ => rfl
  | ask _ next => exec_bind encrypt g (next _)

/-- All requests are valid, and none has a question in common with those before. -/
def Fair (c : Sizes) (own : Request → Set Bytes) : List Request → Prog α → Prop
  | _, ret _ => True
  | before, ask r next => r.Valid c ∧ (∀ b ∈ before, ∀ q ∈ own b, q ∉ own r) ∧ ∀ m, Fair c own (r :: before) (next m)

/-- The requests that may be made. -/
def Asks (r : Request) : Prog α → Prop
  | ret _ => False
  | ask r' next => r = r' ∨ ∃ m, Asks r (next m)

/-- The programs differ in what is secret only. -/
def Alike : Prog α → Prog α → Prop
  | ret x, ret x' => x = x'
  | ask r next, ask r' next' => (r.usedSalt = r'.usedSalt ∧ r.draws.iv = r'.draws.iv ∧ r.data.length = r'.data.length) ∧ ∀ m, Alike (next m) (next' m)
  | _, _ => False

section
variable {c : Sizes} {enc : Request → HashTree K Bytes} {own : Request → Set Bytes} (H : Scheme c enc own)
include H

theorem fresh : ∀ (p : Prog α) (before : List Request), p.Fair c own before → (p.tree enc).Fresh {q | ∃ b ∈ before, q ∈ own b}
  | ret _, _, _ => trivial
  | ask r next, before, h => by
    refine Tree.Fresh.bind (U := own r) (fun m => Tree.Fresh.mono ?_ (fresh (next m) _ (h.2.2 m))) ?_ (H.within h.1)
    · rintro q (⟨b, hb, hq⟩ | hq)
      · exact ⟨b, List.mem_cons_of_mem _ hb, hq⟩
      · exact ⟨r, List.mem_cons_self, hq⟩
    · refine H.fresh h.1 ?_
      rintro q hq ⟨b, hb, hq'⟩
      exact h.2.1 b hb q hq' hq

theorem within : ∀ (p : Prog α) (before : List Request), p.Fair c own before → (p.tree enc).AllIn {q | ∃ r, p.Asks r ∧ q ∈ own r}
  | ret _, _, _ => trivial
  | ask r next, before, h => by
    have h1 : own r ⊆ {q | ∃ r', (ask r next).Asks r' ∧ q ∈ own r'} := fun q hq => ⟨r, .inl rfl, hq⟩
    refine Tree.AllIn.bind (fun m => (within (next m) _ (h.2.2 m)).mono ?_) ((H.within h.1).mono h1)
    rintro q ⟨r', hr', hq⟩
    exact ⟨r', .inr ⟨m, hr'⟩, hq⟩

theorem same : ∀ (p p' : Prog α) (before before' : List Request), p.Fair c own before → p'.Fair c own before' → p.Alike p' → Tree.Same (· = ·) (p.tree enc) (p'.tree enc)
  | ret _, ret _, _, _, _, _, h => Tree.Same.done h
  | ask r next, ask r' next', _, _, f, f', h => by
    refine Tree.Same.bind (H.same f.1 f'.1 h.1) ?_
    rintro m _ rfl
    exact same (next m) (next' m) _ _ (f.2.2 m) (f'.2.2 m) (h.2 m)
  | ret _, ask _ _, _, _, _, _, h => h.elim
  | ask _ _, ret _, _, _, _, _, h => h.elim

end

theorem tree_run {D : Finset Bytes} {T : Hash D K} {c : Sizes} {own : Request → Set Bytes} {enc : Request → HashTree K Bytes} {encrypt : Request → Bytes}
    (he : ∀ r, r.Valid c → (enc r).AllIn (D : Set Bytes) → encrypt r = (enc r).run (Tree.ext T)) :
    ∀ (p : Prog α) (before : List Request), p.Fair c own before → (p.tree enc).AllIn (D : Set Bytes) → p.exec encrypt = (p.tree enc).run (Tree.ext T)
  | ret _, _, _, _ => rfl
  | ask r next, _, f, h => by
    have h1 := Tree.AllIn.left h
    have h2 := Tree.AllIn.right (Tree.ext T) h
    rw [exec, tree, Tree.run_bind, he r f.1 h1]
    exact tree_run he _ _ (f.2.2 _) h2

open Classical in
/-- No test tells alike programs apart. -/
theorem count {c : Sizes} {enc : Request → HashTree K Bytes} {own : Request → Set Bytes} (H : Scheme c enc own) {p p' : Prog α} (fair : p.Fair c own []) (fair' : p'.Fair c own [])
    (alike : p.Alike p') : ∃ D0 : Finset Bytes, (∀ q ∈ D0, ∃ r, (p.Asks r ∨ p'.Asks r) ∧ q ∈ own r) ∧
    ∀ D, D0 ⊆ D → ∀ encrypt : Hash D K → Request → Bytes, (∀ T r, r.Valid c → (enc r).AllIn (D : Set Bytes) → encrypt T r = (enc r).run (Tree.ext T)) →
      ∀ test : α → Prop, Secrecy.count (fun T : Hash D K => test (p.exec (encrypt T))) = Secrecy.count (fun T : Hash D K => test (p'.exec (encrypt T))) := by
  have one : ∀ {p : Prog α}, p.Fair c own [] → ∃ D0 : Finset Bytes, (∀ q ∈ D0, ∃ r, p.Asks r ∧ q ∈ own r) ∧
      ∀ D, D0 ⊆ D → ∀ encrypt : Hash D K → Request → Bytes, (∀ T r, r.Valid c → (enc r).AllIn (D : Set Bytes) → encrypt T r = (enc r).run (Tree.ext T)) →
        ∀ test : α → Prop, (Secrecy.count (fun T : Hash D K => test (p.exec (encrypt T))) : ℚ) =
          ((p.tree enc).mean fun x => if test x then 1 else 0) * Fintype.card (D → Digest K) := by
    intro p fair
    obtain ⟨D1, hD1⟩ := Tree.finite (p.tree enc)
    have hD0 : (p.tree enc).AllIn ((D1.filter fun q => ∃ r, p.Asks r ∧ q ∈ own r : Finset Bytes) : Set Bytes) :=
      (hD1.inter (within H p [] fair)).mono fun q hq => by simpa using hq
    refine ⟨D1.filter fun q => ∃ r, p.Asks r ∧ q ∈ own r, fun q hq => (Finset.mem_filter.1 hq).2, fun D hD encrypt he test => ?_⟩
    have hin : (p.tree enc).AllIn (D : Set Bytes) := hD0.mono (Finset.coe_subset.2 hD)
    have hfresh : (p.tree enc).Fresh ∅ := (fresh H p [] fair).mono (Set.empty_subset _)
    have ht := Tree.card_test (D := D) test hin
    rw [dirty_fresh hfresh, zero_mul] at ht
    have ht := sub_eq_zero.1 (abs_nonpos_iff.1 ht)
    rw [← ht]
    unfold Secrecy.count
    congr 2
    ext T
    simp only [Finset.mem_filter, Finset.mem_univ, true_and]
    rw [tree_run (he T) p [] fair hin]
  obtain ⟨D1, a1, b1⟩ := one fair
  obtain ⟨D2, a2, b2⟩ := one fair'
  refine ⟨D1 ∪ D2, fun q hq => ?_, fun D hD encrypt he test => ?_⟩
  · rcases Finset.mem_union.1 hq with hq | hq
    · obtain ⟨r, h, h'⟩ := a1 q hq
      exact ⟨r, .inl h, h'⟩
    · obtain ⟨r, h, h'⟩ := a2 q hq
      exact ⟨r, .inr h, h'⟩
  · have e1 := b1 D (Finset.union_subset_left hD) encrypt he test
    have e2 := b2 D (Finset.union_subset_right hD) encrypt he test
    rw [same H p p' [] [] fair fair' alike (fun x => if test x then 1 else 0) (fun x => if test x then 1 else 0) fun x x' e => by rw [e], ← e2] at e1
    exact_mod_cast e1

end Prog

end Aiootp.Secrecy
