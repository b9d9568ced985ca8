import Mathlib.Data.Fintype.BigOperators
import Mathlib.Algebra.BigOperators.Field
import Mathlib.Data.Rat.Defs
import Mathlib.Tactic.Ring
import Mathlib.Tactic.FieldSimp

/-
Computations that ask a function for its values, and how many functions lead them to a given result.
-/

namespace Aiootp.Oracle

variable {Q A α β : Type}

/-- A computation that asks for values of a function from `Q` to `A`. -/
inductive Tree (Q A α : Type) where
  | done (x : α) : Tree Q A α
  | ask (q : Q) (next : A → Tree Q A α) : Tree Q A α

namespace Tree

/-- The result for the function `f`. -/
def run (f : Q → A) : Tree Q A α → α
  | done x => x
  | ask q next => (next (f q)).run f

def bind (g : α → Tree Q A β) : Tree Q A α → Tree Q A β
  | done x => g x
  | ask q next => .ask q fun a => (next a).bind g

def map (g : α → β) (t : Tree Q A α) : Tree Q A β := t.bind fun x => .done (g x)

theorem run_bind (f : Q → A) (g : α → Tree Q A β) : ∀ t : Tree Q A α, (t.bind g).run f = (g (t.run f)).run f
  | done _ => rfl
  | ask q next => run_bind f g (next (f q))

theorem run_map (f : Q → A) (g : α → β) (t : Tree Q A α) : (t.map g).run f = g (t.run f) := run_bind f _ t

/-- No question is in `S` or is asked twice. -/
def Fresh (S : Set Q) : Tree Q A α → Prop
  | done _ => True
  | ask q next => q ∉ S ∧ ∀ a, (next a).Fresh (insert q S)

/-- All questions are in `U`. -/
def AllIn (U : Set Q) : Tree Q A α → Prop
  | done _ => True
  | ask q next => q ∈ U ∧ ∀ a, (next a).AllIn U

/-- All results have the property. -/
def AllOut (P : α → Prop) : Tree Q A α → Prop
  | done x => P x
  | ask _ next => ∀ a, (next a).AllOut P

theorem Fresh.mono {S S' : Set Q} (hs : S ⊆ S') : ∀ {t : Tree Q A α}, t.Fresh S' → t.Fresh S
  | done _, _ => trivial
  | ask _ _, h => ⟨fun hq => h.1 (hs hq), fun a => (h.2 a).mono (Set.insert_subset_insert hs)⟩

theorem AllIn.mono {U U' : Set Q} (hs : U ⊆ U') : ∀ {t : Tree Q A α}, t.AllIn U → t.AllIn U'
  | done _, _ => trivial
  | ask _ _, h => ⟨hs h.1, fun a => (h.2 a).mono hs⟩

theorem AllOut.mono {P P' : α → Prop} (hs : ∀ x, P x → P' x) : ∀ {t : Tree Q A α}, t.AllOut P → t.AllOut P'
  | done _, h => hs _ h
  | ask _ _, h => fun a => (h a).mono hs

theorem AllOut.bind {P : α → Prop} {P' : β → Prop} {g : α → Tree Q A β} (hg : ∀ x, P x → (g x).AllOut P') :
    ∀ {t : Tree Q A α}, t.AllOut P → (t.bind g).AllOut P'
  | done _, h => hg _ h
  | ask _ _, h => fun a => (h a).bind hg

theorem AllIn.bind {U : Set Q} {g : α → Tree Q A β} (hg : ∀ x, (g x).AllIn U) :
    ∀ {t : Tree Q A α}, t.AllIn U → (t.bind g).AllIn U
  | done x, _ => hg x
  | ask _ _, h => ⟨h.1, fun a => (h.2 a).bind hg⟩

theorem AllIn.map {U : Set Q} {g : α → β} {t : Tree Q A α} (h : t.AllIn U) : (t.map g).AllIn U := h.bind (g := fun x => .done (g x)) fun _ => trivial

theorem Fresh.bind {S U : Set Q} {g : α → Tree Q A β} (hg : ∀ x, (g x).Fresh (S ∪ U)) :
    ∀ {t : Tree Q A α}, t.Fresh S → t.AllIn U → (t.bind g).Fresh S
  | done x, _, _ => (hg x).mono Set.subset_union_left
  | ask q next, h, hu => by
    refine ⟨h.1, fun a => ?_⟩
    refine (h.2 a).bind (U := U) (fun x => ?_) (hu.2 a)
    have : insert q S ∪ U = S ∪ U := by
      rw [Set.insert_union, Set.insert_eq_of_mem (Set.mem_union_right _ hu.1)]
    rw [this]
    exact hg x

/-- The same, if the results of the first part have a property. -/
theorem Fresh.bindOut {S U : Set Q} {P : α → Prop} {g : α → Tree Q A β} (hg : ∀ x, P x → (g x).Fresh (S ∪ U)) :
    ∀ {t : Tree Q A α}, t.Fresh S → t.AllIn U → t.AllOut P → (t.bind g).Fresh S
  | done x, _, _, h => (hg x h).mono Set.subset_union_left
  | ask q next, h, hu, ho => by
    refine ⟨h.1, fun a => ?_⟩
    refine (h.2 a).bindOut (U := U) (P := P) (fun x hx => ?_) (hu.2 a) (ho a)
    have : insert q S ∪ U = S ∪ U := by
      rw [Set.insert_union, Set.insert_eq_of_mem (Set.mem_union_right _ hu.1)]
    rw [this]
    exact hg x hx

theorem AllIn.bindOut {U : Set Q} {P : α → Prop} {g : α → Tree Q A β} (hg : ∀ x, P x → (g x).AllIn U) :
    ∀ {t : Tree Q A α}, t.AllIn U → t.AllOut P → (t.bind g).AllIn U
  | done x, _, h => hg x h
  | ask _ _, h, ho => ⟨h.1, fun a => (h.2 a).bindOut hg (ho a)⟩

/-- Questions that are not asked do not matter. -/
theorem Fresh.union {S S' U : Set Q} (hd : ∀ q ∈ U, q ∉ S') : ∀ {t : Tree Q A α}, t.Fresh S → t.AllIn U → t.Fresh (S' ∪ S)
  | done _, _, _ => trivial
  | ask q next, h, hu => by
    refine ⟨fun hq => hq.elim (hd q hu.1) h.1, fun a => ?_⟩
    rw [← Set.union_insert]
    exact (h.2 a).union hd (hu.2 a)

theorem AllIn.inter {U U' : Set Q} : ∀ {t : Tree Q A α}, t.AllIn U → t.AllIn U' → t.AllIn (U ∩ U')
  | done _, _, _ => trivial
  | ask _ _, h, h' => ⟨⟨h.1, h'.1⟩, fun a => AllIn.inter (h.2 a) (h'.2 a)⟩

theorem AllIn.left {U : Set Q} {g : α → Tree Q A β} : ∀ {t : Tree Q A α}, (t.bind g).AllIn U → t.AllIn U
  | done _, _ => trivial
  | ask _ _, h => ⟨h.1, fun a => (h.2 a).left⟩

theorem AllIn.right {U : Set Q} {g : α → Tree Q A β} (f : Q → A) : ∀ {t : Tree Q A α}, (t.bind g).AllIn U → (g (t.run f)).AllIn U
  | done _, h => h
  | ask q next, h => AllIn.right (t := next (f q)) f (h.2 (f q))

theorem AllOut.run {P : α → Prop} (f : Q → A) : ∀ {t : Tree Q A α}, t.AllOut P → P (t.run f)
  | done _, h => h
  | ask q next, h => AllOut.run (t := next (f q)) f (h (f q))

theorem AllOut.and {P P' : α → Prop} : ∀ {t : Tree Q A α}, t.AllOut P → t.AllOut P' → t.AllOut fun x => P x ∧ P' x
  | done _, h, h' => ⟨h, h'⟩
  | ask _ _, h, h' => fun a => (h a).and (h' a)

theorem Fresh.map {S : Set Q} {g : α → β} : ∀ {t : Tree Q A α}, t.Fresh S → (t.map g).Fresh S
  | done _, _ => trivial
  | ask _ _, h => ⟨h.1, fun a => (h.2 a).map⟩

/-- Finitely many questions are possible. -/
theorem finite [Fintype A] [DecidableEq Q] : ∀ t : Tree Q A α, ∃ D : Finset Q, t.AllIn (D : Set Q)
  | done _ => ⟨∅, trivial⟩
  | ask q next => by
    choose D hD using fun a => finite (next a)
    refine ⟨insert q (Finset.univ.biUnion D), ?_, fun a => (hD a).mono ?_⟩
    · simp
    · intro x hx
      have : x ∈ Finset.univ.biUnion D := Finset.mem_biUnion.2 ⟨a, Finset.mem_univ _, hx⟩
      exact Finset.mem_coe.2 (Finset.mem_insert_of_mem this)

/-- The chance of the result `c` if every answer is drawn anew. -/
def chance [Fintype A] [DecidableEq α] : Tree Q A α → α → ℚ
  | done x, c => if x = c then 1 else 0
  | ask _ next, c => (∑ a, (next a).chance c) / Fintype.card A

section
variable [Fintype A] [DecidableEq α] [DecidableEq β]

theorem chance_zero {c : α} : ∀ {t : Tree Q A α}, t.AllOut (· ≠ c) → t.chance c = 0
  | done _, h => if_neg h
  | ask _ next, h => by
    simp only [chance]
    rw [Finset.sum_eq_zero fun a _ => chance_zero (h a), zero_div]

/-- A computation in two parts of which the first has to give `x`. -/
theorem chance_bind {g : α → Tree Q A β} {x : α} {c : β} (hg : ∀ y, y ≠ x → (g y).chance c = 0) :
    ∀ t : Tree Q A α, (t.bind g).chance c = t.chance x * (g x).chance c
  | done y => by
    simp only [bind, chance]
    by_cases h : y = x
    · subst h; simp
    · rw [hg y h, if_neg h, zero_mul]
  | ask _ next => by
    simp only [bind, chance]
    rw [Finset.sum_congr rfl fun a _ => chance_bind hg (next a), ← Finset.sum_mul]
    ring

omit [DecidableEq α] in
/-- A computation in two parts of which the second has the chance `r` if the first gives something that goes with `o`, and none otherwise. -/
theorem chance_bind_const {γ : Type} [DecidableEq γ] {P : α → Prop} {g : α → Tree Q A β} {pr : α → γ} {o : γ} {c : β} {r : ℚ}
    (h1 : ∀ y, P y → pr y = o → (g y).chance c = r) (h0 : ∀ y, P y → pr y ≠ o → (g y).chance c = 0) :
    ∀ {t : Tree Q A α}, t.AllOut P → (t.bind g).chance c = (t.map pr).chance o * r
  | done y, hp => by
    simp only [bind, map, chance]
    by_cases h : pr y = o
    · rw [h1 y hp h, if_pos h, one_mul]
    · rw [h0 y hp h, if_neg h, zero_mul]
  | ask _ next, hp => by
    have := Finset.sum_congr rfl fun a (_ : a ∈ Finset.univ) => chance_bind_const h1 h0 (hp a)
    simp only [map] at this
    simp only [bind, map, chance, this, ← Finset.sum_mul]
    ring

theorem chance_map {P : α → Prop} {g : α → β} {x : α} {c : β} (hg : ∀ y, P y → (g y = c ↔ y = x)) :
    ∀ {t : Tree Q A α}, t.AllOut P → (t.map g).chance c = t.chance x
  | done y, h => by
    simp only [map, bind, chance]
    by_cases hy : y = x
    · rw [if_pos ((hg y h).2 hy), if_pos hy]
    · rw [if_neg fun e => hy ((hg y h).1 e), if_neg hy]
  | ask _ next, h => by
    have := Finset.sum_congr rfl fun a (_ : a ∈ Finset.univ) => chance_map hg (h a)
    simp only [map] at this
    simp only [map, bind, chance, this]

theorem chance_map_cons {g : α → β} {x : α} {c : β} (hg : ∀ y, g y = c ↔ y = x) (t : Tree Q A α) : (t.map g).chance c = t.chance x :=
  chance_map (P := fun _ => True) (fun y _ => hg y) (by
    induction t with
    | done => trivial
    | ask _ _ ih => exact ih)

end

/-! ### how many functions lead to a result -/

section
variable [Fintype A] [DecidableEq A] [Nonempty A] [DecidableEq Q] [DecidableEq α]

/-- A function on finitely many questions, extended somehow. -/
noncomputable def ext {D : Finset Q} (T : D → A) (q : Q) : A := if h : q ∈ D then T ⟨q, h⟩ else Classical.arbitrary A

theorem ext_update {D : Finset Q} (T : D → A) (q : D) (b : A) : ext (Function.update T q b) = Function.update (ext T) q b := by
  funext x
  unfold ext
  by_cases hx : x ∈ D
  · by_cases he : x = q
    · subst he
      simp [hx]
    · rw [Function.update_of_ne he]
      simp only [hx, dite_true]
      rw [Function.update_of_ne]
      intro h; exact he (congrArg Subtype.val h)
  · rw [Function.update_of_ne]
    · simp [hx]
    · rintro rfl; exact hx q.2

/-- The functions that have the values of `σ` on `S`. -/
def Agree {D : Finset Q} (S : Set Q) (σ : Q → A) (T : D → A) : Prop := ∀ q ∈ S, ext T q = σ q

open Classical in
theorem card_agree {D : Finset Q} {S : Set Q} {σ : Q → A} {q : Q} (hq : q ∉ S) (hD : q ∈ D) (a : A) :
    (Finset.univ.filter fun T : D → A => Agree (insert q S) (Function.update σ q a) T).card * Fintype.card A =
      (Finset.univ.filter fun T : D → A => Agree S σ T).card := by
  rw [← Finset.card_univ (α := A), ← Finset.card_product]
  have hag : ∀ (T : D → A) (b : A), Agree S σ T → Agree S σ (Function.update T ⟨q, hD⟩ b) := by
    intro T b hT x hx
    rw [ext_update, Function.update_of_ne (fun e => hq (by subst e; exact hx))]
    exact hT x hx
  have hins : ∀ T : D → A, Agree (insert q S) (Function.update σ q a) T ↔ ext T q = a ∧ Agree S σ T := by
    intro T
    constructor
    · intro h
      refine ⟨by simpa using h q (Set.mem_insert _ _), fun x hx => ?_⟩
      have := h x (Set.mem_insert_of_mem _ hx)
      rwa [Function.update_of_ne (fun e => hq (by subst e; exact hx))] at this
    · rintro ⟨h1, h2⟩ x hx
      rcases hx with rfl | hx
      · simpa using h1
      · rw [Function.update_of_ne (fun e => hq (by subst e; exact hx))]
        exact h2 x hx
  have hself : ∀ T : D → A, ext T q = T ⟨q, hD⟩ := fun T => by simp [ext, hD]
  refine Finset.card_bij' (fun p _ => Function.update p.1 ⟨q, hD⟩ p.2) (fun T _ => (Function.update T ⟨q, hD⟩ a, T ⟨q, hD⟩)) ?_ ?_ ?_ ?_
  · rintro ⟨T, b⟩ h
    simp only [Finset.mem_product, Finset.mem_filter, Finset.mem_univ, true_and, and_true] at h ⊢
    exact hag T b ((hins T).1 h).2
  · intro T h
    simp only [Finset.mem_product, Finset.mem_filter, Finset.mem_univ, true_and, and_true] at h ⊢
    exact (hins _).2 ⟨by rw [hself]; simp, hag T a h⟩
  · rintro ⟨T, b⟩ h
    simp only [Finset.mem_product, Finset.mem_filter, Finset.mem_univ, true_and, and_true] at h
    have h1 := ((hins T).1 h).1
    rw [hself] at h1
    simp only [Function.update_idem, Function.update_self, Prod.mk.injEq, and_true]
    rw [← h1, Function.update_eq_self]
  · intro T h
    simp only [Function.update_idem, Function.update_eq_self]

open Classical in
theorem card_run_agree {D : Finset Q} (c : α) : ∀ (t : Tree Q A α) (S : Set Q) (σ : Q → A), t.Fresh S → t.AllIn (D : Set Q) →
    ((Finset.univ.filter fun T : D → A => Agree S σ T ∧ t.run (ext T) = c).card : ℚ) =
      t.chance c * (Finset.univ.filter fun T : D → A => Agree S σ T).card
  | done x, S, σ, _, _ => by
    simp only [run, chance]
    by_cases h : x = c
    · simp [h]
    · simp [h]
  | ask q next, S, σ, hf, hD => by
    have hA : (Fintype.card A : ℚ) ≠ 0 := by exact_mod_cast Fintype.card_ne_zero
    have hsplit : (Finset.univ.filter fun T : D → A => Agree S σ T ∧ (ask q next).run (ext T) = c) =
        Finset.univ.biUnion fun a => Finset.univ.filter fun T : D → A =>
          Agree (insert q S) (Function.update σ q a) T ∧ (next a).run (ext T) = c := by
      ext T
      rw [Finset.mem_filter, Finset.mem_biUnion]
      simp only [Finset.mem_filter, Finset.mem_univ, true_and, run]
      constructor
      · rintro ⟨h1, h2⟩
        refine ⟨ext T q, fun x hx => ?_, h2⟩
        rcases hx with rfl | hx
        · simp
        · rw [Function.update_of_ne (fun e => hf.1 (by subst e; exact hx))]; exact h1 x hx
      · rintro ⟨a, h1, h2⟩
        have hqa : ext T q = a := by simpa using h1 q (Set.mem_insert _ _)
        refine ⟨fun x hx => ?_, by rw [hqa]; exact h2⟩
        have := h1 x (Set.mem_insert_of_mem _ hx)
        rwa [Function.update_of_ne (fun e => hf.1 (by subst e; exact hx))] at this
    rw [hsplit, Finset.card_biUnion]
    · push_cast
      rw [Finset.sum_congr rfl fun a _ => card_run_agree c (next a) (insert q S) (Function.update σ q a) (hf.2 a) (hD.2 a)]
      simp only [chance]
      have hc : ∀ a, ((Finset.univ.filter fun T : D → A => Agree (insert q S) (Function.update σ q a) T).card : ℚ) =
          (Finset.univ.filter fun T : D → A => Agree S σ T).card / Fintype.card A := by
        intro a
        rw [eq_div_iff hA]
        exact_mod_cast card_agree hf.1 hD.1 a
      rw [Finset.sum_congr rfl fun a _ => by rw [hc a], ← Finset.sum_mul]
      ring
    · intro a _ b _ hab
      rw [Function.onFun, Finset.disjoint_left]
      intro T h1 h2
      simp only [Finset.mem_filter, Finset.mem_univ, true_and] at h1 h2
      have e1 : ext T q = a := by simpa using h1.1 q (Set.mem_insert _ _)
      have e2 : ext T q = b := by simpa using h2.1 q (Set.mem_insert _ _)
      exact hab (e1.symm.trans e2)

open Classical in
/-- Of all functions, the share that leads to `c` is the chance of `c`. -/
theorem card_run {D : Finset Q} (c : α) {t : Tree Q A α} (hf : t.Fresh ∅) (hD : t.AllIn (D : Set Q)) :
    ((Finset.univ.filter fun T : D → A => t.run (ext T) = c).card : ℚ) = t.chance c * Fintype.card (D → A) := by
  have := card_run_agree (D := D) c t ∅ (fun _ => Classical.arbitrary A) hf hD
  have hall : ∀ T : D → A, Agree ∅ (fun _ => Classical.arbitrary A) T := fun T q h => h.elim
  simpa only [hall, true_and, Finset.filter_true, Finset.card_univ] using this

end

end Tree

end Aiootp.Oracle
