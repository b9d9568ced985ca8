import Mathlib.Algebra.BigOperators.Ring.Finset
import Mathlib.Algebra.Order.BigOperators.Group.Finset
import Mathlib.Tactic.Linarith
import Mathlib.Tactic.Positivity
import Verif.Lemmas.Oracle

/-
Computations that ask a function for its values: the value that they would ask for next looks as if it was drawn anew.
-/

namespace Aiootp.Oracle.Tree

variable {Q A α β : Type}

/-- What is asked, if `f` is the function. -/
def asked (f : Q → A) : Tree Q A α → List Q
  | done _ => []
  | ask q next => q :: (next (f q)).asked f

/-- At most `n` questions. -/
def Steps : Nat → Tree Q A α → Prop
  | _, done _ => True
  | 0, ask _ _ => False
  | n + 1, ask _ next => ∀ a, (next a).Steps n

theorem asked_bind (f : Q → A) (g : α → Tree Q A β) : ∀ t : Tree Q A α, (t.bind g).asked f = t.asked f ++ (g (t.run f)).asked f
  | done _ => rfl
  | ask q next => by
    simp only [bind, asked, run, asked_bind f g (next (f q)), List.cons_append]

theorem asked_map (f : Q → A) (g : α → β) (t : Tree Q A α) : (t.map g).asked f = t.asked f := by
  unfold map
  rw [asked_bind, asked, List.append_nil]

theorem Steps.mono {n m : Nat} (h : n ≤ m) : ∀ {t : Tree Q A α}, t.Steps n → t.Steps m
  | done _, _ => by cases m <;> trivial
  | ask q next, ht => by
    cases n with
    | zero => exact ht.elim
    | succ n =>
      cases m with
      | zero => omega
      | succ m => exact fun a => Steps.mono (by omega) (ht a)

theorem Steps.bind {m : Nat} {g : α → Tree Q A β} (hg : ∀ x, (g x).Steps m) : ∀ {t : Tree Q A α} {n : Nat}, t.Steps n → (t.bind g).Steps (n + m)
  | done x, n, _ => (hg x).mono (by omega)
  | ask q next, n, ht => by
    cases n with
    | zero => exact ht.elim
    | succ n =>
      rw [Nat.add_right_comm]
      exact fun a => Steps.bind hg (ht a)

theorem Steps.map {n : Nat} {g : α → β} {t : Tree Q A α} (ht : t.Steps n) : (t.map g).Steps n :=
  Steps.bind (m := 0) (g := fun x => .done (g x)) (fun _ => trivial) ht

section
variable [Fintype A] [DecidableEq A] [Nonempty A] [DecidableEq Q]

theorem agree_insert {D : Finset Q} {S : Set Q} {σ : Q → A} {q : Q} (hq : q ∉ S) {a : A} {T : D → A} :
    Agree (insert q S) (Function.update σ q a) T ↔ Agree S σ T ∧ ext T q = a := by
  constructor
  · intro h
    refine ⟨fun x hx => ?_, by simpa using h q (Set.mem_insert _ _)⟩
    have := h x (Set.mem_insert_of_mem _ hx)
    rwa [Function.update_of_ne (fun e => hq (by subst e; exact hx))] at this
  · rintro ⟨h2, h1⟩ x hx
    rcases hx with rfl | hx
    · simpa using h1
    · rw [Function.update_of_ne (fun e => hq (by subst e; exact hx))]
      exact h2 x hx

/-- How many functions. -/
noncomputable def many {D : Finset Q} (X : (D → A) → Prop) : ℚ := by
  classical exact ((Finset.univ.filter X).card : ℚ)

theorem many_nonneg {D : Finset Q} (X : (D → A) → Prop) : 0 ≤ many X := by
  unfold many
  positivity

theorem many_mono {D : Finset Q} {X Y : (D → A) → Prop} (h : ∀ T, X T → Y T) : many X ≤ many Y := by
  classical
  unfold many
  have : (Finset.univ.filter X).card ≤ (Finset.univ.filter Y).card := Finset.card_le_card fun T hT => by
    simp only [Finset.mem_filter, Finset.mem_univ, true_and] at hT ⊢
    exact h T hT
  exact_mod_cast this

theorem many_congr {D : Finset Q} {X Y : (D → A) → Prop} (h : ∀ T, X T ↔ Y T) : many X = many Y :=
  le_antisymm (many_mono fun T => (h T).1) (many_mono fun T => (h T).2)

theorem many_none {D : Finset Q} {X : (D → A) → Prop} (h : ∀ T, ¬ X T) : many X = 0 := by
  classical
  unfold many
  rw [Finset.filter_eq_empty_iff.2 fun T _ => h T, Finset.card_empty, Nat.cast_zero]

theorem many_all {D : Finset Q} : many (fun _ : D → A => True) = Fintype.card (D → A) := by
  classical
  unfold many
  rw [Finset.filter_true, Finset.card_univ]

theorem many_split {D : Finset Q} {S : Set Q} {σ : Q → A} {q : Q} (hq : q ∉ S) (X : (D → A) → Prop) :
    many (fun T => Agree S σ T ∧ X T) = ∑ a, many fun T => Agree (insert q S) (Function.update σ q a) T ∧ X T := by
  classical
  unfold many
  rw [Finset.card_eq_sum_card_fiberwise (f := fun T : D → A => ext T q) (t := Finset.univ) (fun _ _ => Finset.mem_coe.2 (Finset.mem_univ _))]
  push_cast
  refine Finset.sum_congr rfl fun a _ => ?_
  refine congrArg (fun n : Nat => (n : ℚ)) (congrArg Finset.card (Finset.ext fun T => ?_))
  simp only [Finset.mem_filter, Finset.mem_univ, true_and]
  rw [agree_insert hq]
  tauto

theorem many_agree {D : Finset Q} {S : Set Q} {σ : Q → A} {q : Q} (hq : q ∉ S) (hD : q ∈ D) (a : A) :
    many (fun T : D → A => Agree (insert q S) (Function.update σ q a) T) = many (fun T : D → A => Agree S σ T) / Fintype.card A := by
  classical
  have hA : (Fintype.card A : ℚ) ≠ 0 := by exact_mod_cast Fintype.card_ne_zero
  rw [eq_div_iff hA]
  have := card_agree (σ := σ) hq hD a
  unfold many
  exact_mod_cast this

/-- The value that is asked for in the end is as good as one that is drawn anew, unless it was asked for before. -/
theorem many_key {D : Finset Q} (goal : α → Option Q) (test : α → A → Prop) : ∀ (t : Tree Q A α) (S : Set Q) (σ : Q → A),
    (∀ T : D → A, Agree S σ T → (∀ q ∈ t.asked (ext T), q ∈ D) ∧ ∀ q, goal (t.run (ext T)) = some q → q ∈ D) →
    |many (fun T : D → A => Agree S σ T ∧ ∃ q, goal (t.run (ext T)) = some q ∧ test (t.run (ext T)) (ext T q)) * Fintype.card A -
        ∑ u : A, many (fun T : D → A => Agree S σ T ∧ ∃ q, goal (t.run (ext T)) = some q ∧ test (t.run (ext T)) u)| ≤
      many (fun T : D → A => Agree S σ T ∧ ∃ q, goal (t.run (ext T)) = some q ∧ (q ∈ S ∨ q ∈ t.asked (ext T))) * Fintype.card A
  | done x, S, σ, hD => by
    have hA : (0 : ℚ) < Fintype.card A := by exact_mod_cast Fintype.card_pos
    by_cases hn : ∃ T : D → A, Agree S σ T
    swap
    · have : ∀ T : D → A, ¬ Agree S σ T := fun T h => hn ⟨T, h⟩
      simp [this, many_none]
    obtain ⟨T₀, hT₀⟩ := hn
    simp only [run, asked, List.not_mem_nil, or_false]
    cases hg : goal x with
    | none => simp [many_none]
    | some q =>
      simp only [Option.some.injEq, exists_eq_left']
      by_cases hq : q ∈ S
      · simp only [hq, and_true]
        have b1 : many (fun T : D → A => Agree S σ T ∧ test x (ext T q)) * Fintype.card A ≤ many (fun T : D → A => Agree S σ T) * Fintype.card A :=
          mul_le_mul_of_nonneg_right (many_mono fun T h => h.1) hA.le
        have b2 : ∑ u : A, many (fun T : D → A => Agree S σ T ∧ test x u) ≤ many (fun T : D → A => Agree S σ T) * Fintype.card A := by
          refine (Finset.sum_le_sum (g := fun _ => many (fun T : D → A => Agree S σ T)) fun u _ => many_mono fun T h => h.1).trans ?_
          rw [Finset.sum_const, nsmul_eq_mul, mul_comm, Finset.card_univ]
        have c1 : 0 ≤ many (fun T : D → A => Agree S σ T ∧ test x (ext T q)) * Fintype.card A := mul_nonneg (many_nonneg _) hA.le
        have c2 : 0 ≤ ∑ u : A, many (fun T : D → A => Agree S σ T ∧ test x u) := Finset.sum_nonneg fun _ _ => many_nonneg _
        rw [abs_le]
        constructor <;> linarith
      · have hqD : q ∈ D := (hD T₀ hT₀).2 q hg
        have e1 : many (fun T : D → A => Agree S σ T ∧ test x (ext T q)) * Fintype.card A = ∑ u : A, many (fun T : D → A => Agree S σ T ∧ test x u) := by
          rw [many_split hq, Finset.sum_mul]
          refine Finset.sum_congr rfl fun a _ => ?_
          rw [many_congr (Y := fun T => Agree (insert q S) (Function.update σ q a) T ∧ test x a) fun T => and_congr_right fun h1 => by rw [((agree_insert hq).1 h1).2]]
          by_cases ht : test x a
          · simp only [ht, and_true]
            rw [many_agree hq hqD, div_mul_cancel₀ _ hA.ne']
          · simp [ht, many_none]
        rw [e1, sub_self, abs_zero]
        exact mul_nonneg (many_nonneg _) hA.le
  | ask q next, S, σ, hD => by
    by_cases hq : q ∈ S
    · have ih := many_key goal test (next (σ q)) S σ (fun T hT => by
        have h := hD T hT
        simp only [asked, run, hT q hq, List.mem_cons, forall_eq_or_imp] at h
        exact ⟨h.1.2, h.2⟩)
      have e1 : many (fun T : D → A => Agree S σ T ∧ ∃ q', goal ((ask q next).run (ext T)) = some q' ∧ test ((ask q next).run (ext T)) (ext T q')) =
          many fun T : D → A => Agree S σ T ∧ ∃ q', goal ((next (σ q)).run (ext T)) = some q' ∧ test ((next (σ q)).run (ext T)) (ext T q') :=
        many_congr fun T => and_congr_right fun hT => by simp only [run, hT q hq]
      have e2 : ∀ u : A, many (fun T : D → A => Agree S σ T ∧ ∃ q', goal ((ask q next).run (ext T)) = some q' ∧ test ((ask q next).run (ext T)) u) =
          many fun T : D → A => Agree S σ T ∧ ∃ q', goal ((next (σ q)).run (ext T)) = some q' ∧ test ((next (σ q)).run (ext T)) u := fun u =>
        many_congr fun T => and_congr_right fun hT => by simp only [run, hT q hq]
      have e3 : many (fun T : D → A => Agree S σ T ∧ ∃ q', goal ((ask q next).run (ext T)) = some q' ∧ (q' ∈ S ∨ q' ∈ (ask q next).asked (ext T))) =
          many fun T : D → A => Agree S σ T ∧ ∃ q', goal ((next (σ q)).run (ext T)) = some q' ∧ (q' ∈ S ∨ q' ∈ (next (σ q)).asked (ext T)) :=
        many_congr fun T => and_congr_right fun hT => by
          simp only [run, asked, hT q hq, List.mem_cons]
          refine exists_congr fun q' => and_congr_right fun _ => ?_
          constructor
          · rintro (h | rfl | h)
            · exact .inl h
            · exact .inl hq
            · exact .inr h
          · rintro (h | h)
            · exact .inl h
            · exact .inr (.inr h)
      rw [e1, e3, Finset.sum_congr rfl fun u _ => e2 u]
      exact ih
    · rw [many_split hq, many_split hq, Finset.sum_congr rfl fun u _ => many_split hq _]
      rw [Finset.sum_comm, Finset.sum_mul, Finset.sum_mul, ← Finset.sum_sub_distrib]
      refine (Finset.abs_sum_le_sum_abs _ _).trans (Finset.sum_le_sum fun a _ => ?_)
      have ih := many_key goal test (next a) (insert q S) (Function.update σ q a) (fun T hT => by
        obtain ⟨g1, g2⟩ := (agree_insert hq).1 hT
        have h := hD T g1
        simp only [asked, run, g2, List.mem_cons, forall_eq_or_imp] at h
        exact ⟨h.1.2, h.2⟩)
      have f1 : many (fun T : D → A => Agree (insert q S) (Function.update σ q a) T ∧ ∃ q', goal ((ask q next).run (ext T)) = some q' ∧ test ((ask q next).run (ext T)) (ext T q')) =
          many fun T : D → A => Agree (insert q S) (Function.update σ q a) T ∧ ∃ q', goal ((next a).run (ext T)) = some q' ∧ test ((next a).run (ext T)) (ext T q') :=
        many_congr fun T => and_congr_right fun hT => by simp only [run, ((agree_insert hq).1 hT).2]
      have f2 : ∀ u : A, many (fun T : D → A => Agree (insert q S) (Function.update σ q a) T ∧ ∃ q', goal ((ask q next).run (ext T)) = some q' ∧ test ((ask q next).run (ext T)) u) =
          many fun T : D → A => Agree (insert q S) (Function.update σ q a) T ∧ ∃ q', goal ((next a).run (ext T)) = some q' ∧ test ((next a).run (ext T)) u := fun u =>
        many_congr fun T => and_congr_right fun hT => by simp only [run, ((agree_insert hq).1 hT).2]
      have f3 : many (fun T : D → A => Agree (insert q S) (Function.update σ q a) T ∧ ∃ q', goal ((ask q next).run (ext T)) = some q' ∧ (q' ∈ S ∨ q' ∈ (ask q next).asked (ext T))) =
          many fun T : D → A => Agree (insert q S) (Function.update σ q a) T ∧ ∃ q', goal ((next a).run (ext T)) = some q' ∧ (q' ∈ insert q S ∨ q' ∈ (next a).asked (ext T)) :=
        many_congr fun T => and_congr_right fun hT => by
          simp only [run, asked, ((agree_insert hq).1 hT).2, List.mem_cons, Set.mem_insert_iff]
          refine exists_congr fun q' => and_congr_right fun _ => ?_
          tauto
      rw [f1, f3, Finset.sum_congr rfl fun u _ => f2 u]
      exact ih

/-- One value is bad, or two are. -/
def BadOn (P : A → Prop) (R : A → A → Prop) (S : Set Q) (f : Q → A) : Prop := ∃ q ∈ S, P (f q) ∨ ∃ q' ∈ S, q ≠ q' ∧ R (f q) (f q')

open Classical in
/-- The chance that bad values are met. -/
theorem many_bad {D : Finset Q} {P : A → Prop} {R : A → A → Prop} (hR : ∀ a b, R a b → R b a) {ε δ : ℚ} (hε : ∀ a, ((Finset.univ.filter (R a)).card : ℚ) ≤ ε * Fintype.card A)
    (hδ : ((Finset.univ.filter P).card : ℚ) ≤ δ * Fintype.card A) : ∀ (t : Tree Q A α) (s : Finset Q) (σ : Q → A) (n : Nat),
    t.Steps n → ¬ BadOn P R (s : Set Q) σ → (∀ T : D → A, Agree (s : Set Q) σ T → ∀ q ∈ t.asked (ext T), q ∈ D) →
    many (fun T : D → A => Agree (s : Set Q) σ T ∧ BadOn P R ({q | q ∈ s ∨ q ∈ t.asked (ext T)}) (ext T)) ≤
      n * ((s.card + n) * ε + δ) * many (fun T : D → A => Agree (s : Set Q) σ T)
  | done x, s, σ, n, _, hs, _ => by
    have hA : (0 : ℚ) < Fintype.card A := by exact_mod_cast Fintype.card_pos
    have hε0 : 0 ≤ ε := by
      have := (Nat.cast_nonneg _).trans (hε (Classical.arbitrary A))
      exact nonneg_of_mul_nonneg_left this hA
    have hδ0 : 0 ≤ δ := nonneg_of_mul_nonneg_left ((Nat.cast_nonneg _).trans hδ) hA
    rw [many_none]
    · have := many_nonneg (fun T : D → A => Agree (s : Set Q) σ T)
      positivity
    · rintro T ⟨hT, q, hq, h⟩
      simp only [asked, List.not_mem_nil, or_false, Set.mem_ofPred_eq] at hq h
      refine hs ⟨q, hq, ?_⟩
      rw [hT q hq] at h
      refine h.imp_right ?_
      rintro ⟨q', hq', hne, hr⟩
      rw [hT q' hq'] at hr
      exact ⟨q', hq', hne, hr⟩
  | ask q next, s, σ, 0, hn, _, _ => hn.elim
  | ask q next, s, σ, n + 1, hn, hs, hD => by
    have hA : (0 : ℚ) < Fintype.card A := by exact_mod_cast Fintype.card_pos
    have hε0 : 0 ≤ ε := by
      have := (Nat.cast_nonneg _).trans (hε (Classical.arbitrary A))
      exact nonneg_of_mul_nonneg_left this hA
    have hδ0 : 0 ≤ δ := nonneg_of_mul_nonneg_left ((Nat.cast_nonneg _).trans hδ) hA
    by_cases he : ∃ T : D → A, Agree (s : Set Q) σ T
    swap
    · have : ∀ T : D → A, ¬ Agree (s : Set Q) σ T := fun T h => he ⟨T, h⟩
      simp [this, many_none]
    obtain ⟨T₀, hT₀⟩ := he
    by_cases hq : q ∈ s
    · have ih := many_bad hR hε hδ (next (σ q)) s σ n (hn (σ q)) hs (fun T hT => by
        have h := hD T hT
        simp only [asked, hT q hq, List.mem_cons, forall_eq_or_imp] at h
        exact h.2)
      have e : many (fun T : D → A => Agree (s : Set Q) σ T ∧ BadOn P R ({q' | q' ∈ s ∨ q' ∈ (ask q next).asked (ext T)}) (ext T)) =
          many fun T : D → A => Agree (s : Set Q) σ T ∧ BadOn P R ({q' | q' ∈ s ∨ q' ∈ (next (σ q)).asked (ext T)}) (ext T) :=
        many_congr fun T => and_congr_right fun hT => by
          have : {q' | q' ∈ s ∨ q' ∈ (ask q next).asked (ext T)} = {q' | q' ∈ s ∨ q' ∈ (next (σ q)).asked (ext T)} := by
            ext q'
            simp only [asked, hT q hq, List.mem_cons, Set.mem_ofPred_eq]
            constructor
            · rintro (h | rfl | h)
              · exact .inl h
              · exact .inl hq
              · exact .inr h
            · rintro (h | h)
              · exact .inl h
              · exact .inr (.inr h)
          rw [this]
      rw [e]
      refine ih.trans (mul_le_mul_of_nonneg_right ?_ (many_nonneg _))
      push_cast
      have h1 : (0 : ℚ) ≤ n := by positivity
      have h2 : (0 : ℚ) ≤ s.card := by positivity
      nlinarith [mul_nonneg h1 hε0, mul_nonneg h2 hε0]
    · have hq' : q ∉ (s : Set Q) := hq
      have hqD : q ∈ D := hD T₀ hT₀ q (List.mem_cons_self ..)
      rw [many_split hq']
      let bad : Finset A := Finset.univ.filter P ∪ s.biUnion fun q' => Finset.univ.filter (R (σ q'))
      have hbad : (bad.card : ℚ) ≤ (s.card * ε + δ) * Fintype.card A := by
        have h1 : (bad.card : ℚ) ≤ (Finset.univ.filter P).card + ∑ q' ∈ s, ((Finset.univ.filter (R (σ q'))).card : ℚ) := by
          have := (Finset.card_union_le (Finset.univ.filter P) (s.biUnion fun q' => Finset.univ.filter (R (σ q')))).trans (Nat.add_le_add_left Finset.card_biUnion_le _)
          exact_mod_cast this
        have h2 : ∑ q' ∈ s, ((Finset.univ.filter (R (σ q'))).card : ℚ) ≤ s.card * (ε * Fintype.card A) := by
          refine (Finset.sum_le_sum fun q' _ => hε (σ q')).trans ?_
          rw [Finset.sum_const, nsmul_eq_mul]
        linarith
      have hone : ∀ a, many (fun T : D → A => Agree (insert q (s : Set Q)) (Function.update σ q a) T ∧
          BadOn P R ({q' | q' ∈ s ∨ q' ∈ (ask q next).asked (ext T)}) (ext T)) ≤
          (if a ∈ bad then 1 else 0) * (many (fun T : D → A => Agree (s : Set Q) σ T) / Fintype.card A) +
            n * ((s.card + 1 + n) * ε + δ) * (many (fun T : D → A => Agree (s : Set Q) σ T) / Fintype.card A) := by
        intro a
        by_cases ha : a ∈ bad
        · rw [if_pos ha, one_mul, ← many_agree hq' hqD a]
          have h1 : many (fun T : D → A => Agree (insert q (s : Set Q)) (Function.update σ q a) T ∧ BadOn P R ({q' | q' ∈ s ∨ q' ∈ (ask q next).asked (ext T)}) (ext T)) ≤
              many (fun T : D → A => Agree (insert q (s : Set Q)) (Function.update σ q a) T) := many_mono fun T h => h.1
          have h2 : 0 ≤ n * ((s.card + 1 + n) * ε + δ) * many (fun T : D → A => Agree (insert q (s : Set Q)) (Function.update σ q a) T) :=
            mul_nonneg (by positivity) (many_nonneg _)
          linarith
        · rw [if_neg ha, zero_mul, zero_add, ← many_agree hq' hqD a]
          have hcoe : (insert q (s : Set Q)) = ((insert q s : Finset Q) : Set Q) := by simp
          have hnb : ¬ BadOn P R ((insert q s : Finset Q) : Set Q) (Function.update σ q a) := by
            rintro ⟨x, hx, h⟩
            have nP : ¬ P a := fun h => ha (Finset.mem_union_left _ (by simpa using h))
            have nR : ∀ y ∈ s, ¬ R (σ y) a := fun y hy h => ha (Finset.mem_union_right _ (Finset.mem_biUnion.2 ⟨y, hy, by simpa using h⟩))
            rw [← hcoe] at hx h
            rcases hx with rfl | hx
            · rw [Function.update_self] at h
              rcases h with h | ⟨y, hy, hne, hr⟩
              · exact nP h
              · rcases hy with rfl | hy
                · exact hne rfl
                · rw [Function.update_of_ne (Ne.symm hne)] at hr
                  exact nR y hy (hR _ _ hr)
            · have hxq : x ≠ q := fun e => hq (by subst e; exact hx)
              rw [Function.update_of_ne hxq] at h
              rcases h with h | ⟨y, hy, hne, hr⟩
              · exact hs ⟨x, hx, .inl h⟩
              · rcases hy with rfl | hy
                · rw [Function.update_self] at hr
                  exact nR x hx hr
                · rw [Function.update_of_ne (fun e => hq (by subst e; exact hy))] at hr
                  exact hs ⟨x, hx, .inr ⟨y, hy, hne, hr⟩⟩
          have ih := many_bad hR hε hδ (next a) (insert q s) (Function.update σ q a) n (hn a) hnb (fun T hT => by
            rw [← hcoe] at hT
            obtain ⟨g1, g2⟩ := (agree_insert hq').1 hT
            have h := hD T g1
            simp only [asked, g2, List.mem_cons, forall_eq_or_imp] at h
            exact h.2)
          rw [← hcoe, Finset.card_insert_of_notMem hq] at ih
          push_cast at ih
          refine le_trans (le_of_eq ?_) ih
          refine many_congr fun T => and_congr_right fun hT => ?_
          have : {q' | q' ∈ s ∨ q' ∈ (ask q next).asked (ext T)} = {q' | q' ∈ insert q s ∨ q' ∈ (next a).asked (ext T)} := by
            ext q'
            simp only [asked, ((agree_insert hq').1 hT).2, List.mem_cons, Finset.mem_insert, Set.mem_ofPred_eq]
            tauto
          rw [this]
      refine (Finset.sum_le_sum fun a _ => hone a).trans ?_
      rw [Finset.sum_add_distrib, ← Finset.sum_mul, Finset.sum_const, nsmul_eq_mul, Finset.card_univ]
      have hsum : ∑ a : A, (if a ∈ bad then (1 : ℚ) else 0) = bad.card := by
        rw [Finset.sum_ite_mem, Finset.univ_inter, Finset.sum_const, nsmul_eq_mul, mul_one]
      rw [hsum]
      set C : ℚ := many (fun T : D → A => Agree (s : Set Q) σ T) with hC
      have hC0 : 0 ≤ C := many_nonneg _
      have e2 : (bad.card : ℚ) * (C / Fintype.card A) ≤ (s.card * ε + δ) * C := by
        have := mul_le_mul_of_nonneg_right hbad (div_nonneg hC0 hA.le)
        rwa [mul_assoc, mul_div_cancel₀ _ hA.ne'] at this
      have e3 : (Fintype.card A : ℚ) * (n * ((s.card + 1 + n) * ε + δ) * (C / Fintype.card A)) = n * ((s.card + 1 + n) * ε + δ) * C := by
        field_simp
      rw [e3]
      have h1 : (0 : ℚ) ≤ n := by positivity
      push_cast
      nlinarith [mul_nonneg (mul_nonneg h1 hε0) hC0, mul_nonneg hε0 hC0]

end

end Aiootp.Oracle.Tree
