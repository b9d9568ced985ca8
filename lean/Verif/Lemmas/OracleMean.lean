import Verif.Lemmas.Oracle
import Mathlib.Algebra.Order.BigOperators.Ring.Finset
import Mathlib.Algebra.Order.Field.Rat
import Mathlib.Algebra.Order.Field.Basic
import Mathlib.Tactic.Linarith
import Mathlib.Tactic.Positivity

/-
Computations that may ask the same question twice: what they do on average if all answers are drawn anew, and how far that can be from what they do for random functions.
-/

namespace Aiootp.Oracle.Tree

variable {Q A α β γ : Type} [Fintype A]

/-- The average of `f` over the results, if every answer is drawn anew. -/
def mean (f : α → ℚ) : Tree Q A α → ℚ
  | done x => f x
  | ask _ next => (∑ a, (next a).mean f) / Fintype.card A

theorem mean_bind (f : β → ℚ) (g : α → Tree Q A β) : ∀ t : Tree Q A α, (t.bind g).mean f = t.mean fun x => (g x).mean f
  | done _ => rfl
  | ask _ next => by
    simp only [bind, mean]
    rw [Finset.sum_congr rfl fun a _ => mean_bind f g (next a)]

theorem mean_congr {P : α → Prop} {f f' : α → ℚ} (h : ∀ x, P x → f x = f' x) : ∀ {t : Tree Q A α}, t.AllOut P → t.mean f = t.mean f'
  | done x, hp => h x hp
  | ask _ next, hp => by
    simp only [mean]
    rw [Finset.sum_congr rfl fun a _ => mean_congr h (hp a)]

theorem mean_mul (r : ℚ) (f : α → ℚ) : ∀ t : Tree Q A α, t.mean (fun x => r * f x) = r * t.mean f
  | done _ => rfl
  | ask _ next => by
    simp only [mean]
    rw [Finset.sum_congr rfl fun a _ => mean_mul r f (next a), ← Finset.mul_sum, mul_div_assoc]

theorem mean_sum {ι : Type} (s : Finset ι) (f : ι → α → ℚ) : ∀ t : Tree Q A α, t.mean (fun x => ∑ i ∈ s, f i x) = ∑ i ∈ s, t.mean (f i)
  | done _ => rfl
  | ask _ next => by
    simp only [mean]
    rw [Finset.sum_congr rfl fun a _ => mean_sum s f (next a), Finset.sum_comm, Finset.sum_div]

theorem mean_comm (f : α → β → ℚ) (t' : Tree Q A β) : ∀ t : Tree Q A α, t.mean (fun x => t'.mean (f x)) = t'.mean fun y => t.mean fun x => f x y
  | done _ => rfl
  | ask _ next => by
    simp only [mean]
    rw [Finset.sum_congr rfl fun a _ => mean_comm f t' (next a), ← mean_sum]
    have := mean_mul ((1 : ℚ) / Fintype.card A) (fun y => ∑ a, (next a).mean fun x => f x y) t'
    rw [one_div_mul_eq_div] at this
    rw [← this]
    congr 1
    funext y
    rw [one_div_mul_eq_div]

/-- The average of the question whether the result is `c`. -/
theorem mean_eq_chance [DecidableEq β] (g : α → β) (c : β) : ∀ t : Tree Q A α, (t.mean fun x => if g x = c then 1 else 0) = (t.map g).chance c
  | done _ => rfl
  | ask _ next => by
    have := Finset.sum_congr rfl fun a (_ : a ∈ Finset.univ) => mean_eq_chance g c (next a)
    simp only [map] at this
    simp only [mean, map, bind, chance, this]

section
variable [Nonempty A]

theorem card_pos' : (0 : ℚ) < Fintype.card A := by exact_mod_cast Fintype.card_pos

omit [Nonempty A] in
theorem avg_nonneg {f : A → ℚ} (h : ∀ a, 0 ≤ f a) : 0 ≤ (∑ a, f a) / (Fintype.card A : ℚ) :=
  div_nonneg (Finset.sum_nonneg fun a _ => h a) (by positivity)

theorem avg_le {f : A → ℚ} {r : ℚ} (h : ∀ a, f a ≤ r) : (∑ a, f a) / (Fintype.card A : ℚ) ≤ r := by
  rw [div_le_iff₀ card_pos']
  refine (Finset.sum_le_sum fun a _ => h a).trans ?_
  rw [Finset.sum_const, nsmul_eq_mul, Finset.card_univ, mul_comm]

theorem avg_mono {f g : A → ℚ} (h : ∀ a, f a ≤ g a) : (∑ a, f a) / (Fintype.card A : ℚ) ≤ (∑ a, g a) / (Fintype.card A : ℚ) :=
  div_le_div_of_nonneg_right (Finset.sum_le_sum fun a _ => h a) card_pos'.le

theorem mean_nonneg {f : α → ℚ} (h : ∀ x, 0 ≤ f x) : ∀ t : Tree Q A α, 0 ≤ t.mean f
  | done x => h x
  | ask _ next => avg_nonneg fun a => mean_nonneg h (next a)

theorem mean_le {f : α → ℚ} {r : ℚ} (h : ∀ x, f x ≤ r) : ∀ t : Tree Q A α, t.mean f ≤ r
  | done x => h x
  | ask _ next => avg_le fun a => mean_le h (next a)

/-! ### questions that are asked again -/

open Classical in
/-- The chance that a question in `S` is asked, or one that was asked before. -/
noncomputable def dirty (S : Set Q) : Tree Q A α → ℚ
  | done _ => 0
  | ask q next => if q ∈ S then 1 else (∑ a, (next a).dirty (insert q S)) / Fintype.card A

theorem dirty_le_one : ∀ (t : Tree Q A α) (S : Set Q), t.dirty S ≤ 1
  | done _, _ => by simp [dirty]
  | ask q next, S => by
    rw [dirty]
    split
    · exact le_refl _
    · exact avg_le fun a => dirty_le_one (next a) _

omit [Nonempty A] in
theorem dirty_nonneg : ∀ (t : Tree Q A α) (S : Set Q), 0 ≤ t.dirty S
  | done _, _ => by simp [dirty]
  | ask q next, S => by
    rw [dirty]
    split
    · norm_num
    · exact avg_nonneg fun a => dirty_nonneg (next a) _

theorem dirty_mono : ∀ (t : Tree Q A α) {S S' : Set Q}, S ⊆ S' → t.dirty S ≤ t.dirty S'
  | done _, _, _, _ => le_refl _
  | ask q next, S, S', h => by
    rw [dirty, dirty]
    by_cases hq' : q ∈ S'
    · rw [if_pos hq']
      split
      · exact le_refl _
      · exact avg_le fun a => dirty_le_one (next a) _
    · rw [if_neg hq', if_neg fun hq => hq' (h hq)]
      exact avg_mono fun a => dirty_mono (next a) (Set.insert_subset_insert h)

/-- A first part that asks only new questions. -/
theorem dirty_bind {P : α → Prop} {U : Set Q} {g : α → Tree Q A β} {r : ℚ} (hr : 0 ≤ r) : ∀ {t : Tree Q A α} {S : Set Q}, t.Fresh S → t.AllIn U → t.AllOut P →
    (∀ x, P x → (g x).dirty (S ∪ U) ≤ r) → (t.bind g).dirty S ≤ r
  | done x, S, _, _, hp, h => (dirty_mono _ Set.subset_union_left).trans (h x hp)
  | ask q next, S, hf, hu, hp, h => by
    rw [bind, dirty, if_neg hf.1]
    refine avg_le fun a => dirty_bind hr (hf.2 a) (hu.2 a) (hp a) fun x hx => ?_
    have : insert q S ∪ U = S ∪ U := by
      rw [Set.insert_union, Set.insert_eq_of_mem (Set.mem_union_right _ hu.1)]
    rw [this]
    exact h x hx

/-! ### how many functions -/

section
variable [DecidableEq A] [DecidableEq Q]

open Classical in
/-- Of all functions that have given values on `S`. -/
theorem sum_agree {D : Finset Q} {f : α → ℚ} (h0 : ∀ x, 0 ≤ f x) (h1 : ∀ x, f x ≤ 1) : ∀ (t : Tree Q A α) (S : Set Q) (σ : Q → A), t.AllIn (D : Set Q) →
    |(∑ T ∈ Finset.univ.filter fun T : D → A => Agree S σ T, f (t.run (ext T))) - t.mean f * (Finset.univ.filter fun T : D → A => Agree S σ T).card| ≤
      t.dirty S * (Finset.univ.filter fun T : D → A => Agree S σ T).card
  | done x, S, σ, _ => by
    simp only [run, mean, dirty, zero_mul, Finset.sum_const, nsmul_eq_mul]
    rw [mul_comm, sub_self, abs_zero]
  | ask q next, S, σ, hD => by
    have hA : (Fintype.card A : ℚ) ≠ 0 := card_pos'.ne'
    by_cases hq : q ∈ S
    · rw [dirty, if_pos hq, one_mul, abs_le]
      have s0 : 0 ≤ ∑ T ∈ Finset.univ.filter fun T : D → A => Agree S σ T, f ((ask q next).run (ext T)) := Finset.sum_nonneg fun T _ => h0 _
      have s1 : (∑ T ∈ Finset.univ.filter fun T : D → A => Agree S σ T, f ((ask q next).run (ext T))) ≤ (Finset.univ.filter fun T : D → A => Agree S σ T).card := by
        refine (Finset.sum_le_sum fun T _ => h1 _).trans ?_
        rw [Finset.sum_const, nsmul_eq_mul, mul_one]
      have m0 := mean_nonneg h0 (ask q next)
      have m1 := mean_le h1 (ask q next)
      have c0 : (0 : ℚ) ≤ (Finset.univ.filter fun T : D → A => Agree S σ T).card := by positivity
      have p0 := mul_nonneg m0 c0
      have p1 := mul_le_of_le_one_left c0 m1
      constructor <;> linarith
    · have hsplit : ∀ a, ((Finset.univ.filter fun T : D → A => Agree S σ T).filter fun T => ext T q = a) =
          Finset.univ.filter fun T : D → A => Agree (insert q S) (Function.update σ q a) T := by
        intro a
        ext T
        simp only [Finset.mem_filter, Finset.mem_univ, true_and]
        constructor
        · rintro ⟨g1, g2⟩ x hx
          rcases hx with rfl | hx
          · simpa using g2
          · rw [Function.update_of_ne (fun e => hq (by subst e; exact hx))]; exact g1 x hx
        · intro g
          refine ⟨fun x hx => ?_, by simpa using g q (Set.mem_insert _ _)⟩
          have := g x (Set.mem_insert_of_mem _ hx)
          rwa [Function.update_of_ne (fun e => hq (by subst e; exact hx))] at this
      have hc : ∀ a, ((Finset.univ.filter fun T : D → A => Agree (insert q S) (Function.update σ q a) T).card : ℚ) =
          (Finset.univ.filter fun T : D → A => Agree S σ T).card / Fintype.card A := by
        intro a
        rw [eq_div_iff hA]
        exact_mod_cast card_agree hq hD.1 a
      have hsum : (∑ T ∈ Finset.univ.filter fun T : D → A => Agree S σ T, f ((ask q next).run (ext T))) =
          ∑ a, ∑ T ∈ Finset.univ.filter fun T : D → A => Agree (insert q S) (Function.update σ q a) T, f ((next a).run (ext T)) := by
        rw [← Finset.sum_fiberwise _ (fun T : D → A => ext T q)]
        refine Finset.sum_congr rfl fun a _ => ?_
        rw [← hsplit a]
        refine Finset.sum_congr rfl fun T hT => ?_
        rw [run, (Finset.mem_filter.1 hT).2]
      have hmean : (ask q next).mean f * ((Finset.univ.filter fun T : D → A => Agree S σ T).card : ℚ) =
          ∑ a, (next a).mean f * ((Finset.univ.filter fun T : D → A => Agree (insert q S) (Function.update σ q a) T).card : ℚ) := by
        rw [Finset.sum_congr rfl fun a _ => by rw [hc a], ← Finset.sum_mul, mean]
        ring
      rw [hsum, hmean, ← Finset.sum_sub_distrib]
      refine (Finset.abs_sum_le_sum_abs _ _).trans ?_
      refine (Finset.sum_le_sum fun a _ => sum_agree h0 h1 (next a) (insert q S) (Function.update σ q a) (hD.2 a)).trans ?_
      rw [Finset.sum_congr rfl fun a _ => by rw [hc a], ← Finset.sum_mul, dirty, if_neg hq]
      rw [div_mul_eq_mul_div, mul_div_assoc]

open Classical in
/-- The share of the functions that lead to a result in `test` is the chance of it up to the chance that a question is asked twice. -/
theorem card_test {D : Finset Q} (test : α → Prop) {t : Tree Q A α} (hD : t.AllIn (D : Set Q)) :
    |((Finset.univ.filter fun T : D → A => test (t.run (ext T))).card : ℚ) - (t.mean fun x => if test x then 1 else 0) * Fintype.card (D → A)| ≤ t.dirty ∅ * Fintype.card (D → A) := by
  have := sum_agree (D := D) (f := fun x => if test x then (1 : ℚ) else 0) (fun x => by split <;> norm_num) (fun x => by split <;> norm_num) t ∅ (fun _ => Classical.arbitrary A) hD
  have hall : ∀ T : D → A, Agree ∅ (fun _ => Classical.arbitrary A) T := fun T q h => h.elim
  simp only [hall, Finset.filter_true, Finset.card_univ] at this
  rw [← Finset.sum_boole] at *
  exact this

end

end

/-! ### computations that cannot be told apart -/

/-- On average the results are the same, up to `R`. -/
def Same (R : α → β → Prop) (t : Tree Q A α) (t' : Tree Q A β) : Prop := ∀ (f : α → ℚ) (f' : β → ℚ), (∀ x x', R x x' → f x = f' x') → t.mean f = t'.mean f'

theorem Same.done {R : α → β → Prop} {x : α} {x' : β} (h : R x x') : Same R (.done x : Tree Q A α) (.done x') := fun _ _ hf => hf x x' h

theorem Same.ask {R : α → β → Prop} {q q' : Q} {next : A → Tree Q A α} {next' : A → Tree Q A β} (h : ∀ a, Same R (next a) (next' a)) : Same R (.ask q next) (.ask q' next') := by
  intro f f' hf
  simp only [mean]
  rw [Finset.sum_congr rfl fun a _ => h a f f' hf]

theorem Same.bind {δ : Type} {R : α → β → Prop} {R' : γ → δ → Prop} {t : Tree Q A α} {t' : Tree Q A β} {g : α → Tree Q A γ} {g' : β → Tree Q A δ} (h : Same R t t')
    (hg : ∀ x x', R x x' → Same R' (g x) (g' x')) : Same R' (t.bind g) (t'.bind g') := by
  intro f f' hf
  rw [mean_bind, mean_bind]
  exact h _ _ fun x x' hx => hg x x' hx f f' hf

theorem Same.mono {R R' : α → β → Prop} {t : Tree Q A α} {t' : Tree Q A β} (h : Same R t t') (hR : ∀ x x', R x x' → R' x x') : Same R' t t' :=
  fun f f' hf => h f f' fun x x' hx => hf x x' (hR x x' hx)

/-- If both give each of the values that have the property `L` of `g` with the same chance, then the rest of the results need not be alike. -/
theorem Same.uniform [DecidableEq γ] {P : α → Prop} {P' : β → Prop} {L : γ → Prop} {g : α → γ} {g' : β → γ} {t : Tree Q A α} {t' : Tree Q A β} {r : ℚ} (hr : r ≠ 0)
    (ho : t.AllOut fun x => P x ∧ L (g x)) (ho' : t'.AllOut fun x => P' x ∧ L (g' x)) (h : ∀ o, L o → (t.map g).chance o = r) (h' : ∀ o, L o → (t'.map g').chance o = r) :
    Same (fun x x' => P x ∧ P' x' ∧ g x = g' x') t t' := by
  intro f f' hf
  have e1 : t.mean f = t.mean fun x => r⁻¹ * t'.mean fun x' => if g' x' = g x then f' x' else 0 := by
    refine mean_congr (fun x hx => ?_) ho
    have : (t'.mean fun x' => if g' x' = g x then f' x' else 0) = t'.mean fun x' => f x * if g' x' = g x then 1 else 0 := by
      refine mean_congr (fun x' hx' => ?_) ho'
      split
      · rename_i e
        rw [mul_one]; exact (hf x x' ⟨hx.1, hx'.1, e.symm⟩).symm
      · rw [mul_zero]
    rw [this, mean_mul, mean_eq_chance, h' _ hx.2, mul_comm, mul_assoc, mul_inv_cancel₀ hr, mul_one]
  have e2 : t'.mean f' = t'.mean fun x' => r⁻¹ * t.mean fun x => if g' x' = g x then f' x' else 0 := by
    refine mean_congr (fun x' hx' => ?_) ho'
    have : (t.mean fun x => if g' x' = g x then f' x' else 0) = t.mean fun x => f' x' * if g x = g' x' then 1 else 0 := by
      refine mean_congr (fun x _ => ?_) ho
      by_cases e : g' x' = g x
      · rw [if_pos e, if_pos e.symm, mul_one]
      · rw [if_neg e, if_neg fun e' => e e'.symm, mul_zero]
    rw [this, mean_mul, mean_eq_chance, h _ hx'.2, mul_comm, mul_assoc, mul_inv_cancel₀ hr, mul_one]
  rw [e1, e2, mean_mul, mean_mul, mean_comm]

end Aiootp.Oracle.Tree
