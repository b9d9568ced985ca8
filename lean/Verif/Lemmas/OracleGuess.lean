import Verif.Lemmas.OracleKey

/-
Computations that ask a function for its values: values that were not asked for cannot be guessed.
-/

namespace Aiootp.Oracle.Tree

variable {Q A α β : Type}

/-- What is asked, as the result. -/
def log : Tree Q A α → Tree Q A (List Q)
  | done _ => done []
  | ask q next => ask q fun a => (next a).log.map (q :: ·)

theorem run_log (f : Q → A) : ∀ t : Tree Q A α, t.log.run f = t.asked f
  | done _ => rfl
  | ask q next => by
    simp only [log, run, asked, run_map, run_log f (next (f q))]

theorem asked_log (f : Q → A) : ∀ t : Tree Q A α, t.log.asked f = t.asked f
  | done _ => rfl
  | ask q next => by
    simp only [log, asked, asked_map, asked_log f (next (f q))]

theorem AllIn.log {U : Set Q} : ∀ {t : Tree Q A α}, t.AllIn U → t.log.AllIn U
  | done _, _ => trivial
  | ask _ _, h => ⟨h.1, fun a => (h.2 a).log.map⟩

theorem AllIn.rebind {U : Set Q} {γ : Type} {g : α → Tree Q A β} {g' : α → Tree Q A γ} (hg : ∀ x, (g x).AllIn U → (g' x).AllIn U) :
    ∀ {t : Tree Q A α}, (t.bind g).AllIn U → (t.bind g').AllIn U
  | done x, h => hg x h
  | ask _ _, h => ⟨h.1, fun a => (h.2 a).rebind hg⟩

theorem AllIn.allOut {U : Set Q} {g : α → Tree Q A β} : ∀ {t : Tree Q A α}, (t.bind g).AllIn U → t.AllOut fun x => (g x).AllIn U
  | done _, h => h
  | ask _ _, h => fun a => (h.2 a).allOut

theorem AllOut.all {P : α → Prop} (h : ∀ x, P x) : ∀ t : Tree Q A α, t.AllOut P
  | done x => h x
  | ask _ next => fun a => AllOut.all h (next a)

theorem AllOut.map {P : α → Prop} {P' : β → Prop} {g : α → β} {t : Tree Q A α} (hg : ∀ x, P x → P' (g x)) (h : t.AllOut P) : (t.map g).AllOut P' :=
  AllOut.bind (P' := P') (g := fun x => .done (g x)) (fun x hx => hg x hx) h

theorem asked_length (f : Q → A) : ∀ {t : Tree Q A α} {n : Nat}, t.Steps n → (t.asked f).length ≤ n
  | done _, _, _ => Nat.zero_le _
  | ask _ _, 0, h => h.elim
  | ask q _, n + 1, h => Nat.succ_le_succ (asked_length f (h (f q)))

theorem asked_in {U : Set Q} (f : Q → A) : ∀ {t : Tree Q A α}, t.AllIn U → ∀ q ∈ t.asked f, q ∈ U
  | done _, _, _, h => nomatch h
  | ask q next, ht, x, h => by
    rcases List.mem_cons.1 h with rfl | h
    · exact ht.1
    · exact asked_in f (ht.2 (f q)) x h

/-- A value that is not asked for does not matter. -/
theorem run_update [DecidableEq Q] {f : Q → A} {q : Q} {v : A} : ∀ {t : Tree Q A α}, q ∉ t.asked f → t.run (Function.update f q v) = t.run f ∧ t.asked (Function.update f q v) = t.asked f
  | done _, _ => ⟨rfl, rfl⟩
  | ask x next, h => by
    simp only [asked, List.mem_cons, not_or] at h
    have ih := run_update (v := v) (t := next (f x)) h.2
    simp only [run, asked, Function.update_of_ne (Ne.symm h.1), ih, and_self]

section
variable [Fintype A] [DecidableEq A] [Nonempty A] [DecidableEq Q]

theorem many_or {D : Finset Q} (X Y : (D → A) → Prop) : many (fun T => X T ∨ Y T) ≤ many X + many Y := by
  classical
  unfold many
  have : (Finset.univ.filter fun T : D → A => X T ∨ Y T) = Finset.univ.filter X ∪ Finset.univ.filter Y := by
    ext T
    simp
  have h := Finset.card_union_le (Finset.univ.filter X) (Finset.univ.filter Y)
  rw [← this] at h
  have h' : ((Finset.univ.filter fun T : D → A => X T ∨ Y T).card : ℚ) ≤ (Finset.univ.filter X).card + (Finset.univ.filter Y).card := by exact_mod_cast h
  convert h'

theorem many_exists {D : Finset Q} {ι : Type} : ∀ (l : List ι) (X : ι → (D → A) → Prop), many (fun T => ∃ i ∈ l, X i T) ≤ (l.map fun i => many (X i)).sum
  | [], X => by
    rw [many_none (by rintro T ⟨i, hi, _⟩; exact nomatch hi)]
    simp
  | i :: l, X => by
    rw [List.map_cons, List.sum_cons]
    refine le_trans (many_mono fun T => ?_) ((many_or _ _).trans (add_le_add_right (many_exists l X) _))
    rintro ⟨j, hj, h⟩
    rcases List.mem_cons.1 hj with rfl | hj
    · exact .inl h
    · exact .inr ⟨j, hj, h⟩

open Classical in
/-- The value for a question that was not asked is as good as drawn anew. -/
theorem many_fresh {D : Finset Q} (goal : α → Q) (test : α → A → Prop) {ε : ℚ} (hε : ∀ x, ((Finset.univ.filter (test x)).card : ℚ) ≤ ε * Fintype.card A) :
    ∀ (t : Tree Q A α) (S : Set Q) (σ : Q → A), t.AllIn (D : Set Q) → t.AllOut (fun x => goal x ∈ D) →
    many (fun T : D → A => Agree S σ T ∧ goal (t.run (ext T)) ∉ S ∧ goal (t.run (ext T)) ∉ t.asked (ext T) ∧ test (t.run (ext T)) (ext T (goal (t.run (ext T))))) ≤
      ε * many (fun T : D → A => Agree S σ T)
  | done x, S, σ, _, hx => by
    have hA : (0 : ℚ) < Fintype.card A := by exact_mod_cast Fintype.card_pos
    have hε0 : 0 ≤ ε := nonneg_of_mul_nonneg_left ((Nat.cast_nonneg _).trans (hε x)) hA
    by_cases hS : goal x ∈ S
    · rw [many_none fun T h => h.2.1 hS]
      exact mul_nonneg hε0 (many_nonneg _)
    · rw [many_split hS]
      have e : ∀ a, many (fun T : D → A => Agree (insert (goal x) S) (Function.update σ (goal x) a) T ∧
          goal ((done x : Tree Q A α).run (ext T)) ∉ S ∧ goal ((done x : Tree Q A α).run (ext T)) ∉ (done x : Tree Q A α).asked (ext T) ∧
          test ((done x : Tree Q A α).run (ext T)) (ext T (goal ((done x : Tree Q A α).run (ext T))))) =
          if test x a then many (fun T : D → A => Agree S σ T) / Fintype.card A else 0 := by
        intro a
        by_cases ht : test x a
        · rw [if_pos ht, ← many_agree hS hx a]
          refine many_congr fun T => ⟨fun h => h.1, fun h => ⟨h, hS, by simp [asked], ?_⟩⟩
          show test x (ext T (goal x))
          rw [((agree_insert hS).1 h).2]
          exact ht
        · rw [if_neg ht]
          refine many_none fun T h => ht ?_
          have h2 : test x (ext T (goal x)) := h.2.2.2
          rwa [((agree_insert hS).1 h.1).2] at h2
      rw [Finset.sum_congr rfl fun a _ => e a, ← Finset.sum_filter, Finset.sum_const, nsmul_eq_mul, ← mul_div_assoc, div_le_iff₀ hA]
      have := mul_le_mul_of_nonneg_right (hε x) (many_nonneg (fun T : D → A => Agree S σ T))
      calc _ ≤ ε * Fintype.card A * many (fun T : D → A => Agree S σ T) := this
        _ = _ := by ring
  | ask q next, S, σ, hD, hx => by
    have hA : (Fintype.card A : ℚ) ≠ 0 := by exact_mod_cast Fintype.card_ne_zero
    by_cases hq : q ∈ S
    · refine le_trans (many_mono fun T h => ?_) (many_fresh goal test hε (next (σ q)) S σ (hD.2 _) (hx _))
      have e : ext T q = σ q := h.1 q hq
      simp only [run, asked, e, List.mem_cons, not_or] at h
      exact ⟨h.1, h.2.1, h.2.2.1.2, h.2.2.2⟩
    · rw [many_split hq]
      have hone : ∀ a, many (fun T : D → A => Agree (insert q S) (Function.update σ q a) T ∧ goal ((ask q next).run (ext T)) ∉ S ∧
          goal ((ask q next).run (ext T)) ∉ (ask q next).asked (ext T) ∧ test ((ask q next).run (ext T)) (ext T (goal ((ask q next).run (ext T))))) ≤
          ε * (many (fun T : D → A => Agree S σ T) / Fintype.card A) := by
        intro a
        rw [← many_agree hq hD.1 a]
        refine le_trans (many_mono fun T h => ?_) (many_fresh goal test hε (next a) (insert q S) (Function.update σ q a) (hD.2 _) (hx _))
        have e : ext T q = a := ((agree_insert hq).1 h.1).2
        simp only [run, asked, e, List.mem_cons, not_or] at h
        exact ⟨h.1, fun hin => hin.elim h.2.2.1.1 h.2.1, h.2.2.1.2, h.2.2.2⟩
      refine (Finset.sum_le_sum fun a _ => hone a).trans (le_of_eq ?_)
      rw [Finset.sum_const, Finset.card_univ, nsmul_eq_mul]
      field_simp

/-- The same for all functions. -/
theorem many_guess {D : Finset Q} (goal : α → Q) (test : α → A → Prop) {ε : ℚ}
    (hε : ∀ x, ((by classical exact (Finset.univ.filter (test x)).card : Nat) : ℚ) ≤ ε * Fintype.card A) {t : Tree Q A α} (ht : t.AllIn (D : Set Q)) (hg : t.AllOut fun x => goal x ∈ D) :
    many (fun T : D → A => goal (t.run (ext T)) ∉ t.asked (ext T) ∧ test (t.run (ext T)) (ext T (goal (t.run (ext T))))) ≤ ε * Fintype.card (D → A) := by
  classical
  have := many_fresh (D := D) goal test (ε := ε) (fun x => by convert hε x) t ∅ (fun _ => Classical.arbitrary A) ht hg
  have hall : ∀ T : D → A, Agree ∅ (fun _ => Classical.arbitrary A) T := fun T q h => h.elim
  simpa only [hall, true_and, Set.mem_empty_iff_false, not_false_eq_true, many_all] using this

/-- A value that does not matter may be drawn anew. -/
theorem many_swap {D : Finset Q} (G : (D → A) → D) (good : (D → A) → Prop) (hg : ∀ T v, good T → good (Function.update T (G T) v) ∧ G (Function.update T (G T) v) = G T) (Z : (D → A) → A → Prop) :
    many (fun T : D → A => good T ∧ Z T (T (G T))) * Fintype.card A ≤ ∑ u, many fun T : D → A => good T ∧ Z (Function.update T (G T) u) u := by
  classical
  have h : ((Finset.univ.filter fun T : D → A => good T ∧ Z T (T (G T))) ×ˢ (Finset.univ : Finset A)).card ≤
      (Finset.univ.sigma fun u : A => Finset.univ.filter fun T : D → A => good T ∧ Z (Function.update T (G T) u) u).card := by
    refine Finset.card_le_card_of_injOn (fun x => ⟨x.1 (G x.1), Function.update x.1 (G x.1) x.2⟩) ?_ ?_
    · rintro ⟨T, v⟩ hT
      simp only [Finset.coe_product, Set.mem_prod, Finset.mem_coe, Finset.mem_filter, Finset.mem_univ, true_and, and_true] at hT
      obtain ⟨h1, h2⟩ := hT
      obtain ⟨h3, h4⟩ := hg T v h1
      simp only [Finset.mem_coe, Finset.mem_sigma, Finset.mem_filter, Finset.mem_univ, true_and, h4, Function.update_idem, Function.update_eq_self]
      exact ⟨h3, h2⟩
    · rintro ⟨T, v⟩ hT ⟨T', v'⟩ hT' he
      simp only [Finset.coe_product, Set.mem_prod, Finset.mem_coe, Finset.mem_filter, Finset.mem_univ, true_and, and_true] at hT hT'
      simp only [Sigma.mk.injEq, heq_eq_eq] at he
      obtain ⟨e1, e2⟩ := he
      have g1 := (hg T v hT.1).2
      have g2 := (hg T' v' hT'.1).2
      rw [e2, g2] at g1
      have hv : v = v' := by
        have := congrFun e2 (G T)
        rw [Function.update_self, ← g1, Function.update_self] at this
        exact this
      subst hv
      have hT2 : T = T' := by
        funext x
        by_cases hx : x = G T
        · subst hx; rw [e1, g1]
        · have := congrFun e2 x
          rwa [Function.update_of_ne hx, Function.update_of_ne (by rw [g1]; exact hx)] at this
      rw [hT2]
  rw [Finset.card_product, Finset.card_univ, Finset.card_sigma] at h
  have h' : ((Finset.univ.filter fun T : D → A => good T ∧ Z T (T (G T))).card : ℚ) * Fintype.card A ≤
      ∑ u : A, ((Finset.univ.filter fun T : D → A => good T ∧ Z (Function.update T (G T) u) u).card : ℚ) := by exact_mod_cast h
  unfold many
  convert h'

end

end Aiootp.Oracle.Tree
