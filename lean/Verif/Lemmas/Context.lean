import Mathlib.Data.Fintype.BigOperators
import Mathlib.Order.Interval.Finset.Fin
import Mathlib.Algebra.BigOperators.Intervals
import Verif.Spec.Context
import Verif.Lemmas.MisusePermute

/-
How often draws repeat.
-/

namespace Aiootp.Secrecy

open Oracle Cipher

variable {c : Sizes} {n : Nat}

section
variable {A : Type} [Fintype A] [DecidableEq A]

/-- Two places get the same from one in as many tapes as there are things to draw. -/
theorem card_pair (i j : Fin n) (h : i ≠ j) : (Finset.univ.filter fun f : Fin n → A => f i = f j).card * Fintype.card A ≤ Fintype.card (Fin n → A) := by
  rw [← Finset.card_univ (α := A), ← Finset.card_product, ← Finset.card_univ (α := Fin n → A)]
  refine Finset.card_le_card_of_injOn (fun x => Function.update x.1 j x.2) (fun _ _ => Finset.mem_coe.2 (Finset.mem_univ _)) ?_
  rintro ⟨f, a⟩ hf ⟨g, b⟩ hg e
  simp only [Finset.coe_product, Set.mem_prod, Finset.mem_coe, Finset.mem_filter, Finset.mem_univ, true_and, and_true] at hf hg
  simp only at e
  have hab : a = b := by simpa using congrFun e j
  have hfg : f = g := by
    funext k
    by_cases hk : k = j
    · subst hk
      have := congrFun e i
      rw [Function.update_of_ne h, Function.update_of_ne h] at this
      rw [← hf, ← hg, this]
    · have := congrFun e k
      rwa [Function.update_of_ne hk, Function.update_of_ne hk] at this
  rw [hab, hfg]

/-- The bound of the birthday problem. -/
theorem card_repeats : (Finset.univ.filter fun f : Fin n → A => ∃ i j, i < j ∧ f i = f j).card * Fintype.card A * 2 ≤ n * (n - 1) * Fintype.card (Fin n → A) := by
  have hsub : (Finset.univ.filter fun f : Fin n → A => ∃ i j, i < j ∧ f i = f j) ⊆
      Finset.univ.biUnion fun j : Fin n => (Finset.univ.filter fun i => i < j).biUnion fun i => Finset.univ.filter fun f : Fin n → A => f i = f j := by
    intro f hf
    obtain ⟨i, j, hij, e⟩ := (Finset.mem_filter.1 hf).2
    simp only [Finset.mem_biUnion, Finset.mem_univ, true_and, Finset.mem_filter]
    exact ⟨j, i, hij, e⟩
  have h1 : (Finset.univ.filter fun f : Fin n → A => ∃ i j, i < j ∧ f i = f j).card ≤
      ∑ j : Fin n, ∑ i ∈ Finset.univ.filter fun i => i < j, (Finset.univ.filter fun f : Fin n → A => f i = f j).card :=
    (Finset.card_le_card hsub).trans (Finset.card_biUnion_le.trans (Finset.sum_le_sum fun j _ => Finset.card_biUnion_le))
  have h2 : (∑ j : Fin n, ∑ i ∈ Finset.univ.filter fun i => i < j, (Finset.univ.filter fun f : Fin n → A => f i = f j).card) * Fintype.card A ≤
      ∑ j : Fin n, j.1 * Fintype.card (Fin n → A) := by
    rw [Finset.sum_mul]
    refine Finset.sum_le_sum fun j _ => ?_
    rw [Finset.sum_mul]
    refine (Finset.sum_le_card_nsmul _ _ (Fintype.card (Fin n → A)) fun i hi => card_pair i j (ne_of_lt (Finset.mem_filter.1 hi).2)).trans ?_
    refine Nat.mul_le_mul_right _ ?_
    rw [show (Finset.univ.filter fun i : Fin n => i < j) = Finset.Iio j by ext; simp, Fin.card_Iio]
  have h3 : (∑ j : Fin n, j.1 * Fintype.card (Fin n → A)) * 2 = n * (n - 1) * Fintype.card (Fin n → A) := by
    rw [← Finset.sum_mul, Fin.sum_univ_eq_sum_range (fun i => i) n, mul_right_comm, Finset.sum_range_id_mul_two]
  calc _ ≤ (∑ j : Fin n, ∑ i ∈ Finset.univ.filter fun i => i < j, (Finset.univ.filter fun f : Fin n → A => f i = f j).card) * Fintype.card A * 2 :=
        Nat.mul_le_mul_right _ (Nat.mul_le_mul_right _ h1)
    _ ≤ (∑ j : Fin n, j.1 * Fintype.card (Fin n → A)) * 2 := Nat.mul_le_mul_right _ h2
    _ = _ := h3

end

theorem drawn_plain {ask : Chooser} (h : ask.Plain c) (tape : Tape c n) : (ask.drawn tape).Plain c := by
  have key : ∀ seen, (ask.drawn tape seen).key = (ask seen).key := fun seen => by
    unfold Chooser.drawn; split <;> rfl
  refine ⟨fun seen => ?_, fun seen seen' => by rw [key, key]; exact h.size _ _⟩
  have hv := h.valid seen
  unfold Chooser.drawn
  split
  · rename_i hl
    exact ⟨hv.key_ge, hv.key_lt, ⟨hv.draws.salt, (tape ⟨_, hl⟩).1.2, (tape ⟨_, hl⟩).2.2, hv.draws.extra, hv.draws.reading_nonneg, hv.draws.reading_lt⟩, hv.salt, hv.aad⟩
  · exact hv

theorem drawn_stamped {ask : Chooser} (h : ask.Plain c) {tape : Tape c n} (hr : ¬ Repeats tape) : (ask.drawn tape).Stamped c n := by
  have hp := drawn_plain h tape
  refine ⟨hp.valid, hp.size, fun seen more hne hl e => ?_⟩
  have hm : 0 < more.length := List.length_pos_iff.2 hne
  rw [List.length_append] at hl
  have h1 : seen.length < n := by omega
  have h2 : (seen ++ more).length < n := by rw [List.length_append]; exact hl
  unfold Chooser.drawn at e
  rw [dif_pos h1, dif_pos h2] at e
  simp only [Request.stamp, Request.nonce, Prod.mk.injEq] at e
  refine hr ⟨⟨seen.length, h1⟩, ⟨(seen ++ more).length, h2⟩, ?_, Prod.ext (Subtype.ext e.1.2.2.2) (Subtype.ext e.2.2)⟩
  rw [Fin.lt_def]
  simp only [List.length_append]
  omega

theorem drawn_twin {r r' : Chooser} (h : ∀ seen, (r seen).Twin (r' seen)) (tape : Tape c n) (seen : List Bytes) : (r.drawn tape seen).Twin (r'.drawn tape seen) := by
  obtain ⟨h1, h2⟩ := h seen
  simp only [Request.stamp, Request.nonce, Prod.mk.injEq] at h1
  unfold Chooser.drawn
  split
  · refine ⟨?_, h2⟩
    simp only [Request.stamp, Request.nonce, Prod.mk.injEq]
    exact ⟨⟨h1.1.1, h1.1.2.1, h1.1.2.2.1, trivial⟩, h1.2.1, trivial⟩
  · exact h seen

theorem drawn_first {r r' : Chooser} (h : ∀ seen, (r seen).FirstTwin c (r' seen)) (tape : Tape c n) (seen : List Bytes) : (r.drawn tape seen).FirstTwin c (r'.drawn tape seen) := by
  refine ⟨drawn_twin (fun seen => (h seen).toTwin) tape seen, ?_, ?_⟩
  · have := (h seen).start
    unfold Chooser.drawn
    split <;> exact this
  · have := (h seen).extra
    unfold Chooser.drawn
    split <;> exact this

end Aiootp.Secrecy
