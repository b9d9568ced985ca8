import Verif.Spec.RandomHash
import Verif.Lemmas.Oracle
import Mathlib.Algebra.BigOperators.Group.Finset.Basic

/-
How many digests have a given piece.
-/

namespace Aiootp.Secrecy

variable {K : Nat}

theorem card_byte : Fintype.card UInt8 = 256 := by
  rw [Fintype.card_congr ⟨UInt8.toFin, UInt8.ofFin, fun _ => rfl, fun _ => rfl⟩, Fintype.card_fin]

theorem card_digest : Fintype.card (Digest K) = 256 ^ K := (card_vector (α := UInt8) K).trans (by rw [card_byte])

instance : Nonempty (Digest K) := ⟨⟨List.replicate K 0, by simp⟩⟩

/-- The piece of `n` bytes from `i` on. -/
def piece (i n : Nat) (b : Bytes) : Bytes := (b.drop i).take n

/-- The digest with another such piece. -/
def splice (i n : Nat) (h : i + n ≤ K) (a : Digest K) (s : Digest n) : Digest K :=
  ⟨a.1.take i ++ s.1 ++ a.1.drop (i + n), by
    have := a.2; have := s.2
    simp only [List.length_append, List.length_take, List.length_drop]; omega⟩

theorem piece_splice {i n : Nat} (h : i + n ≤ K) (a : Digest K) (s : Digest n) : piece i n (splice i n h a s).1 = s.1 := by
  have := a.2
  simp only [piece, splice]
  rw [List.append_assoc, List.drop_left' (by rw [List.length_take]; omega), List.take_left' s.2]

theorem splice_splice {i n : Nat} (h : i + n ≤ K) (a : Digest K) (s s' : Digest n) : splice i n h (splice i n h a s) s' = splice i n h a s' := by
  have ha := a.2
  have hs := s.2
  apply Subtype.ext
  have h1 : (a.1.take i).length = i := by rw [List.length_take]; omega
  have h2 : (a.1.take i ++ s.1 ++ a.1.drop (i + n)).take i = a.1.take i := by rw [List.append_assoc, List.take_left' h1]
  have h3 : (a.1.take i ++ s.1 ++ a.1.drop (i + n)).drop (i + n) = a.1.drop (i + n) := List.drop_left' (by rw [List.length_append]; omega)
  simp only [splice, h2, h3]

theorem splice_piece {i n : Nat} (h : i + n ≤ K) (a : Digest K) (s : Digest n) (hs : s.1 = piece i n a.1) : splice i n h a s = a := by
  apply Subtype.ext
  simp only [splice, hs, piece]
  rw [List.append_assoc, ← List.drop_drop, List.take_append_drop, List.take_append_drop]

open Classical in
/-- If `f` does not depend on the piece, then one of `256 ^ n` digests has the piece `f`. -/
theorem card_piece {i n : Nat} (h : i + n ≤ K) (f : Digest K → Bytes) (hlen : ∀ a, (f a).length = n) (hf : ∀ a s, f (splice i n h a s) = f a) :
    (Finset.univ.filter fun a : Digest K => piece i n a.1 = f a).card * 256 ^ n = 256 ^ K := by
  rw [← card_digest (K := n), ← card_digest (K := K), ← Finset.card_univ (α := Digest n), ← Finset.card_univ (α := Digest K), ← Finset.card_product]
  have hp : ∀ a : Digest K, (piece i n a.1).length = n := fun a => by
    have := a.2
    unfold piece; rw [List.length_take, List.length_drop]; omega
  refine Finset.card_bij' (fun p _ => splice i n h p.1 p.2) (fun a _ => (splice i n h a ⟨f a, hlen a⟩, ⟨piece i n a.1, hp a⟩)) ?_ ?_ ?_ ?_
  · intros; exact Finset.mem_univ _
  · intro a _
    simp only [Finset.mem_product, Finset.mem_filter, Finset.mem_univ, true_and, and_true]
    rw [piece_splice, hf]
  · rintro ⟨a, s⟩ ha
    simp only [Finset.mem_product, Finset.mem_filter, Finset.mem_univ, true_and, and_true] at ha
    refine Prod.ext ?_ (Subtype.ext (piece_splice ..))
    simp only
    rw [splice_splice]
    exact splice_piece h a _ (by simp only [hf]; exact ha.symm)
  · intro a _
    simp only
    rw [splice_splice]
    exact splice_piece h a _ rfl

/-- A sum of chances over all digests. -/
theorem sum_piece {i n : Nat} (h : i + n ≤ K) (f : Digest K → Bytes) (hlen : ∀ a, (f a).length = n) (hf : ∀ a s, f (splice i n h a s) = f a) (r : ℚ) :
    (∑ a : Digest K, if piece i n a.1 = f a then r else 0) / Fintype.card (Digest K) = r / 256 ^ n := by
  classical
  rw [← Finset.sum_filter, Finset.sum_const, nsmul_eq_mul, card_digest]
  have hc : ((Finset.univ.filter fun a : Digest K => piece i n a.1 = f a).card : ℚ) * 256 ^ n = 256 ^ K := by exact_mod_cast card_piece h f hlen hf
  have h256 : ∀ k, (256 : ℚ) ^ k ≠ 0 := fun k => pow_ne_zero _ (by norm_num)
  push_cast
  rw [← hc]
  by_cases hr : r = 0
  · simp [hr]
  · have : ((Finset.univ.filter fun a : Digest K => piece i n a.1 = f a).card : ℚ) ≠ 0 := fun h0 => h256 K (by rw [← hc, h0, zero_mul])
    field_simp

end Aiootp.Secrecy
