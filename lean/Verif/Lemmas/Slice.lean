import Verif.Model.Slice
import Verif.Lemmas.Py

namespace Aiootp

theorem sliceBound_nat (n a : Nat) : sliceBound n (a : Int) = min a n := by
  unfold sliceBound
  rw [if_neg (by omega)]
  simp

theorem sliceBound_neg (n k : Nat) (hk : 0 < k) : sliceBound n (-(k : Int)) = n - k := by
  unfold sliceBound
  rw [if_pos (by omega)]
  omega

theorem drop_min {α} (l : List α) (a : Nat) : l.drop (min a l.length) = l.drop a := by
  by_cases h : a ≤ l.length
  · rw [Nat.min_eq_left h]
  · rw [Nat.min_eq_right (by omega), List.drop_length, List.drop_eq_nil_of_le (by omega)]

theorem take_min {α} (l : List α) (a : Nat) : l.take (min a l.length) = l.take a := by
  by_cases h : a ≤ l.length
  · rw [Nat.min_eq_left h]
  · rw [Nat.min_eq_right (by omega), List.take_length, List.take_of_length_le (by omega)]

theorem take_drop_min {α} (l : List α) (a b : Nat) :
    (l.take b).drop (min a l.length) = (l.take b).drop a := by
  by_cases h : a ≤ l.length
  · rw [Nat.min_eq_left h]
  · rw [List.drop_eq_nil_of_le (by rw [List.length_take]; omega),
      List.drop_eq_nil_of_le (by rw [List.length_take]; omega)]

theorem slice_nat_nat {α} (l : List α) (a b : Nat) :
    Slice.of ⟨some (a : Int), some (b : Int)⟩ l = (l.take b).drop a := by
  simp only [Slice.of, sliceBound_nat]
  rw [take_min, take_drop_min]

theorem slice_zero_nat {α} (l : List α) (b : Nat) :
    Slice.of ⟨some 0, some (b : Int)⟩ l = l.take b := by
  have := slice_nat_nat l 0 b
  simpa using this

theorem slice_nat_none {α} (l : List α) (a : Nat) :
    Slice.of ⟨some (a : Int), none⟩ l = l.drop a := by
  simp only [Slice.of, sliceBound_nat]
  rw [List.take_length, drop_min]

theorem slice_neg_none {α} (l : List α) (k : Nat) (hk : 0 < k) :
    Slice.of ⟨some (-(k : Int)), none⟩ l = l.drop (l.length - k) := by
  simp only [Slice.of, sliceBound_neg _ _ hk]
  rw [List.take_length]

theorem slice_nat_neg {α} (l : List α) (a k : Nat) (hk : 0 < k) :
    Slice.of ⟨some (a : Int), some (-(k : Int))⟩ l = (l.take (l.length - k)).drop a := by
  simp only [Slice.of, sliceBound_neg _ _ hk, sliceBound_nat]
  rw [take_drop_min]

theorem slice_none_neg {α} (l : List α) (k : Nat) (hk : 0 < k) :
    Slice.of ⟨none, some (-(k : Int))⟩ l = l.take (l.length - k) := by
  simp only [Slice.of, sliceBound_neg _ _ hk, List.drop_zero]

end Aiootp
