import Verif.Lemmas.Pocklington
import Verif.Lemmas.Ecpp

/-
How to show that there is no prime in an interval: each of its numbers has a small factor, a factor from a table, or fails Fermat's test.
-/

namespace Aiootp.Primes

/-- The product of the `2 ^ n` numbers from `lo`. -/
def product : (n lo : Nat) → Nat
  | 0, lo => lo
  | n + 1, lo => product n lo * product n (lo + 2 ^ n)

theorem lt_of_dvd_product {m : Nat} (hm : m.Prime) : ∀ n lo, 0 < lo → m ∣ product n lo → m < lo + 2 ^ n := by
  intro n
  induction n with
  | zero =>
    intro lo h0 h
    have := Nat.le_of_dvd h0 h
    omega
  | succ n ih =>
    intro lo h0 h
    have hp : 0 < 2 ^ n := Nat.two_pow_pos n
    rcases (Nat.Prime.dvd_mul hm).1 h with h | h
    · have := ih _ h0 h
      have : 2 ^ (n + 1) = 2 ^ n + 2 ^ n := by rw [Nat.pow_succ]; omega
      omega
    · have := ih _ (by omega) h
      have : 2 ^ (n + 1) = 2 ^ n + 2 ^ n := by rw [Nat.pow_succ]; omega
      omega

/-- Fermat's test with base 3. -/
def fermat (m : Nat) : Bool := powMod m (Nat.log2 m + 1) 3 (m - 1) == 1

theorem fermat_of_prime {m : Nat} (hm : 3 < m) (hp : m.Prime) : fermat m = true := by
  haveI : Fact m.Prime := ⟨hp⟩
  have hlt : m < 2 ^ (Nat.log2 m + 1) := Nat.lt_log2_self
  have e := powMod_eq m (Nat.log2 m + 1) 3 (m - 1) (by omega)
  have h0 : ((3 : Nat) : ZMod m) ≠ 0 := by
    rw [Ne, ZMod.natCast_eq_zero_iff]
    intro hd
    have := Nat.le_of_dvd (by omega) hd
    omega
  rw [ZMod.pow_card_sub_one_eq_one h0] at e
  have hl : ∀ fuel a e, powMod m fuel a e < m := by
    intro fuel
    induction fuel with
    | zero => intro a e; exact Nat.mod_lt _ (by omega)
    | succ n ih =>
      intro a e
      simp only [powMod]
      split
      · exact Nat.mod_lt _ (by omega)
      · exact ih _ _
  have e' : ((powMod m (Nat.log2 m + 1) 3 (m - 1) : Nat) : ZMod m) = ((1 : Nat) : ZMod m) := by rw [e, Nat.cast_one]
  rw [ZMod.natCast_eq_natCast_iff', Nat.mod_eq_of_lt (hl _ _ _), Nat.mod_eq_of_lt (by omega)] at e'
  simp only [fermat, e', beq_self_eq_true]

/-- Whether each of the numbers below `b + i` from `b` has a factor in common with `F`, or a factor in the table, or fails Fermat's test. -/
def gap (F b : Nat) (table : List (Nat × Nat)) : (i : Nat) → Bool
  | 0 => true
  | i + 1 =>
    (match Nat.gcd (b + i) F with
     | 1 => match table.lookup i with
       | some d => decide (1 < d) && decide (d < b) && (b + i) % d == 0
       | none => !fermat (b + i)
     | _ => true) && gap F b table i

theorem not_prime_of_gap {n b : Nat} {table : List (Nat × Nat)} (hb : 2 ^ n < b) (h3 : 3 < b) :
    ∀ i, gap (product n 1) b table i = true → ∀ m, b ≤ m → m < b + i → ¬ m.Prime := by
  intro i
  induction i with
  | zero => intro _ m h1 h2; omega
  | succ i ih =>
    intro h m h1 h2 hp
    simp only [gap, Bool.and_eq_true] at h
    by_cases hm : m < b + i
    · exact ih h.2 m h1 hm hp
    have e : b + i = m := by omega
    have h' := h.1
    rw [e] at h'
    split at h'
    · split at h'
      · rename_i d hd
        simp only [Bool.and_eq_true, decide_eq_true_eq, beq_iff_eq] at h'
        rcases (Nat.dvd_prime hp).1 (Nat.dvd_of_mod_eq_zero h'.2) with h | h <;> omega
      · simp only [fermat_of_prime (by omega) hp, Bool.not_true, Bool.false_eq_true] at h'
    · rename_i hg
      rcases (Nat.dvd_prime hp).1 (Nat.gcd_dvd_left m (product n 1)) with h | h
      · exact hg h
      · have hd : m ∣ product n 1 := by
          rw [← h]; exact Nat.gcd_dvd_right _ _
        have := lt_of_dvd_product hp n 1 (by omega) hd
        omega

/-- `gap`, with the product computed only once. -/
def gapCheck (n b : Nat) (table : List (Nat × Nat)) (i : Nat) : Bool :=
  force (product n 1) fun F => force b fun b => decide (2 ^ n < b) && decide (3 < b) && gap F b table i

theorem not_prime_of_gapCheck {n b i : Nat} {table : List (Nat × Nat)} (h : gapCheck n b table i = true) :
    ∀ m, b ≤ m → m < b + i → ¬ m.Prime := by
  simp only [gapCheck, force_eq, Bool.and_eq_true, decide_eq_true_eq] at h
  exact not_prime_of_gap h.1.1 h.1.2 i h.2

end Aiootp.Primes
