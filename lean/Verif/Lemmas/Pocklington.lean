import Mathlib.Data.ZMod.Basic
import Mathlib.FieldTheory.Finite.Basic
import Mathlib.GroupTheory.OrderOfElement
import Mathlib.Data.Nat.Prime.Basic
import Mathlib.Data.Nat.Factorization.Basic

/-
Pocklington's theorem: a way to prove that a large number is a prime, if enough of the prime factors of its predecessor are known.
-/

namespace Aiootp.Primes

theorem prime_pow_dvd_of_not_dvd {d m q k : Nat} (hd : d ∣ m) (hq : q.Prime) (hqm : q ∣ m) (hk : q ^ k ∣ m) (hnot : ¬ d ∣ m / q) : q ^ k ∣ d := by
  obtain ⟨e, rfl⟩ := hd
  have hqe : ¬ q ∣ e := by
    rintro ⟨f, rfl⟩
    apply hnot
    have : d * (q * f) / q = d * f := by
      rw [show d * (q * f) = q * (d * f) by ring]
      exact Nat.mul_div_cancel_left _ hq.pos
    rw [this]
    exact Nat.dvd_mul_right _ _
  have hco : Nat.Coprime (q ^ k) e := Nat.Coprime.pow_left _ ((Nat.Prime.coprime_iff_not_dvd hq).2 hqe)
  exact hco.dvd_of_dvd_mul_right hk

/-- Pocklington's theorem. -/
theorem pocklington {n F : Nat} (hn : 1 < n) (hF : F ∣ n - 1) (hlarge : n < F * F)
    (hw : ∀ q : Nat, q.Prime → q ∣ F → ∃ a : Nat, (a : ZMod n) ^ (n - 1) = 1 ∧ IsUnit ((a : ZMod n) ^ ((n - 1) / q) - 1)) : n.Prime := by
  refine Classical.byContradiction fun hnp => ?_
  set p := n.minFac with hp
  have hpp : p.Prime := Nat.minFac_prime (by omega)
  have hpn : p ∣ n := Nat.minFac_dvd n
  have hsq : p * p ≤ n := by
    have := Nat.minFac_sq_le_self (by omega) hnp
    rwa [sq] at this
  haveI : Fact p.Prime := ⟨hpp⟩
  have hFp : F ∣ p - 1 := by
    rw [Nat.dvd_iff_prime_pow_dvd_dvd]
    intro q k hq hk
    rcases Nat.eq_zero_or_pos k with rfl | hk0
    · simp
    have hqF : q ∣ F := (dvd_pow_self q (by omega)).trans hk
    obtain ⟨a, h1, h2⟩ := hw q hq hqF
    let φ : ZMod n →+* ZMod p := ZMod.castHom hpn (ZMod p)
    have h1' : (a : ZMod p) ^ (n - 1) = 1 := by
      have := congrArg φ h1
      simpa using this
    have h2' : (a : ZMod p) ^ ((n - 1) / q) ≠ 1 := by
      intro h
      have := h2.map φ
      simp [h] at this
    have hd : orderOf (a : ZMod p) ∣ n - 1 := orderOf_dvd_of_pow_eq_one h1'
    have hnd : ¬ orderOf (a : ZMod p) ∣ (n - 1) / q := fun h => h2' (orderOf_dvd_iff_pow_eq_one.1 h)
    have h3 := prime_pow_dvd_of_not_dvd hd hq (hqF.trans hF) (hk.trans hF) hnd
    have ha0 : (a : ZMod p) ≠ 0 := by
      intro h
      rw [h, zero_pow (by omega)] at h1'
      exact zero_ne_one h1'
    exact h3.trans (orderOf_dvd_of_pow_eq_one (ZMod.pow_card_sub_one_eq_one ha0))
  have hle : F ≤ p - 1 := Nat.le_of_dvd (by have := hpp.two_le; omega) hFp
  have : F * F ≤ p * p := Nat.mul_le_mul (by omega) (by omega)
  omega

/-- `a ^ e` modulo `n`, for exponents below `2 ^ fuel`. -/
def powMod (n : Nat) : (fuel : Nat) → (a e : Nat) → Nat
  | 0, _, _ => 1 % n
  | fuel + 1, a, e =>
    let half := powMod n fuel (a * a % n) (e / 2)
    if e % 2 = 1 then a * half % n else half

theorem powMod_eq (n : Nat) : ∀ fuel a e, e < 2 ^ fuel → (powMod n fuel a e : ZMod n) = (a : ZMod n) ^ e := by
  intro fuel
  induction fuel with
  | zero =>
    intro a e h
    have : e = 0 := by simpa using h
    subst this
    simp [powMod]
  | succ fuel ih =>
    intro a e h
    have h2 : e / 2 < 2 ^ fuel := by rw [pow_succ] at h; omega
    have hI := ih (a * a % n) (e / 2) h2
    simp only [powMod]
    have he : (a : ZMod n) ^ e = (a : ZMod n) ^ (e % 2) * ((a : ZMod n) * a) ^ (e / 2) := by
      rw [← sq, ← pow_mul, ← pow_add]
      congr 1
      omega
    split
    · rename_i h1
      rw [he, h1]
      push_cast
      rw [ZMod.natCast_mod, Nat.cast_mul, hI, ZMod.natCast_mod, Nat.cast_mul, pow_one]
    · rename_i h1
      have h0 : e % 2 = 0 := by omega
      rw [he, h0, hI, ZMod.natCast_mod, Nat.cast_mul, pow_zero, one_mul]

/-- What is computed for a number `n`: each row has a prime factor of `n - 1`, its exponent and a base. -/
def check (n : Nat) (rows : List (Nat × Nat × Nat)) : Bool :=
  let F := (rows.map (fun r => r.1 ^ r.2.1)).prod
  decide (1 < n) && decide (n < F * F) && decide ((n - 1) % F = 0) &&
  rows.all fun r => powMod n (Nat.log2 n + 1) r.2.2 (n - 1) == 1 &&
    Nat.gcd (powMod n (Nat.log2 n + 1) r.2.2 ((n - 1) / r.1) + (n - 1)) n == 1

theorem prime_of_check {n : Nat} {rows : List (Nat × Nat × Nat)} (h : check n rows = true) (hrows : ∀ r ∈ rows, r.1.Prime) : n.Prime := by
  simp only [check, Bool.and_eq_true, decide_eq_true_eq, List.all_eq_true, beq_iff_eq] at h
  obtain ⟨⟨⟨h1, h2⟩, h3⟩, h4⟩ := h
  refine pocklington h1 (Nat.dvd_of_mod_eq_zero h3) h2 ?_
  intro q hq hqF
  obtain ⟨x, hx, hqx⟩ := (Prime.dvd_prod_iff hq.prime).1 hqF
  obtain ⟨r, hr, rfl⟩ := List.mem_map.1 hx
  have hqr : q = r.1 := by
    have := hq.dvd_of_dvd_pow hqx
    exact (Nat.prime_dvd_prime_iff_eq hq (hrows r hr)).1 this
  subst hqr
  obtain ⟨h5, h6⟩ := h4 r hr
  have hlt : n < 2 ^ (Nat.log2 n + 1) := Nat.lt_log2_self
  refine ⟨r.2.2, ?_, ?_⟩
  · rw [← powMod_eq n (Nat.log2 n + 1) _ _ (by omega), h5]
    simp
  · rw [← powMod_eq n (Nat.log2 n + 1) _ _ (lt_of_le_of_lt (Nat.div_le_self _ _) (by omega))]
    have hu : IsUnit ((powMod n (Nat.log2 n + 1) r.2.2 ((n - 1) / r.1) + (n - 1) : Nat) : ZMod n) := (ZMod.isUnit_iff_coprime _ _).2 h6
    have e : ((powMod n (Nat.log2 n + 1) r.2.2 ((n - 1) / r.1) + (n - 1) : Nat) : ZMod n) = (powMod n (Nat.log2 n + 1) r.2.2 ((n - 1) / r.1) : ZMod n) - 1 := by
      rw [Nat.cast_add, Nat.cast_sub (by omega), ZMod.natCast_self]
      ring
    rwa [e] at hu

/-- Trial division, for numbers below 4096. -/
def small (n : Nat) : Bool := decide (1 < n) && decide (n < 4096) && (List.range 64).all fun d => decide (d < 2) || decide (n ≤ d) || n % d != 0

theorem prime_of_small {n : Nat} (h : small n = true) : n.Prime := by
  simp only [small, Bool.and_eq_true, decide_eq_true_eq, List.all_eq_true, List.mem_range, Bool.or_eq_true, bne_iff_ne] at h
  refine Nat.prime_def_le_sqrt.2 ⟨h.1.1, fun m hm hle hd => ?_⟩
  have hsq : m * m ≤ n := Nat.le_sqrt.1 hle
  have hm64 : m < 64 := by
    refine Classical.byContradiction fun hc => ?_
    have : 64 * 64 ≤ m * m := Nat.mul_le_mul (by omega) (by omega)
    omega
  have hmn : m < n := by
    have : m * 2 ≤ m * m := Nat.mul_le_mul (by omega) hm
    omega
  rcases h.2 m hm64 with (h1 | h1) | h1
  · omega
  · omega
  · exact h1 (Nat.mod_eq_zero_of_dvd hd)

end Aiootp.Primes
