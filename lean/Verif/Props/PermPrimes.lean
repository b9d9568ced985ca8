import Verif.Props.Perm
import Verif.Lemmas.Primes
import Verif.Lemmas.Gaps
import Verif.Lemmas.Ecpp128
import Verif.Lemmas.Ecpp192
import Verif.Lemmas.Ecpp256
import Verif.Lemmas.Ecpp320
import Verif.Lemmas.Ecpp384
import Verif.Lemmas.Ecpp448
import Verif.Lemmas.Ecpp512
import Verif.Lemmas.Gap512

/-
Property C81: which sizes a permutation can have, and why each of their multipliers has an inverse.
-/

namespace Aiootp.Perm

open Primes

/-- Why a number is not a prime: it has a small factor, or fails Fermat's test. -/
def composite (m : Nat) : Bool :=
  m % 2 == 0 || m % 3 == 0 || m % 5 == 0 || m % 7 == 0 || m % 11 == 0 || m % 13 == 0 || m % 17 == 0 || m % 19 == 0 || m % 23 == 0 ||
  powMod m (Nat.log2 m + 1) 3 (m - 1) != 1

theorem not_prime_of_composite {m : Nat} (hm : 23 < m) (h : composite m = true) : ¬ m.Prime := by
  intro hp
  have hnd : ∀ q, 1 < q → q < 24 → m % q ≠ 0 := by
    intro q h1 h2 h3
    rcases (Nat.dvd_prime hp).1 (Nat.dvd_of_mod_eq_zero h3) with h | h <;> omega
  haveI : Fact m.Prime := ⟨hp⟩
  have h3 : powMod m (Nat.log2 m + 1) 3 (m - 1) = 1 := by
    have hlt : m < 2 ^ (Nat.log2 m + 1) := Nat.lt_log2_self
    have e := powMod_eq m (Nat.log2 m + 1) 3 (m - 1) (by omega)
    have h0 : ((3 : Nat) : ZMod m) ≠ 0 := by
      rw [Ne, ZMod.natCast_eq_zero_iff]
      intro hd
      have := Nat.le_of_dvd (by omega) hd
      omega
    rw [ZMod.pow_card_sub_one_eq_one h0] at e
    have hl : ∀ fuel a e, powMod m fuel a e < m := by
      intro fuel
      induction fuel with
      | zero => intro a e; exact Nat.mod_lt _ (by omega)
      | succ n ih =>
        intro a e
        simp only [powMod]
        split
        · exact Nat.mod_lt _ (by omega)
        · exact ih _ _
    have e' : ((powMod m (Nat.log2 m + 1) 3 (m - 1) : Nat) : ZMod m) = ((1 : Nat) : ZMod m) := by rw [e, Nat.cast_one]
    rw [ZMod.natCast_eq_natCast_iff', Nat.mod_eq_of_lt (hl _ _ _), Nat.mod_eq_of_lt (by omega)] at e'
    exact e'
  have := hnd 2 (by omega) (by omega)
  have := hnd 3 (by omega) (by omega)
  have := hnd 5 (by omega) (by omega)
  have := hnd 7 (by omega) (by omega)
  have := hnd 11 (by omega) (by omega)
  have := hnd 13 (by omega) (by omega)
  have := hnd 17 (by omega) (by omega)
  have := hnd 19 (by omega) (by omega)
  have := hnd 23 (by omega) (by omega)
  simp_all [composite]

theorem provedOffsets_first : ∀ r ∈ provedOffsets, ∀ k < r.2, composite (2 ^ (8 * r.1) + k) = true := by
  decide +kernel

theorem primeOf_sizes {size p : Nat} (h : primeOf size = .ok p) : ∃ d, (size, d) ∈ primeOffsets ∧ p = 2 ^ (8 * size) + d := by
  unfold primeOf at h
  split at h
  · rename_i r hr
    have heq : r.1 = size := by simpa using List.find?_some hr
    cases h
    exact ⟨r.2, by rw [← heq]; exact List.mem_of_find?_eq_some hr, rfl⟩
  · cases h

theorem proved_of_table : ∀ r ∈ primeOffsets, r.1 ≤ 64 → r ∈ provedOffsets := by decide +kernel

/-- The rows of the table for large sizes. -/
theorem large_of_table : ∀ r ∈ primeOffsets, 64 < r.1 →
    r = (128, 643) ∨ r = (192, 75) ∨ r = (256, 981) ∨ r = (320, 903) ∨ r = (384, 813) ∨ r = (448, 21) ∨ r = (512, 1761) := by decide +kernel

theorem small_least {size d : Nat} (hd : (size, d) ∈ primeOffsets) (hs : size ≤ 64) :
    (2 ^ (8 * size) + d).Prime ∧ ∀ m, 2 ^ (8 * size) ≤ m → m < 2 ^ (8 * size) + d → ¬ m.Prime := by
  have hm := proved_of_table _ hd hs
  refine ⟨provedOffsets_prime _ hm, fun m h1 h2 => ?_⟩
  have hpos : ∀ r ∈ primeOffsets, 0 < r.1 := by decide +kernel
  have h0 : 1 ≤ size := hpos _ hd
  have : 2 ^ (8 * 1) ≤ 2 ^ (8 * size) := Nat.pow_le_pow_right (by omega) (by omega)
  have hc := provedOffsets_first _ hm (m - 2 ^ (8 * size)) (by simp only; omega)
  simp only at hc
  rw [show 2 ^ (8 * size) + (m - 2 ^ (8 * size)) = m by omega] at hc
  exact not_prime_of_composite (by omega) hc

theorem table_least {size d : Nat} (hd : (size, d) ∈ primeOffsets) :
    (2 ^ (8 * size) + d).Prime ∧ ∀ m, 2 ^ (8 * size) ≤ m → m < 2 ^ (8 * size) + d → ¬ m.Prime := by
  by_cases hs : size ≤ 64
  · exact small_least hd hs
  · rcases large_of_table _ hd (by simpa using hs) with h | h | h | h | h | h | h <;> cases h
    · exact ⟨Primes.prime_size_128, Primes.gap_128⟩
    · exact ⟨Primes.prime_size_192, Primes.gap_192⟩
    · exact ⟨Primes.prime_size_256, Primes.gap_256⟩
    · exact ⟨Primes.prime_size_320, Primes.gap_320⟩
    · exact ⟨Primes.prime_size_384, Primes.gap_384⟩
    · exact ⟨Primes.prime_size_448, Primes.gap_448⟩
    · exact ⟨Primes.prime_size_512, Primes.gap_512⟩

/-- **C81**. The modulus of a permutation is the least prime above the numbers that it permutes. -/
theorem C81_table {size p : Nat} (h : primeOf size = .ok p) :
    p.Prime ∧ 256 ^ size ≤ p ∧ ∀ m, 256 ^ size ≤ m → m < p → ¬ m.Prime := by
  obtain ⟨d, hd, rfl⟩ := primeOf_sizes h
  have h256 : 256 ^ size = 2 ^ (8 * size) := by rw [Nat.pow_mul]
  rw [h256]
  obtain ⟨h1, h2⟩ := table_least hd
  exact ⟨h1, Nat.le_add_right _ _, h2⟩

example : primeOf 16 = .ok (2 ^ 128 + 51) ∧ primeOf 48 = .ok (2 ^ 384 + 231) ∧ primeOf 512 = .ok (2 ^ 4096 + 1761) := by decide +kernel

/-- **C81**. A permutation can have every size from 1 to 32, 48 and every multiple of 64 up to 512, whatever the hash gives;
its multiplier has an inverse. -/
theorem C81_config {size : Nat} (h0 : 0 < size) (hs : size ≤ 32 ∨ size = 48 ∨ (size % 64 = 0 ∧ size ≤ 512)) (hash : Nat) :
    ∃ config, AffineConfig.new size hash = .ok config ∧ primeOf size = .ok config.prime ∧
      (config.multiplicativeKey * config.inverseKey) % config.prime = 1 ∧ config.inverseKey < config.prime := by
  have hf : ∀ s < 513, 0 < s → s ≤ 32 ∨ s = 48 ∨ s % 64 = 0 → (primeOffsets.find? (fun r => r.1 == s)).isSome = true := by decide +kernel
  obtain ⟨r, hr⟩ := Option.isSome_iff_exists.1 (hf size (by omega) h0 (by omega))
  have hd : primeOf size = .ok (2 ^ (8 * size) + r.2) := by unfold primeOf; rw [hr]
  obtain ⟨config, hc⟩ := C12_config_accepted (hash := hash) h0 (by omega) hd (C81_table hd).1
  refine ⟨config, hc, ?_⟩
  unfold AffineConfig.new at hc
  split at hc
  · simp only [bind_eq_ok] at hc
    obtain ⟨p, hp, inv, hinv, he⟩ := hc
    cases he
    have hpg := (primeOf_gt hp).1
    have h1 : 1 ≤ 2 ^ (8 * size) := Nat.one_le_two_pow
    exact ⟨hp, (powInv_spec (by omega) hinv).2, (powInv_spec (by omega) hinv).1⟩
  · cases hc

example : ∃ config, AffineConfig.new 512 77 = .ok config ∧ primeOf 512 = .ok config.prime ∧
    (config.multiplicativeKey * config.inverseKey) % config.prime = 1 ∧ config.inverseKey < config.prime :=
  C81_config (by decide) (by decide) 77

/-- **C81**. The sizes that a permutation can have: up to 32, 48, and the multiples of 64 up to 512. -/
theorem C81_sizes {size hash : Nat} {config : AffineConfig} (h : AffineConfig.new size hash = .ok config) :
    size ≤ 32 ∨ size = 48 ∨ (size % 64 = 0 ∧ size ≤ 512) := by
  have hall : ∀ r ∈ primeOffsets, r.1 ≤ 32 ∨ r.1 = 48 ∨ (r.1 % 64 = 0 ∧ r.1 ≤ 512) := by decide +kernel
  unfold AffineConfig.new at h
  split at h
  · cases hp : primeOf size with
    | error e => simp [hp, bind, Except.bind] at h
    | ok p =>
      obtain ⟨d, hd, -⟩ := primeOf_sizes hp
      exact hall _ hd
  · cases h

/-- **C81**. All other sizes up to 4096 raise `KeyError`. -/
theorem C81_other_sizes_raise {size hash : Nat} (h : 32 < size) (h' : size ≤ 4096) (h48 : size ≠ 48) (h64 : ¬ (size % 64 = 0 ∧ size ≤ 512)) :
    AffineConfig.new size hash = .error .key := by
  have hk : primeOf size = .error .key := by
    cases hp : primeOf size with
    | error e =>
      unfold primeOf at hp
      split at hp
      · cases hp
      · cases hp; rfl
    | ok p =>
      obtain ⟨d, hd, -⟩ := primeOf_sizes hp
      have hall : ∀ r ∈ primeOffsets, r.1 ≤ 32 ∨ r.1 = 48 ∨ (r.1 % 64 = 0 ∧ r.1 ≤ 512) := by decide +kernel
      have := hall _ hd
      simp only at this
      omega
  unfold AffineConfig.new
  rw [if_pos ⟨by omega, by omega⟩]
  simp [hk, bind, Except.bind]

example : AffineConfig.new 33 5 = .error .key := C81_other_sizes_raise (by decide) (by decide) (by decide) (by decide)

/-! ### the multiplier -/

/-- What the doc string of `is_likely_safe_multiplier` says: odd, about half as long as the prime, and about a quarter as many switches between zeros
and ones as the prime has bits. -/
def LikelySafe (m bits : Nat) : Prop :=
  m % 2 = 1 ∧ 2 ^ (bits / 2) < m ∧ m < 2 ^ (bits / 2 + 2) ∧
  let flips := ((List.range (Nat.log2 m)).filter fun i => m.testBit i != m.testBit (i + 1)).length
  (bits : Int) < 4 * (flips + (Nat.log2 bits - 1 : Nat)) ∧ 4 * ((flips : Int) - (Nat.log2 bits - 1 : Nat)) < bits

theorem countSwitches_append (l : List Bool) (a b : Bool) : countSwitches (l ++ [a, b]) = countSwitches (l ++ [a]) + (if a = b then 0 else 1) := by
  induction l with
  | nil => simp [countSwitches]
  | cons x l ih =>
    cases l with
    | nil => simp [countSwitches]
    | cons y l =>
      simp only [List.cons_append, countSwitches] at ih ⊢
      omega

theorem countSwitches_reverse : ∀ l : List Bool, countSwitches l.reverse = countSwitches l
  | [] => rfl
  | [_] => rfl
  | a :: b :: l => by
    have ih := countSwitches_reverse (b :: l)
    simp only [List.reverse_cons, List.append_assoc, List.singleton_append] at ih ⊢
    rw [countSwitches_append, ih]
    simp only [countSwitches]
    have : (if b = a then 0 else 1) = (if a = b then 0 else 1) := by simp only [eq_comm]
    omega

theorem countSwitches_map (f : Nat → Bool) : ∀ n, countSwitches ((List.range (n + 1)).map f) = ((List.range n).filter fun i => f i != f (i + 1)).length
  | 0 => rfl
  | n + 1 => by
    have ih := countSwitches_map f n
    rw [List.range_succ, List.range_succ] at *
    simp only [List.map_append, List.map_cons, List.map_nil, List.append_assoc, List.singleton_append, List.cons_append, List.nil_append] at ih ⊢
    rw [countSwitches_append, ih, List.filter_append, List.length_append]
    congr 1
    cases h1 : f n <;> cases h2 : f (n + 1) <;> simp [h1, h2]

theorem countSwitches_binaryDigits (m : Nat) :
    countSwitches (binaryDigits m) = ((List.range (Nat.log2 m)).filter fun i => m.testBit i != m.testBit (i + 1)).length := by
  unfold binaryDigits
  rw [countSwitches_reverse, countSwitches_map]

/-- **C81**. The multiplier that is derived is the first candidate that is likely safe, and it has the form that the doc string says. -/
theorem C81_multiplier {hashes : Nat → Nat} {size p : Nat} (h : primeOf size = .ok p) {fuel i k : Nat}
    (hk : deriveMultiplier hashes p fuel i = .ok (some k)) :
    LikelySafe (candidateKey (hashes k) p) (8 * size + 1) ∧ i ≤ k ∧
    ∀ j, i ≤ j → j < k → ¬ LikelySafe (candidateKey (hashes j) p) (8 * size + 1) := by
  obtain ⟨hgt, hlt⟩ := primeOf_gt h
  have hpos : ∀ r ∈ primeOffsets, 0 < r.1 := by decide +kernel
  obtain ⟨d, hd, -⟩ := primeOf_sizes h
  have h0 : 1 ≤ size := hpos _ hd
  have : 2 ^ (8 * 1) ≤ 2 ^ (8 * size) := Nat.pow_le_pow_right (by omega) (by omega)
  have hlog : Nat.log2 p = 8 * size := by
    have h1 : 8 * size ≤ Nat.log2 p := (Nat.le_log2 (by omega)).2 (by omega)
    have h2 : Nat.log2 p < 8 * size + 1 := (Nat.log2_lt (by omega)).2 hlt
    omega
  have key : ∀ m, (isLikelySafe m p = .ok true ↔ LikelySafe m (8 * size + 1)) ∧ ∃ b, isLikelySafe m p = .ok b := by
    intro m
    unfold isLikelySafe LikelySafe
    rw [if_neg (by omega)]
    refine ⟨?_, _, rfl⟩
    simp only [hlog, countSwitches_binaryDigits, Except.ok.injEq, Bool.and_eq_true, decide_eq_true_eq, Nat.shiftLeft_eq, Nat.one_mul, ← Nat.pow_add]
    constructor
    · rintro ⟨⟨h1, h2, h3⟩, h4, h5⟩
      exact ⟨h1, h3, h2, by omega, by omega⟩
    · rintro ⟨h1, h3, h2, h4, h5⟩
      exact ⟨⟨h1, h2, h3⟩, by omega, by omega⟩
  induction fuel generalizing i with
  | zero => simp [deriveMultiplier] at hk
  | succ fuel ih =>
    obtain ⟨hiff, b, hb⟩ := key (candidateKey (hashes i) p)
    simp only [deriveMultiplier, hb] at hk
    cases b with
    | true =>
      simp only [Except.ok.injEq, Option.some.injEq] at hk
      subst hk
      exact ⟨hiff.1 hb, Nat.le_refl _, fun j h1 h2 => by omega⟩
    | false =>
      obtain ⟨h1, h2, h3⟩ := ih hk
      refine ⟨h1, by omega, fun j hj1 hj2 => ?_⟩
      by_cases hji : j = i
      · subst hji
        intro hc
        have := hiff.2 hc
        rw [hb] at this
        cases this
      · exact h3 j (by omega) hj2

/-- **C81**. For every size of the table some hash gives a likely safe multiplier, so that the search can end. -/
theorem C81_multiplier_exists {size p : Nat} (h : primeOf size = .ok p) : ∃ hash, isLikelySafe (candidateKey hash p) p = .ok true := by
  obtain ⟨d, hd, rfl⟩ := primeOf_sizes h
  have hall : ∀ r ∈ primeOffsets, isLikelySafe (candidateKey ((16 ^ r.1 - 1) / 15 * 3) (2 ^ (8 * r.1) + r.2)) (2 ^ (8 * r.1) + r.2) = .ok true := by
    decide +kernel
  exact ⟨_, hall _ hd⟩

example : deriveMultiplier (fun i => i) 65537 20 0 = .ok (some 1) := by decide +kernel

end Aiootp.Perm
