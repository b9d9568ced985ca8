import Verif.Model.Py

namespace Aiootp

@[simp] theorem length_leDigits (s n : Nat) : (leDigits s n).length = s := by
  induction s generalizing n with
  | zero => rfl
  | succ s ih => simp [leDigits, ih]

@[simp] theorem length_beDigits (s n : Nat) : (beDigits s n).length = s := by
  simp [beDigits]

theorem fromLE_leDigits (s n : Nat) : fromLE (leDigits s n) = n % 256 ^ s := by
  induction s generalizing n with
  | zero => simp [leDigits, fromLE, Nat.mod_one]
  | succ s ih =>
    simp only [leDigits, fromLE, ih]
    have h : (UInt8.ofNat (n % 256)).toNat = n % 256 := by
      simp
    rw [h, Nat.pow_succ, Nat.mul_comm (256 ^ s) 256, Nat.mod_mul]

theorem fromLE_lt (b : Bytes) : fromLE b < 256 ^ b.length := by
  induction b with
  | nil => simp [fromLE]
  | cons x xs ih =>
    simp only [fromLE, List.length_cons, Nat.pow_succ]
    have := x.toNat_lt
    omega

theorem fromBE_lt (b : Bytes) : fromBE b < 256 ^ b.length := by
  have := fromLE_lt b.reverse
  simpa [fromBE] using this

theorem leDigits_fromLE (b : Bytes) : leDigits b.length (fromLE b) = b := by
  induction b with
  | nil => rfl
  | cons x xs ih =>
    have hx := x.toNat_lt
    have h1 : (x.toNat + 256 * fromLE xs) % 256 = x.toNat := by omega
    have h2 : (x.toNat + 256 * fromLE xs) / 256 = fromLE xs := by omega
    simp only [List.length_cons, leDigits, fromLE, h1, h2, ih]
    simp

theorem beDigits_fromBE (b : Bytes) : beDigits b.length (fromBE b) = b := by
  have := leDigits_fromLE b.reverse
  simp only [List.length_reverse] at this
  simp [beDigits, fromBE, this]

theorem fromBE_beDigits (s n : Nat) : fromBE (beDigits s n) = n % 256 ^ s := by
  simp [fromBE, beDigits, fromLE_leDigits]

theorem fromBE_beDigits_of_lt {s n : Nat} (h : n < 256 ^ s) : fromBE (beDigits s n) = n := by
  rw [fromBE_beDigits, Nat.mod_eq_of_lt h]

theorem fromLE_leDigits_of_lt {s n : Nat} (h : n < 256 ^ s) : fromLE (leDigits s n) = n := by
  rw [fromLE_leDigits, Nat.mod_eq_of_lt h]

theorem toBytesBE_ok {s n : Nat} {b : Bytes} :
    toBytesBE s n = .ok b ↔ n < 256 ^ s ∧ b = beDigits s n := by
  unfold toBytesBE
  split
  · rename_i h
    constructor
    · intro e; cases e; exact ⟨h, rfl⟩
    · rintro ⟨_, rfl⟩; rfl
  · rename_i h
    constructor
    · intro e; cases e
    · rintro ⟨h', _⟩; exact absurd h' h

theorem toBytesLE_ok {s n : Nat} {b : Bytes} :
    toBytesLE s n = .ok b ↔ n < 256 ^ s ∧ b = leDigits s n := by
  unfold toBytesLE
  split
  · rename_i h
    constructor
    · intro e; cases e; exact ⟨h, rfl⟩
    · rintro ⟨_, rfl⟩; rfl
  · rename_i h
    constructor
    · intro e; cases e
    · rintro ⟨h', _⟩; exact absurd h' h

theorem beDigits_inj {s a b : Nat} (ha : a < 256 ^ s) (hb : b < 256 ^ s)
    (h : beDigits s a = beDigits s b) : a = b := by
  have := congrArg fromBE h
  rwa [fromBE_beDigits_of_lt ha, fromBE_beDigits_of_lt hb] at this

theorem leDigits_inj {s a b : Nat} (ha : a < 256 ^ s) (hb : b < 256 ^ s)
    (h : leDigits s a = leDigits s b) : a = b := by
  have := congrArg fromLE h
  rwa [fromLE_leDigits_of_lt ha, fromLE_leDigits_of_lt hb] at this

theorem fromBE_inj {a b : Bytes} (hl : a.length = b.length) (h : fromBE a = fromBE b) : a = b := by
  rw [← beDigits_fromBE a, ← beDigits_fromBE b, h, hl]

/-- `Except` bind inversion. -/
theorem bind_eq_ok {ε α β} {x : Except ε α} {f : α → Except ε β} {b : β} :
    (x >>= f) = .ok b ↔ ∃ a, x = .ok a ∧ f a = .ok b := by
  cases x with
  | error e => simp [bind, Except.bind]
  | ok a => simp [bind, Except.bind]

theorem raiseIf_ok {p : Prop} [Decidable p] {e : Err} {u : Unit} : raiseIf p e = .ok u ↔ ¬ p := by
  unfold raiseIf
  split <;> simp_all

theorem nodup_getElem_inj {α} {l : List α} (h : l.Nodup) {i j : Nat} (hi : i < l.length)
    (hj : j < l.length) (he : l[i] = l[j]) : i = j := by
  rcases Nat.lt_trichotomy i j with hlt | heq | hgt
  · exact absurd he (List.pairwise_iff_getElem.1 h i j hi hj hlt)
  · exact heq
  · exact absurd he.symm (List.pairwise_iff_getElem.1 h j i hj hi hgt)

theorem ceilDiv_mul_ge (a b : Nat) (hb : 0 < b) : a ≤ b * ceilDiv a b := by
  unfold ceilDiv
  have := Nat.div_add_mod (a + b - 1) b
  have := Nat.mod_lt (a + b - 1) hb
  omega

theorem ceilDiv_mul_lt (a b : Nat) (hb : 0 < b) : b * ceilDiv a b < a + b := by
  unfold ceilDiv
  have := Nat.div_add_mod (a + b - 1) b
  omega

end Aiootp
