import Verif.Model.Clock
import Verif.Lemmas.Py

/-
Properties C19 and C58: timestamps, time to live, clock readings.
-/

namespace Aiootp.Clock

/-! ### C19 -/

/-- C19. A timestamp can be made exactly when the reading fits the width, has that width, and reads back as the
reading. -/
theorem C19_timestamp_round_trip (reading : Int) (size : Nat) (order : Order) :
    (∀ ts, makeTimestamp reading size order = .ok ts →
      ts.length = size ∧ (readTimestamp ts order : Int) = reading) ∧
    ((∃ ts, makeTimestamp reading size order = .ok ts) ↔ 0 ≤ reading ∧ reading < 256 ^ size) := by
  have hcast : ((256 ^ size : Nat) : Int) = 256 ^ size := by rw [Int.natCast_pow]; rfl
  constructor
  · intro ts h
    unfold makeTimestamp at h
    split at h
    · cases h
    · rename_i hr
      cases order with
      | big =>
        simp only [toBytesBE] at h
        split at h
        · rename_i hlt
          cases h
          refine ⟨length_beDigits _ _, ?_⟩
          simp only [readTimestamp]
          rw [fromBE_beDigits_of_lt hlt]
          omega
        · cases h
      | little =>
        simp only [toBytesLE] at h
        split at h
        · rename_i hlt
          cases h
          refine ⟨length_leDigits _ _, ?_⟩
          simp only [readTimestamp]
          rw [fromLE_leDigits, Nat.mod_eq_of_lt hlt]
          omega
        · cases h
  · unfold makeTimestamp
    split
    · rename_i hr
      constructor
      · rintro ⟨ts, h⟩; cases h
      · rintro ⟨h, -⟩; omega
    · rename_i hr
      have key : reading.toNat < 256 ^ size ↔ 0 ≤ reading ∧ reading < 256 ^ size := by
        rw [← hcast]; omega
      cases order with
      | big =>
        simp only [toBytesBE]
        rw [← key]
        split <;> simp_all
      | little =>
        simp only [toBytesLE]
        rw [← key]
        split <;> simp_all

/-- C19. `test_timestamp` raises exactly when there is a ttl and the age exceeds it; the exception carries
`age - ttl`. The timestamp was made at the reading `made`, the test happens at the reading `now`. -/
theorem C19_ttl_exact {made now : Int} {size : Nat} {order : Order} {ts : Bytes}
    (hts : makeTimestamp made size order = .ok ts) (ttl : Option Int) :
    testTimestamp now ts ttl order =
      match ttl with
      | none => .ok ()
      | some ttl => if now - made ≤ ttl then .ok () else .error (.timestampExpired (now - made - ttl)) := by
  have h := ((C19_timestamp_round_trip made size order).1 ts hts).2
  cases ttl with
  | none => rfl
  | some ttl =>
    simp only [testTimestamp, delta, h]
    by_cases hd : now - made ≤ ttl
    · rw [if_neg (by omega), if_pos hd]
    · rw [if_pos (by omega), if_neg hd]

/-- C19. As a corollary, timestamps of the future are accepted by every non-negative ttl. -/
theorem C19_future_accepted {made now : Int} {size : Nat} {order : Order} {ts : Bytes}
    (hts : makeTimestamp made size order = .ok ts) (hfuture : now ≤ made) {ttl : Int} (h0 : 0 ≤ ttl) :
    testTimestamp now ts (some ttl) order = .ok () := by
  rw [C19_ttl_exact hts]
  simp only
  rw [if_pos (by omega)]

example : makeTimestamp 1000 4 .big = .ok [0, 0, 3, 232] ∧
    testTimestamp 1010 [0, 0, 3, 232] (some 10) .big = .ok () ∧
    testTimestamp 1011 [0, 0, 3, 232] (some 10) .big = .error (.timestampExpired 1) := by decide +kernel

/-! ### C58 -/

/-- C58 as the documentation of the units suggests: the reading is the number of whole units since the epoch. -/
def ReadingsExact : Prop :=
  ∀ asNs ∈ unitsAsNs, ∀ epoch now : Int, epoch ≤ now → unitTime asNs epoch now = (now - epoch) / asNs

/-- The claim C58 is false of the code, because the division is done in floating point: two different nanoseconds
of the year 2026 have the same reading, and a clock in seconds is ahead of time at the end of a second. -/
theorem C58_readings_not_exact : ¬ ReadingsExact ∧
    unitTime 1 1672531200000000000 1790000000000000001 = unitTime 1 1672531200000000000 1790000000000000000 ∧
    unitTime 1000000000 1672531200000000000 1789999999999999999
      = unitTime 1000000000 1672531200000000000 1790000000000000000 := by
  have h : unitTime 1 1672531200000000000 1790000000000000001
      = unitTime 1 1672531200000000000 1790000000000000000 := by decide +kernel
  refine ⟨?_, h, by decide +kernel⟩
  intro hx
  rw [hx 1 (by decide) _ _ (by decide), hx 1 (by decide) _ _ (by decide)] at h
  exact absurd h (by decide)

theorem roundHalfEven_bounds (n d : Nat) : n / d ≤ roundHalfEven n d ∧ roundHalfEven n d ≤ n / d + 1 := by
  unfold roundHalfEven
  simp only
  split
  · omega
  · split
    · omega
    · split <;> omega

theorem roundHalfEven_exact {n d : Nat} (hd : 0 < d) (h : n % d = 0) : roundHalfEven n d = n / d := by
  unfold roundHalfEven
  simp only [h]
  rw [if_pos (by omega)]

theorem roundHalfEven_mono {n n' d : Nat} (h : n ≤ n') : roundHalfEven n d ≤ roundHalfEven n' d := by
  have hq : n / d ≤ n' / d := Nat.div_le_div_right h
  rcases Nat.lt_or_ge (n / d) (n' / d) with hlt | hge
  · have h1 := (roundHalfEven_bounds n d).2
    have h2 := (roundHalfEven_bounds n' d).1
    omega
  · have heq : n / d = n' / d := by omega
    have e1 := Nat.div_add_mod n d
    have e2 := Nat.div_add_mod n' d
    have hr : n % d ≤ n' % d := by rw [heq] at e1; omega
    unfold roundHalfEven
    simp only
    rw [heq]
    split <;> split <;> (try split) <;> (try split) <;> (try split) <;> omega

theorem div_mul_pow_lt {a b e : Nat} (hb : 0 < b) (h : a / b < 2 ^ (e + 1)) (k : Nat) :
    a * 2 ^ k / b + 1 ≤ 2 ^ (e + 1) * 2 ^ k := by
  have h1 : a < 2 ^ (e + 1) * b := (Nat.div_lt_iff_lt_mul hb).1 h
  have h2 : a * 2 ^ k / b < 2 ^ (e + 1) * 2 ^ k := by
    rw [Nat.div_lt_iff_lt_mul hb]
    calc a * 2 ^ k < 2 ^ (e + 1) * b * 2 ^ k := by
          exact Nat.mul_lt_mul_of_pos_right h1 (Nat.pow_pos (by omega))
      _ = 2 ^ (e + 1) * 2 ^ k * b := by rw [Nat.mul_assoc, Nat.mul_comm b, ← Nat.mul_assoc]
  omega

/-- The rounded quotient stays within the power-of-two bracket of the exact one. -/
theorem intTrueDiv_bracket {a b : Nat} (hb : 0 < b) (hab : b ≤ a) :
    2 ^ Nat.log2 (a / b) ≤ intTrueDiv a b ∧ intTrueDiv a b ≤ 2 ^ (Nat.log2 (a / b) + 1) := by
  have hq : 0 < a / b := Nat.div_pos hab hb
  have hlo : 2 ^ Nat.log2 (a / b) ≤ a / b := Nat.log2_self_le (by omega)
  have hhi : a / b < 2 ^ (Nat.log2 (a / b) + 1) := Nat.lt_log2_self
  unfold intTrueDiv
  rw [if_neg (by omega)]
  simp only
  generalize Nat.log2 (a / b) = e at *
  have hlo' : 2 ^ e * b ≤ a := (Nat.le_div_iff_mul_le hb).1 hlo
  split
  · rename_i he
    have hp : 0 < 2 ^ (52 - e) := Nat.pow_pos (by omega)
    constructor
    · rw [Nat.le_div_iff_mul_le hp]
      refine Nat.le_trans ?_ (roundHalfEven_bounds _ _).1
      rw [Nat.le_div_iff_mul_le hb]
      calc 2 ^ e * 2 ^ (52 - e) * b = 2 ^ e * b * 2 ^ (52 - e) := by
            rw [Nat.mul_assoc, Nat.mul_comm (2 ^ (52 - e)), ← Nat.mul_assoc]
        _ ≤ a * 2 ^ (52 - e) := Nat.mul_le_mul_right _ hlo'
    · have h1 := (roundHalfEven_bounds (a * 2 ^ (52 - e)) b).2
      have h2 := div_mul_pow_lt hb hhi (52 - e)
      have h3 : roundHalfEven (a * 2 ^ (52 - e)) b ≤ 2 ^ (e + 1) * 2 ^ (52 - e) := by omega
      calc roundHalfEven (a * 2 ^ (52 - e)) b / 2 ^ (52 - e)
          ≤ 2 ^ (e + 1) * 2 ^ (52 - e) / 2 ^ (52 - e) := Nat.div_le_div_right h3
        _ = 2 ^ (e + 1) := Nat.mul_div_cancel _ hp
  · rename_i he
    have hp : 0 < 2 ^ (e - 52) := Nat.pow_pos (by omega)
    have hbp : 0 < b * 2 ^ (e - 52) := Nat.mul_pos hb hp
    have hsplit : 2 ^ e = 2 ^ 52 * 2 ^ (e - 52) := by rw [← Nat.pow_add]; congr 1; omega
    have hsplit' : 2 ^ (e + 1) = 2 ^ 53 * 2 ^ (e - 52) := by rw [← Nat.pow_add]; congr 1; omega
    constructor
    · have : 2 ^ 52 ≤ roundHalfEven a (b * 2 ^ (e - 52)) := by
        refine Nat.le_trans ?_ (roundHalfEven_bounds _ _).1
        rw [Nat.le_div_iff_mul_le hbp]
        calc 2 ^ 52 * (b * 2 ^ (e - 52)) = 2 ^ 52 * 2 ^ (e - 52) * b := by
              rw [Nat.mul_comm b, Nat.mul_assoc]
          _ = 2 ^ e * b := by rw [← hsplit]
          _ ≤ a := hlo'
      rw [hsplit]
      exact Nat.mul_le_mul_right _ this
    · have h1 := (roundHalfEven_bounds a (b * 2 ^ (e - 52))).2
      have h2 : a / (b * 2 ^ (e - 52)) < 2 ^ 53 := by
        rw [Nat.div_lt_iff_lt_mul hbp]
        have := (Nat.div_lt_iff_lt_mul hb).1 hhi
        calc a < 2 ^ (e + 1) * b := this
          _ = 2 ^ 53 * (b * 2 ^ (e - 52)) := by
            rw [hsplit', Nat.mul_assoc, Nat.mul_comm (2 ^ (e - 52))]
      rw [hsplit']
      exact Nat.mul_le_mul_right _ (by omega)

theorem intTrueDiv_of_le {a b : Nat} (h : ¬ a < b) : intTrueDiv a b =
    if Nat.log2 (a / b) ≤ 52 then
      roundHalfEven (a * 2 ^ (52 - Nat.log2 (a / b))) b / 2 ^ (52 - Nat.log2 (a / b))
    else roundHalfEven a (b * 2 ^ (Nat.log2 (a / b) - 52)) * 2 ^ (Nat.log2 (a / b) - 52) := by
  unfold intTrueDiv
  rw [if_neg h]

theorem intTrueDiv_mono {a a' b : Nat} (hb : 0 < b) (h : a ≤ a') : intTrueDiv a b ≤ intTrueDiv a' b := by
  by_cases hab : a < b
  · have : intTrueDiv a b = 0 := by unfold intTrueDiv; rw [if_pos hab]
    omega
  · have hq : a / b ≤ a' / b := Nat.div_le_div_right h
    have hq0 : 0 < a / b := Nat.div_pos (by omega) hb
    have hle : Nat.log2 (a / b) ≤ Nat.log2 (a' / b) :=
      (Nat.le_log2 (by omega)).2 (Nat.le_trans (Nat.log2_self_le (by omega)) hq)
    rcases Nat.lt_or_ge (Nat.log2 (a / b)) (Nat.log2 (a' / b)) with hlt | hge
    · have h1 := (intTrueDiv_bracket hb (show b ≤ a by omega)).2
      have h2 := (intTrueDiv_bracket hb (show b ≤ a' by omega)).1
      have h3 : 2 ^ (Nat.log2 (a / b) + 1) ≤ 2 ^ Nat.log2 (a' / b) := Nat.pow_le_pow_right (by omega) hlt
      omega
    · have heq : Nat.log2 (a / b) = Nat.log2 (a' / b) := by omega
      rw [intTrueDiv_of_le hab, intTrueDiv_of_le (a := a') (by omega), heq]
      generalize Nat.log2 (a' / b) = e
      split
      · exact Nat.div_le_div_right (roundHalfEven_mono (Nat.mul_le_mul_right _ h))
      · exact Nat.mul_le_mul_right _ (roundHalfEven_mono h)

/-- C58, what holds: a clock never goes back while the system time does not. -/
theorem C58_monotone_partial {asNs : Nat} (hpos : 0 < asNs) {epoch now now' : Int}
    (h : now ≤ now') : unitTime asNs epoch now ≤ unitTime asNs epoch now' := by
  unfold unitTime
  by_cases h1 : now - epoch ≥ 0
  · rw [if_pos h1, if_pos (by omega)]
    have := intTrueDiv_mono (a := (now - epoch).toNat) (a' := (now' - epoch).toNat) hpos (by omega)
    omega
  · rw [if_neg h1]
    by_cases h2 : now' - epoch ≥ 0
    · rw [if_pos h2]; omega
    · rw [if_neg h2]
      have := intTrueDiv_mono (a := (epoch - now').toNat) (a' := (epoch - now).toNat) hpos (by omega)
      omega

/-- C58, what holds: readings are exact when the nanoseconds since the epoch are a whole number of units and there
are less than `2 ** 53` units. -/
theorem C58_exact_partial {asNs : Nat} (hpos : 0 < asNs) {epoch : Int} {units : Nat}
    (hu : units < 2 ^ 53) : unitTime asNs epoch (epoch + units * asNs) = units := by
  have e1 : epoch + (units : Int) * asNs - epoch = ((units * asNs : Nat) : Int) := by push_cast; omega
  unfold unitTime
  rw [e1, if_pos (by omega), Int.toNat_natCast]
  unfold intTrueDiv
  by_cases h0 : units = 0
  · subst h0; rw [if_pos (by omega)]
  · have hge : asNs ≤ units * asNs := Nat.le_mul_of_pos_left _ (by omega)
    rw [if_neg (by omega)]
    simp only [Nat.mul_div_cancel _ hpos]
    have he : Nat.log2 units ≤ 52 := by
      have := (Nat.log2_lt (by omega)).2 hu
      omega
    rw [if_pos he]
    have hm : (units * asNs * 2 ^ (52 - units.log2)) % asNs = 0 := by
      rw [Nat.mul_comm units asNs, Nat.mul_assoc]
      exact Nat.mul_mod_right _ _
    rw [roundHalfEven_exact hpos hm]
    have : units * asNs * 2 ^ (52 - units.log2) / asNs = units * 2 ^ (52 - units.log2) := by
      rw [Nat.mul_assoc, Nat.mul_comm asNs, ← Nat.mul_assoc]
      exact Nat.mul_div_cancel _ hpos
    rw [this, Nat.mul_div_cancel _ (Nat.pow_pos (by omega))]

/-- C58, what holds: no reading is behind, and for less than `2 ** 52` units since the epoch none is more than one
unit ahead. -/
theorem C58_off_by_one_partial {asNs : Nat} (hpos : 0 < asNs) {epoch now : Int} (hge : epoch ≤ now)
    (hu : (now - epoch) / asNs < 2 ^ 52) :
    (now - epoch) / asNs ≤ unitTime asNs epoch now ∧ unitTime asNs epoch now ≤ (now - epoch) / asNs + 1 := by
  obtain ⟨n, hn⟩ : ∃ n : Nat, now - epoch = n := ⟨(now - epoch).toNat, by omega⟩
  have hcast : (now - epoch) / asNs = ((n / asNs : Nat) : Int) := by rw [hn]; rfl
  rw [hcast] at hu ⊢
  have hu' : n / asNs < 2 ^ 52 := by omega
  have lo := C58_exact_partial hpos (epoch := epoch) (units := n / asNs) (by omega)
  have hi := C58_exact_partial hpos (epoch := epoch) (units := n / asNs + 1) (by omega)
  have e := Nat.div_add_mod n asNs
  have hm := Nat.mod_lt n hpos
  have hmc : (n / asNs) * asNs = asNs * (n / asNs) := Nat.mul_comm _ _
  have m1 : epoch + ((n / asNs : Nat) : Int) * asNs ≤ now := by
    have : ((n / asNs : Nat) : Int) * asNs = ((n / asNs * asNs : Nat) : Int) := by push_cast; rfl
    rw [this]; omega
  have m2 : now ≤ epoch + ((n / asNs + 1 : Nat) : Int) * asNs := by
    have : ((n / asNs + 1 : Nat) : Int) * asNs = (((n / asNs + 1) * asNs : Nat) : Int) := by push_cast; rfl
    rw [this, Nat.add_mul]; omega
  have r1 := C58_monotone_partial (asNs := asNs) (epoch := epoch) hpos m1
  have r2 := C58_monotone_partial (asNs := asNs) (epoch := epoch) hpos m2
  rw [lo] at r1
  rw [hi] at r2
  constructor
  · exact r1
  · push_cast at r2 ⊢; exact r2

example : ∀ asNs ∈ unitsAsNs, 0 < asNs := by decide
example : unitTime 1000000000 1672531200000000000 1789999999123456789 = 117468799 := by decide +kernel

end Aiootp.Clock
