import Verif.Lemmas.Perm

/-
Properties C12 - C14: affine permutations and affine-xor chains.
-/

namespace Aiootp.Perm

/-! ### C12 -/

/-- C12. For every configuration and key that construction accepts, `permute` and `invert` terminate on every number
of the configured size, stay in range and undo each other. -/
theorem C12_affine_bijection {size hash : Nat} {config : AffineConfig} {key : Bytes} {a : Affine}
    (hc : AffineConfig.new size hash = .ok config) (ha : Affine.new config key = .ok a) :
    (∀ x < 256 ^ size, ∃ y < 256 ^ size, a.permute x = some y ∧ a.invert y = some x) ∧
    (∀ y < 256 ^ size, ∃ x < 256 ^ size, a.invert y = some x ∧ a.permute x = some y) := by
  obtain ⟨hwf, rfl, hs⟩ := AffineConfig.new_wf hc
  have hw := Affine.new_wf hwf ha
  exact ⟨fun x hx => Affine.permute_total hw hx, fun y hy => Affine.invert_total hw hy⟩

/-- C12. Distinct numbers have distinct images. -/
theorem C12_affine_injective {size hash : Nat} {config : AffineConfig} {key : Bytes} {a : Affine}
    (hc : AffineConfig.new size hash = .ok config) (ha : Affine.new config key = .ok a)
    {x x' : Nat} (hx : x < 256 ^ size) (hx' : x' < 256 ^ size) (h : a.permute x = a.permute x') : x = x' := by
  obtain ⟨h1, -⟩ := C12_affine_bijection hc ha
  obtain ⟨y, -, e, i⟩ := h1 x hx
  obtain ⟨y', -, e', i'⟩ := h1 x' hx'
  rw [e, e'] at h
  cases h
  rw [i] at i'
  exact Option.some.inj i'

/-- C12. Which keys are accepted: exactly those of `2 * size` bytes. -/
theorem C12_affine_accepts {config : AffineConfig} {key : Bytes} :
    (∃ a, Affine.new config key = .ok a) ↔ key.length = 2 * config.size := by
  unfold Affine.new AffineConfig.keySize
  split <;> simp_all

theorem candidateKey_bounds (hash prime : Nat) (hp : 256 < prime) :
    0 < candidateKey hash prime ∧ candidateKey hash prime < prime := by
  unfold candidateKey
  simp only [Nat.one_shiftLeft]
  set k := (Nat.log2 prime + 1) / 2 with hk
  have hL : 8 ≤ Nat.log2 prime := (Nat.le_log2 (by omega)).2 (by omega)
  have hle : 2 ^ Nat.log2 prime ≤ prime := Nat.log2_self_le (by omega)
  constructor
  · have : 2 ^ k ≤ 2 ^ k ||| (hash &&& (2 ^ k - 1)) := Nat.left_le_or
    have : 0 < 2 ^ k := Nat.pow_pos (by omega)
    omega
  · have h1 : 2 ^ k < 2 ^ (k + 1) := Nat.pow_lt_pow_right (by omega) (by omega)
    have h2 : (hash &&& (2 ^ k - 1)) < 2 ^ (k + 1) := by
      have : (hash &&& (2 ^ k - 1)) ≤ 2 ^ k - 1 := Nat.and_le_right
      omega
    have h3 := Nat.or_lt_two_pow h1 h2
    have h4 : 2 ^ (k + 1) ≤ 2 ^ Nat.log2 prime := Nat.pow_le_pow_right (by omega) (by omega)
    omega

/-- C12. Whatever the hash gives as multiplier, the configuration of a size in the table is accepted, provided the
number in the table is a prime. -/
theorem C12_config_accepted {size hash p : Nat} (h0 : 0 < size) (hs : size ≤ 4096) (hp : primeOf size = .ok p)
    (hprime : Nat.Prime p) : ∃ config, AffineConfig.new size hash = .ok config := by
  have hgt := (primeOf_gt hp).1
  have h256 : 256 ≤ 2 ^ (8 * size) := by
    calc 256 = 2 ^ 8 := by decide
      _ ≤ 2 ^ (8 * size) := Nat.pow_le_pow_right (by omega) (by omega)
  obtain ⟨hpos, hlt⟩ := candidateKey_bounds hash p (by omega)
  have hg : Nat.gcd (candidateKey hash p) p = 1 := by
    have := (Nat.Prime.coprime_iff_not_dvd hprime).2 (fun hd => by
      have := Nat.le_of_dvd hpos hd; omega)
    rw [Nat.gcd_comm]; exact this
  obtain ⟨inv, hinv⟩ := (powInv_ok_iff _ _).2 hg
  refine ⟨{ size, max := 2 ^ (8 * size) - 1, prime := p, multiplicativeKey := candidateKey hash p, inverseKey := inv }, ?_⟩
  unfold AffineConfig.new
  rw [if_pos ⟨by omega, by omega⟩]
  simp [hp, hinv, bind, Except.bind, pure, Except.pure]

/-- Outside of its domain `permute` is not a permutation: with this key it never returns for the value 256
(one-byte configuration). -/
theorem C12_outside_domain_diverges : ∃ config a, AffineConfig.new 1 1 = .ok config ∧
    Affine.new config [0, 16] = .ok a ∧ ∀ n, a.forward^[n] (a.forward 256) > config.max := by
  obtain ⟨config, hc⟩ : ∃ config, AffineConfig.new 1 1 = .ok config := by
    exact ⟨{ size := 1, max := 255, prime := 257, multiplicativeKey := 17, inverseKey := 121 }, by decide +kernel⟩
  have hc' : config = { size := 1, max := 255, prime := 257, multiplicativeKey := 17, inverseKey := 121 } := by
    have : AffineConfig.new 1 1
        = .ok { size := 1, max := 255, prime := 257, multiplicativeKey := 17, inverseKey := 121 } := by
      decide +kernel
    rw [hc] at this
    exact Except.ok.inj this
  refine ⟨config, { config, additiveKey := 16 }, hc, by rw [hc']; decide +kernel, ?_⟩
  have hwf := (AffineConfig.new_wf hc).1
  apply walk_none_diverges (Affine.inverse { config, additiveKey := 16 } hwf)
  · subst hc'; decide +kernel
  · subst hc'; decide +kernel

/-- A concrete permutation that meets the hypotheses. -/
example : ∃ config a, AffineConfig.new 2 0x5a = .ok config ∧
    Affine.new config [1, 2, 3, 4] = .ok a ∧ a.permute 4660 = some 39986 ∧ a.invert 39986 = some 4660 := by
  refine ⟨{ size := 2, max := 65535, prime := 65537, multiplicativeKey := 0x15a, inverseKey := 14206 }, _,
    by decide +kernel, rfl, by decide +kernel, by decide +kernel⟩

example : Nat.Prime 257 ∧ primeOf 1 = .ok 257 := by
  refine ⟨by decide +kernel, by decide +kernel⟩

/-! ### C13 -/

/-- C13. Whatever steps and increment updates a chain has been through, `permute` and `invert` are mutually inverse
bijections of the numbers of the configured size; so are `uncapped_permute` and `uncapped_invert`. -/
theorem C13_chain_bijection {fast : Bool} {size hash : Nat} {config : AffineConfig} {key : Bytes} {c : Chain}
    (hc : AffineConfig.new size hash = .ok config) (hk : Chain.new fast config key = .ok c)
    (history : List ChainCall) :
    (∀ x < 256 ^ size, ∃ y < 256 ^ size,
      (c.run history).permute x = some y ∧ (c.run history).invert y = some x) ∧
    (∀ y < 256 ^ size, ∃ x < 256 ^ size,
      (c.run history).invert y = some x ∧ (c.run history).permute x = some y) ∧
    (∀ x < 256 ^ size, ∃ y < 256 ^ size,
      (c.run history).uncappedPermute x = some y ∧ (c.run history).uncappedInvert y = some x) ∧
    (∀ y < 256 ^ size, ∃ x < 256 ^ size,
      (c.run history).uncappedInvert y = some x ∧ (c.run history).uncappedPermute x = some y) := by
  obtain ⟨hwf, hsz, hs⟩ := AffineConfig.new_wf hc
  obtain ⟨hcw, hcs⟩ := Chain.new_wf hwf (by omega) hk
  obtain ⟨hr, hrs⟩ := Chain.run_wf hcw history
  have e : (c.run history).size = size := by rw [hrs, hcs, hsz]
  rw [← e]
  exact ⟨fun x hx => Chain.permute_total hr hx, fun y hy => Chain.invert_total hr hy,
    fun x hx => Chain.uncapped_total hr hx, fun y hy => Chain.uncapped_onto hr hy⟩

/-- C13. The sender's and the receiver's object, made from the same key and taken through the same history, undo each
other. -/
theorem C13_two_parties {fast : Bool} {size hash : Nat} {config : AffineConfig} {key : Bytes} {sender receiver : Chain}
    (hc : AffineConfig.new size hash = .ok config) (hk : Chain.new fast config key = .ok sender)
    (hk' : Chain.new fast config key = .ok receiver) (history : List ChainCall) {x : Nat} (hx : x < 256 ^ size) :
    ∃ y < 256 ^ size, (sender.run history).permute x = some y ∧ (receiver.run history).invert y = some x := by
  rw [hk] at hk'
  cases hk'
  exact (C13_chain_bijection hc hk history).1 x hx

/-- C13. Which keys are accepted. -/
theorem C13_chain_accepts {fast : Bool} {config : AffineConfig} {key : Bytes} :
    (∃ c, Chain.new fast config key = .ok c) ↔ key.length = (if fast then 5 else 9) * config.size := by
  constructor
  · rintro ⟨c, h⟩
    by_contra hne
    unfold Chain.new at h
    simp only [hne, if_false] at h
    cases h
  · intro h
    unfold Chain.new
    simp only [h, if_true]
    cases fast with
    | true =>
      have h1 : ((key.drop (3 * config.size)).take (2 * config.size)).length = 2 * config.size := by
        simp only [List.length_take, List.length_drop, h, if_true]; omega
      simp [Affine.new, AffineConfig.keySize, h1, bind, Except.bind, pure, Except.pure, -List.length_take]
    | false =>
      have h1 : ((key.drop (3 * config.size)).take (2 * config.size)).length = 2 * config.size := by
        simp only [List.length_take, List.length_drop, h, Bool.false_eq_true, if_false]; omega
      have h2 : ((key.drop (5 * config.size)).take (2 * config.size)).length = 2 * config.size := by
        simp only [List.length_take, List.length_drop, h, Bool.false_eq_true, if_false]; omega
      have h3 : (key.drop (7 * config.size)).length = 2 * config.size := by
        simp only [List.length_drop, h, Bool.false_eq_true, if_false]; omega
      simp [Affine.new, AffineConfig.keySize, h1, h2, h3, bind, Except.bind, pure, Except.pure,
        -List.length_take, -List.length_drop]

/-- A concrete chain with a history that meets the hypotheses. -/
example : ∃ config c, AffineConfig.new 1 3 = .ok config ∧
    Chain.new false config [7, 8, 9, 1, 2, 3, 4, 5, 6] = .ok c ∧
    (c.run [.step, .update 6, .step, .update 0]).permute 200 = some 52 ∧
    (c.run [.step, .update 6, .step, .update 0]).invert 52 = some 200 := by
  refine ⟨{ size := 1, max := 255, prime := 257, multiplicativeKey := 19, inverseKey := 230 }, _,
    by decide +kernel, rfl, by decide +kernel, by decide +kernel⟩

/-! ### C14 -/

theorem odd_mul_inj {s inc n m k : Nat} (hodd : inc % 2 = 1) (hn : n < 256 ^ s) (hm : m < 256 ^ s)
    (h : (k + n * inc) % 256 ^ s = (k + m * inc) % 256 ^ s) : n = m := by
  have hcop : Nat.Coprime (256 ^ s) inc := by
    rw [← two_pow_eight]
    apply Nat.Coprime.pow_left
    refine (Nat.Prime.coprime_iff_not_dvd Nat.prime_two).2 ?_
    omega
  have h1 : k + n * inc ≡ k + m * inc [MOD 256 ^ s] := h
  have h2 : n * inc ≡ m * inc [MOD 256 ^ s] := Nat.ModEq.add_left_cancel' k h1
  have h3 : n ≡ m [MOD 256 ^ s] := Nat.ModEq.cancel_right_of_coprime hcop h2
  unfold Nat.ModEq at h3
  rwa [Nat.mod_eq_of_lt hn, Nat.mod_eq_of_lt hm] at h3

/-- C14. Between updates, for a fixed input no two of the first `256 ** size` steps give the same output. The chain
`c.run history` is any state the chain can be in; then it is only stepped. -/
theorem C14_latin_square {fast : Bool} {size hash : Nat} {config : AffineConfig} {key : Bytes} {c : Chain}
    (hc : AffineConfig.new size hash = .ok config) (hk : Chain.new fast config key = .ok c)
    (history : List ChainCall) {n m x : Nat} (hn : n < 256 ^ size) (hm : m < 256 ^ size) (hx : x < 256 ^ size)
    (h : (c.run (history ++ List.replicate n .step)).permute x
      = (c.run (history ++ List.replicate m .step)).permute x) : n = m := by
  obtain ⟨hwf, hsz, hs⟩ := AffineConfig.new_wf hc
  obtain ⟨hcw, hcs⟩ := Chain.new_wf hwf (by omega) hk
  obtain ⟨hr, hrs⟩ := Chain.run_wf hcw history
  have e : (c.run history).size = size := by rw [hrs, hcs, hsz]
  have happ : ∀ k, c.run (history ++ List.replicate k .step)
      = (c.run history).run (List.replicate k .step) := fun k => by
    simp [Chain.run, List.foldl_append]
  rw [happ, happ] at h
  have key : ∀ k, ((c.run history).run (List.replicate k .step)).permute x
      = ((c.run history).uncappedPermute
          (x ^^^ (((c.run history).inKey + k * (c.run history).increment) % 256 ^ size))).map
          (· ^^^ (c.run history).outKey) := by
    intro k
    have hw := (Chain.run_wf hr (List.replicate k .step)).1
    rw [Chain.permute_eq, Chain.run_steps]
    have : (if k = 0 then (c.run history).inKey
        else ((c.run history).inKey + k * (c.run history).increment) % domain (c.run history).size)
        = ((c.run history).inKey + k * (c.run history).increment) % 256 ^ size := by
      split
      · rename_i h0
        subst h0
        have := hr.inKey
        rw [e] at this
        rw [Nat.zero_mul, Nat.add_zero, Nat.mod_eq_of_lt this]
      · rw [domain, two_pow_eight, e]
    simp only [this]
    rfl
  rw [key n, key m] at h
  have hpos : 0 < 256 ^ size := Nat.pow_pos (by omega)
  have hlt : ∀ k, x ^^^ (((c.run history).inKey + k * (c.run history).increment) % 256 ^ size) < 256 ^ size :=
    fun k => xor_lt hx (Nat.mod_lt _ hpos)
  obtain ⟨y, -, ey, iy⟩ := Chain.uncapped_total hr (by rw [e]; exact hlt n)
  obtain ⟨y', -, ey', iy'⟩ := Chain.uncapped_total hr (by rw [e]; exact hlt m)
  rw [ey, ey'] at h
  simp only [Option.map_some, Option.some.injEq] at h
  have hy : y = y' := by
    have := congrArg (· ^^^ (c.run history).outKey) h
    simpa only [xor_cancel] using this
  subst hy
  rw [iy] at iy'
  have hxx := Option.some.inj iy'
  have := congrArg (x ^^^ ·) hxx
  simp only [← Nat.xor_assoc, Nat.xor_self, Nat.zero_xor] at this
  exact odd_mul_inj hr.odd hn hm this

/-- C14. The in-key passes through `256 ** size` distinct values and then is back where it was. -/
theorem C14_period {fast : Bool} {size hash : Nat} {config : AffineConfig} {key : Bytes} {c : Chain}
    (hc : AffineConfig.new size hash = .ok config) (hk : Chain.new fast config key = .ok c)
    (history : List ChainCall) :
    c.run (history ++ List.replicate (256 ^ size) .step) = c.run history ∧
    ∀ n < 256 ^ size, ∀ m < 256 ^ size,
      (c.run (history ++ List.replicate n .step)).inKey
        = (c.run (history ++ List.replicate m .step)).inKey → n = m := by
  obtain ⟨hwf, hsz, hs⟩ := AffineConfig.new_wf hc
  obtain ⟨hcw, hcs⟩ := Chain.new_wf hwf (by omega) hk
  obtain ⟨hr, hrs⟩ := Chain.run_wf hcw history
  have e : (c.run history).size = size := by rw [hrs, hcs, hsz]
  have happ : ∀ k, c.run (history ++ List.replicate k .step)
      = (c.run history).run (List.replicate k .step) := fun k => by
    simp [Chain.run, List.foldl_append]
  have hpos : 0 < 256 ^ size := Nat.pow_pos (by omega)
  have hin := hr.inKey
  rw [e] at hin
  constructor
  · have hback : ((c.run history).inKey + 256 ^ size * (c.run history).increment)
        % domain (c.run history).size = (c.run history).inKey := by
      rw [domain, two_pow_eight, e, Nat.add_mul_mod_self_left, Nat.mod_eq_of_lt hin]
    rw [happ, Chain.run_steps, if_neg (by omega), hback]
  · intro n hn m hm h
    have key : ∀ k, ((c.run history).run (List.replicate k .step)).inKey
        = ((c.run history).inKey + k * (c.run history).increment) % 256 ^ size := by
      intro k
      rw [Chain.run_steps]
      simp only
      split
      · rename_i h0
        rw [h0, Nat.zero_mul, Nat.add_zero, Nat.mod_eq_of_lt hin]
      · rw [domain, two_pow_eight, e]
    rw [happ, happ, key n, key m] at h
    exact odd_mul_inj hr.odd hn hm h

end Aiootp.Perm
