import Verif.Model.Perm
import Verif.Lemmas.Py
import Mathlib.Logic.Function.Iterate
import Mathlib.Data.Fintype.Pigeonhole
import Mathlib.Data.Fintype.Card
import Mathlib.Tactic.Ring
import Mathlib.Data.Nat.Prime.Basic
import Mathlib.Data.Int.ModEq

namespace Aiootp.Perm

/-! ### modular inverse -/

theorem euclid_invariant (m p : Nat) (fuel r r' : Nat) (s s' : Int)
    (h : (p : Int) ∣ r - s * m) (h' : (p : Int) ∣ r' - s' * m) :
    (p : Int) ∣ (euclid fuel r r' s s').1 - (euclid fuel r r' s s').2 * m := by
  induction fuel generalizing r r' s s' with
  | zero => exact h
  | succ n ih =>
    rw [euclid]
    split
    · exact h
    · apply ih _ _ _ _ h'
      have e : ((r % r' : Nat) : Int) = r - r' * (r / r') := by
        have := Int.emod_add_mul_ediv (r : Int) (r' : Int)
        push_cast
        omega
      have : ((r % r' : Nat) : Int) - (s - (r / r') * s') * m
          = (r - s * m) - (r / r') * (r' - s' * m) := by
        rw [e]; ring
      rw [this]
      exact Int.dvd_sub h (Dvd.dvd.mul_left h' _)

theorem euclid_gcd (fuel r r' : Nat) (s s' : Int) (h : r' < fuel) :
    (euclid fuel r r' s s').1 = Nat.gcd r r' := by
  induction fuel generalizing r r' s s' with
  | zero => omega
  | succ n ih =>
    rw [euclid]
    split
    · rename_i h0; subst h0; simp
    · rename_i h0
      rw [ih _ _ _ _ (by have := Nat.mod_lt r (Nat.pos_of_ne_zero h0); omega)]
      rw [Nat.gcd_comm r r', Nat.gcd_rec r' r, Nat.gcd_comm]

theorem powInv_ok_iff (m p : Nat) : (∃ inv, powInv m p = .ok inv) ↔ Nat.gcd m p = 1 := by
  simp only [powInv]
  rw [euclid_gcd _ _ _ _ _ (Nat.lt_succ_self p)]
  split <;> simp_all

theorem powInv_spec {m p inv : Nat} (hp : 1 < p) (h : powInv m p = .ok inv) :
    inv < p ∧ (m * inv) % p = 1 := by
  simp only [powInv] at h
  split at h
  · rename_i hd
    have hinv := euclid_invariant m p (p + 1) m p 1 0 (by simp) (by simp)
    rw [hd] at hinv
    set s := (euclid (p + 1) m p 1 0).2 with hs
    have hpos : (0 : Int) < p := by omega
    have h0 := Int.emod_nonneg s (show (p : Int) ≠ 0 by omega)
    have h1 := Int.emod_lt_of_pos s hpos
    have he := Except.ok.inj h
    have hcast : (inv : Int) = s % p := by rw [← he]; omega
    refine ⟨by omega, ?_⟩
    have hmod : ((m * inv : Nat) : Int) % p = 1 := by
      push_cast
      rw [hcast, Int.mul_emod, Int.emod_emod, ← Int.mul_emod]
      have : ((m : Int) * s) % p = 1 % p := by
        apply Int.emod_eq_emod_iff_emod_sub_eq_zero.2
        apply Int.emod_eq_zero_of_dvd
        have : (m : Int) * s - 1 = -(((1 : Nat) : Int) - s * m) := by push_cast; ring
        rw [this]
        exact (Int.dvd_neg).2 hinv
      rw [this]
      exact Int.emod_eq_of_lt (by omega) (by omega)
    omega
  · cases h

/-! ### cycle walking -/

theorem walk_eq_some {f : Nat → Nat} {max fuel v w : Nat} :
    walk f max fuel v = some w ↔
      ∃ k ≤ fuel, w = f^[k] v ∧ w ≤ max ∧ ∀ j < k, f^[j] v > max := by
  induction fuel generalizing v with
  | zero =>
    rw [walk]
    split
    · simp only [reduceCtorEq, false_iff]
      rintro ⟨k, hk, rfl, hw, -⟩
      obtain rfl : k = 0 := by omega
      simp at hw
      omega
    · constructor
      · intro h; cases h
        exact ⟨0, by omega, rfl, by omega, by omega⟩
      · rintro ⟨k, hk, rfl, -, -⟩
        obtain rfl : k = 0 := by omega
        rfl
  | succ n ih =>
    rw [walk]
    split
    · rename_i hgt
      rw [ih]
      constructor
      · rintro ⟨k, hk, rfl, hw, hj⟩
        refine ⟨k + 1, by omega, rfl, hw, ?_⟩
        intro j hjk
        cases j with
        | zero => exact hgt
        | succ j => exact hj j (by omega)
      · rintro ⟨k, hk, rfl, hw, hj⟩
        cases k with
        | zero => simp at hw; omega
        | succ k =>
          exact ⟨k, by omega, rfl, hw, fun j hjk => hj (j + 1) (by omega)⟩
    · rename_i hle
      constructor
      · intro h; cases h
        exact ⟨0, by omega, rfl, by omega, by omega⟩
      · rintro ⟨k, hk, rfl, hw, hj⟩
        cases k with
        | zero => rfl
        | succ k =>
          have := hj 0 (by omega)
          simp at this
          omega

/-- `f` and `g` are mutually inverse on the numbers below `P`. -/
structure Inverse (f g : Nat → Nat) (P : Nat) : Prop where
  f_lt : ∀ x < P, f x < P
  g_lt : ∀ x < P, g x < P
  gf : ∀ x < P, g (f x) = x
  fg : ∀ x < P, f (g x) = x

theorem Inverse.symm {f g P} (h : Inverse f g P) : Inverse g f P := ⟨h.g_lt, h.f_lt, h.fg, h.gf⟩

theorem Inverse.iterate_lt {f g P} (h : Inverse f g P) {v : Nat} (hv : v < P) (n : Nat) : f^[n] v < P := by
  induction n with
  | zero => exact hv
  | succ n ih => rw [Function.iterate_succ_apply']; exact h.f_lt _ ih

theorem Inverse.iterate_cancel {f g P} (h : Inverse f g P) {v : Nat} (hv : v < P) {i n : Nat} (hi : i ≤ n) :
    g^[i] (f^[n] v) = f^[n - i] v := by
  induction i with
  | zero => rfl
  | succ i ih =>
    rw [Function.iterate_succ_apply', ih (by omega)]
    have : n - i = (n - (i + 1)) + 1 := by omega
    rw [this, Function.iterate_succ_apply']
    exact h.gf _ (h.iterate_lt hv _)

/-- Every orbit comes back within `P` steps. -/
theorem Inverse.period {f g P} (h : Inverse f g P) {v : Nat} (hv : v < P) :
    ∃ t, 1 ≤ t ∧ t ≤ P ∧ f^[t] v = v := by
  obtain ⟨i, j, hij, he⟩ := Fintype.exists_ne_map_eq_of_card_lt
    (fun i : Fin (P + 1) => (⟨f^[i.1] v, h.iterate_lt hv _⟩ : Fin P)) (by simp)
  simp only [Fin.mk.injEq] at he
  have key : ∀ a b : Nat, a < b → b ≤ P → f^[a] v = f^[b] v → ∃ t, 1 ≤ t ∧ t ≤ P ∧ f^[t] v = v := by
    intro a b hab hb heq
    refine ⟨b - a, by omega, by omega, ?_⟩
    rw [← h.iterate_cancel hv (Nat.le_of_lt hab), ← heq, h.iterate_cancel hv (Nat.le_refl a)]
    simp
  have hne : i.1 ≠ j.1 := fun e => hij (Fin.ext e)
  rcases Nat.lt_or_gt_of_ne hne with hlt | hlt
  · exact key _ _ hlt (by omega) he
  · exact key _ _ hlt (by omega) he.symm

theorem walk_total {f g P max v} (h : Inverse f g P) (hmax : max < P) (hv : v ≤ max) :
    ∃ w, walk f max P (f v) = some w := by
  obtain ⟨t, ht1, htP, ht⟩ := h.period (v := v) (by omega)
  have hex : ∃ n, f^[n] (f v) ≤ max := ⟨t - 1, by
    rw [← Function.iterate_succ_apply, show (t - 1).succ = t by omega, ht]; exact hv⟩
  classical
  refine ⟨f^[Nat.find hex] (f v), walk_eq_some.2 ⟨Nat.find hex, ?_, rfl, Nat.find_spec hex, ?_⟩⟩
  · have : Nat.find hex ≤ t - 1 := Nat.find_min' hex (by
      rw [← Function.iterate_succ_apply, show (t - 1).succ = t by omega, ht]; exact hv)
    omega
  · intro j hj
    have := Nat.find_min hex hj
    omega

theorem walk_inverse {f g P max v w} (h : Inverse f g P) (hmax : max < P) (hv : v ≤ max)
    (hw : walk f max P (f v) = some w) : w ≤ max ∧ walk g max P (g w) = some v := by
  obtain ⟨k, hk, rfl, hle, hj⟩ := walk_eq_some.1 hw
  have hvP : v < P := by omega
  refine ⟨hle, walk_eq_some.2 ⟨k, hk, ?_, hv, ?_⟩⟩
  · rw [← Function.iterate_succ_apply, ← Function.iterate_succ_apply,
      h.iterate_cancel hvP (Nat.le_refl _)]
    simp
  · intro j hjk
    rw [← Function.iterate_succ_apply, ← Function.iterate_succ_apply, h.iterate_cancel hvP (by omega)]
    have := hj (k - j - 1) (by omega)
    rw [← Function.iterate_succ_apply] at this
    rw [show k.succ - j.succ = (k - j - 1).succ by omega]
    exact this

/-- If `P` iterations do not leave the loop, it never ends: `none` is exactly non-termination. -/
theorem walk_none_diverges {f g P max v} (h : Inverse f g P) (hv : v < P)
    (hn : walk f max P v = none) (n : Nat) : f^[n] v > max := by
  by_contra hcon
  have hex : ∃ n, f^[n] v ≤ max := ⟨n, by omega⟩
  classical
  have hmin : ∀ j < Nat.find hex, f^[j] v > max := fun j hj => by
    have := Nat.find_min hex hj; omega
  have hle : Nat.find hex ≤ P := by
    by_contra hgt
    obtain ⟨t, ht1, htP, ht⟩ := h.period hv
    have := hmin (Nat.find hex - t) (by omega)
    have hs := Nat.find_spec hex
    have : f^[Nat.find hex] v = f^[Nat.find hex - t] v := by
      conv_lhs => rw [show Nat.find hex = (Nat.find hex - t) + t by omega]
      rw [Function.iterate_add_apply, ht]
    omega
  have : walk f max P v = some (f^[Nat.find hex] v) :=
    walk_eq_some.2 ⟨_, hle, rfl, Nat.find_spec hex, hmin⟩
  rw [this] at hn
  cases hn

/-! ### affine permutations -/

/-- The facts that construction guarantees. -/
structure AffineConfig.WF (c : AffineConfig) : Prop where
  max_eq : c.max + 1 = 256 ^ c.size
  max_lt : c.max < c.prime
  prime_gt : 1 < c.prime
  inv : (c.multiplicativeKey * c.inverseKey) % c.prime = 1

theorem two_pow_eight (s : Nat) : 2 ^ (8 * s) = 256 ^ s := by
  rw [Nat.pow_mul]

theorem primeOf_gt {s p : Nat} (h : primeOf s = .ok p) : 2 ^ (8 * s) < p ∧ p < 2 ^ (8 * s + 1) := by
  have hall : ∀ r ∈ primeOffsets, 0 < r.2 ∧ r.2 < 2 ^ (8 * r.1) := by decide +kernel
  unfold primeOf at h
  split at h
  · rename_i r hr
    cases h
    have := hall r (List.mem_of_find?_eq_some hr)
    have heq : r.1 = s := by simpa using List.find?_some hr
    rw [heq] at this
    rw [Nat.pow_succ]
    omega
  · cases h

theorem AffineConfig.new_wf {size hash : Nat} {c : AffineConfig} (h : AffineConfig.new size hash = .ok c) :
    c.WF ∧ c.size = size ∧ 0 < size := by
  unfold AffineConfig.new at h
  split at h
  · rename_i hs
    simp only [bind_eq_ok] at h
    obtain ⟨p, hp, inv, hinv, he⟩ := h
    cases he
    have hpg := (primeOf_gt hp).1
    have h1 : 1 ≤ 2 ^ (8 * size) := Nat.one_le_two_pow
    have h2 : 1 < p := by omega
    refine ⟨⟨?_, ?_, h2, (powInv_spec h2 hinv).2⟩, rfl, hs.2⟩
    · simp only; rw [← two_pow_eight]; omega
    · simp only; omega
  · cases h

theorem Affine.inverse (a : Affine) (hc : a.config.WF) : Inverse a.forward a.backward a.config.prime := by
  have hpos : 0 < a.config.prime := by have := hc.prime_gt; omega
  have hpos' : (0 : Int) < a.config.prime := by omega
  have hbl : ∀ x, a.backward x < a.config.prime := by
    intro x
    unfold Affine.backward
    have h0 := Int.emod_nonneg ((a.config.inverseKey : Int) * ((x : Int) - a.additiveKey))
      (show (a.config.prime : Int) ≠ 0 by omega)
    have h1 := Int.emod_lt_of_pos ((a.config.inverseKey : Int) * ((x : Int) - a.additiveKey)) hpos'
    omega
  have hbc : ∀ x : Nat, ((a.backward x : Nat) : Int)
      = ((a.config.inverseKey : Int) * ((x : Int) - a.additiveKey)) % a.config.prime := by
    intro x
    unfold Affine.backward
    have h0 := Int.emod_nonneg ((a.config.inverseKey : Int) * ((x : Int) - a.additiveKey))
      (show (a.config.prime : Int) ≠ 0 by omega)
    omega
  have hfc : ∀ x : Nat, ((a.forward x : Nat) : Int)
      = ((a.config.multiplicativeKey : Int) * x + a.additiveKey) % a.config.prime := by
    intro x
    unfold Affine.forward
    push_cast
    rfl
  have hinv : ((a.config.multiplicativeKey : Int) * a.config.inverseKey) ≡ 1 [ZMOD a.config.prime] := by
    have := hc.inv
    have h1 : (((a.config.multiplicativeKey * a.config.inverseKey) % a.config.prime : Nat) : Int) = 1 := by
      rw [this]; rfl
    push_cast at h1
    show _ % _ = _ % _
    rw [h1, Int.emod_eq_of_lt (by omega) (by have := hc.prime_gt; omega)]
  refine ⟨fun x _ => Nat.mod_lt _ hpos, fun x _ => hbl x, ?_, ?_⟩
  · intro x hx
    have : ((a.backward (a.forward x) : Nat) : Int) ≡ x [ZMOD a.config.prime] := by
      rw [hbc]
      refine (Int.mod_modEq _ _).trans ?_
      have hf : ((a.forward x : Nat) : Int) ≡ a.config.multiplicativeKey * x + a.additiveKey
          [ZMOD a.config.prime] := by
        rw [hfc]; exact Int.mod_modEq _ _
      have h1 : (a.config.inverseKey : Int) * ((a.forward x : Nat) - a.additiveKey)
          ≡ a.config.inverseKey * ((a.config.multiplicativeKey * x + a.additiveKey) - a.additiveKey)
          [ZMOD a.config.prime] := (hf.sub_right _).mul_left _
      refine h1.trans ?_
      have h2 : (a.config.inverseKey : Int) * ((a.config.multiplicativeKey * x + a.additiveKey) - a.additiveKey)
          = (a.config.multiplicativeKey * a.config.inverseKey) * x := by ring
      rw [h2]
      simpa using hinv.mul_right (x : Int)
    have hb := hbl (a.forward x)
    unfold Int.ModEq at this
    rw [Int.emod_eq_of_lt (by omega) (by omega), Int.emod_eq_of_lt (by omega) (by omega)] at this
    omega
  · intro x hx
    have : ((a.forward (a.backward x) : Nat) : Int) ≡ x [ZMOD a.config.prime] := by
      rw [hfc]
      refine (Int.mod_modEq _ _).trans ?_
      have hb : ((a.backward x : Nat) : Int) ≡ a.config.inverseKey * ((x : Int) - a.additiveKey)
          [ZMOD a.config.prime] := by
        rw [hbc]; exact Int.mod_modEq _ _
      have h1 : (a.config.multiplicativeKey : Int) * (a.backward x : Nat) + a.additiveKey
          ≡ a.config.multiplicativeKey * (a.config.inverseKey * ((x : Int) - a.additiveKey)) + a.additiveKey
          [ZMOD a.config.prime] := (hb.mul_left _).add_right _
      refine h1.trans ?_
      have h2 : (a.config.multiplicativeKey : Int) * (a.config.inverseKey * ((x : Int) - a.additiveKey))
          + a.additiveKey
          = (a.config.multiplicativeKey * a.config.inverseKey) * ((x : Int) - a.additiveKey)
          + a.additiveKey := by ring
      rw [h2]
      have h3 := (hinv.mul_right ((x : Int) - a.additiveKey)).add_right (a.additiveKey : Int)
      simpa using h3
    have hf : a.forward (a.backward x) < a.config.prime := Nat.mod_lt _ hpos
    unfold Int.ModEq at this
    rw [Int.emod_eq_of_lt (by omega) (by omega), Int.emod_eq_of_lt (by omega) (by omega)] at this
    omega

/-- A permutation object over a well-formed configuration of the given size. -/
structure Affine.WF (a : Affine) (size : Nat) : Prop where
  config : a.config.WF
  size : a.config.size = size

theorem Affine.permute_total {a : Affine} {size x : Nat} (h : a.WF size) (hx : x < 256 ^ size) :
    ∃ y, y < 256 ^ size ∧ a.permute x = some y ∧ a.invert y = some x := by
  have hm := h.config.max_eq
  rw [h.size] at hm
  obtain ⟨y, hy⟩ := walk_total (v := x) (a.inverse h.config) h.config.max_lt (by omega)
  obtain ⟨h1, h2⟩ := walk_inverse (a.inverse h.config) h.config.max_lt (by omega) hy
  exact ⟨y, by omega, hy, h2⟩

theorem Affine.invert_total {a : Affine} {size y : Nat} (h : a.WF size) (hy : y < 256 ^ size) :
    ∃ x, x < 256 ^ size ∧ a.invert y = some x ∧ a.permute x = some y := by
  have hm := h.config.max_eq
  rw [h.size] at hm
  obtain ⟨x, hx⟩ := walk_total (v := y) (a.inverse h.config).symm h.config.max_lt (by omega)
  obtain ⟨h1, h2⟩ := walk_inverse (a.inverse h.config).symm h.config.max_lt (by omega) hx
  exact ⟨x, by omega, hx, h2⟩

/-! ### xor -/

theorem xor_lt {a b s : Nat} (ha : a < 256 ^ s) (hb : b < 256 ^ s) : a ^^^ b < 256 ^ s := by
  rw [← two_pow_eight] at *
  exact Nat.xor_lt_two_pow ha hb

theorem xor_cancel (a k : Nat) : (a ^^^ k) ^^^ k = a := by
  rw [Nat.xor_assoc, Nat.xor_self, Nat.xor_zero]

theorem repeatByte_lt (b : UInt8) (s : Nat) : repeatByte b s < 256 ^ s := by
  have := fromBE_lt (List.replicate s b)
  simpa [repeatByte] using this

/-! ### chains -/

structure Chain.WF (c : Chain) : Prop where
  affIn : c.affIn.WF c.size
  affMid : c.affMid.WF c.size
  affOut : c.affOut.WF c.size
  inKey : c.inKey < 256 ^ c.size
  inMid : c.inMidKey < 256 ^ c.size
  outMid : c.outMidKey < 256 ^ c.size
  outKey : c.outKey < 256 ^ c.size
  odd : c.increment % 2 = 1

theorem Affine.new_wf {config : AffineConfig} {key : Bytes} {a : Affine} (hc : config.WF)
    (h : Affine.new config key = .ok a) : a.WF config.size := by
  unfold Affine.new at h
  split at h
  · cases h; exact ⟨hc, rfl⟩
  · cases h

theorem fromBE_take_lt (key : Bytes) (s : Nat) : fromBE (key.take s) < 256 ^ s := by
  have h := fromBE_lt (key.take s)
  refine Nat.lt_of_lt_of_le h (Nat.pow_le_pow_right (by omega) ?_)
  simp

theorem repeatByte_odd {s : Nat} (hs : 0 < s) : repeatByte 0x8d s % 2 = 1 := by
  unfold repeatByte fromBE
  rw [List.reverse_replicate]
  obtain ⟨n, rfl⟩ : ∃ n, s = n + 1 := ⟨s - 1, by omega⟩
  rw [List.replicate_succ, fromLE]
  have : (0x8d : UInt8).toNat = 141 := by decide
  omega

theorem Chain.new_wf {fast : Bool} {config : AffineConfig} {key : Bytes} {c : Chain} (hc : config.WF)
    (hs : 0 < config.size) (h : Chain.new fast config key = .ok c) : c.WF ∧ c.size = config.size := by
  have key : ∃ (aIn aMid aOut : Affine) (k1 k2 k3 : Bytes),
      aIn.WF config.size ∧ aMid.WF config.size ∧ aOut.WF config.size ∧
      c = { size := config.size, affIn := aIn, affMid := aMid, affOut := aOut
            inKey := fromBE (k1.take config.size)
            inMidKey := fromBE (k2.take config.size) ^^^ repeatByte 0xa3 config.size
            outMidKey := fromBE (k2.take config.size) ^^^ repeatByte 0x1b config.size
            outKey := fromBE (k3.take config.size)
            increment := repeatByte 0x8d config.size } := by
    cases fast with
    | true =>
      simp only [Chain.new, if_true] at h
      split at h
      · simp only [bind_eq_ok] at h
        obtain ⟨aIn, hIn, aMid, hMid, aOut, hOut, he⟩ := h
        cases hMid; cases hOut; cases he
        exact ⟨_, _, _, _, _, _, Affine.new_wf hc hIn, Affine.new_wf hc hIn, Affine.new_wf hc hIn, rfl⟩
      · cases h
    | false =>
      simp only [Chain.new, Bool.false_eq_true, if_false] at h
      split at h
      · simp only [bind_eq_ok] at h
        obtain ⟨aIn, hIn, aMid, hMid, aOut, hOut, he⟩ := h
        cases he
        exact ⟨_, _, _, _, _, _, Affine.new_wf hc hIn, Affine.new_wf hc hMid, Affine.new_wf hc hOut, rfl⟩
      · cases h
  obtain ⟨aIn, aMid, aOut, k1, k2, k3, h1, h2, h3, rfl⟩ := key
  refine ⟨⟨h1, h2, h3, fromBE_take_lt _ _, ?_, ?_, fromBE_take_lt _ _, repeatByte_odd hs⟩, rfl⟩
  · exact xor_lt (fromBE_take_lt _ _) (repeatByte_lt _ _)
  · exact xor_lt (fromBE_take_lt _ _) (repeatByte_lt _ _)

theorem lor_one_odd (n : Nat) : (n ||| 1) % 2 = 1 := by
  have h : (n ||| 1).testBit 0 = true := by rw [Nat.testBit_or]; simp
  rw [Nat.testBit_zero] at h
  simpa using h

theorem Chain.apply_wf {c : Chain} (h : c.WF) (call : ChainCall) :
    (c.apply call).WF ∧ (c.apply call).size = c.size := by
  cases call with
  | step =>
    refine ⟨⟨h.affIn, h.affMid, h.affOut, ?_, h.inMid, h.outMid, h.outKey, h.odd⟩, rfl⟩
    show (c.inKey + c.increment) % domain c.size < 256 ^ c.size
    rw [domain, two_pow_eight]
    exact Nat.mod_lt _ (Nat.pow_pos (by omega))
  | update v =>
    simp only [Chain.apply]
    unfold Chain.updateIncrement
    by_cases hv : (domain c.size : Int) > v ∧ v > 0
    · rw [if_pos hv]
      exact ⟨⟨h.affIn, h.affMid, h.affOut, h.inKey, h.inMid, h.outMid, h.outKey, lor_one_odd _⟩, rfl⟩
    · rw [if_neg hv]
      exact ⟨h, rfl⟩

theorem Chain.run_wf {c : Chain} (h : c.WF) (calls : List ChainCall) :
    (c.run calls).WF ∧ (c.run calls).size = c.size := by
  induction calls generalizing c with
  | nil => exact ⟨h, rfl⟩
  | cons call rest ih =>
    have h1 := Chain.apply_wf h call
    have h2 := ih h1.1
    exact ⟨h2.1, h2.2.trans h1.2⟩

theorem Chain.uncapped_total {c : Chain} (h : c.WF) {x : Nat} (hx : x < 256 ^ c.size) :
    ∃ y, y < 256 ^ c.size ∧ c.uncappedPermute x = some y ∧ c.uncappedInvert y = some x := by
  obtain ⟨y1, hy1, e1, i1⟩ := Affine.permute_total h.affIn hx
  obtain ⟨y2, hy2, e2, i2⟩ := Affine.permute_total h.affMid (xor_lt hy1 h.inMid)
  obtain ⟨y3, hy3, e3, i3⟩ := Affine.permute_total h.affOut (xor_lt hy2 h.outMid)
  refine ⟨y3, hy3, ?_, ?_⟩
  · simp [Chain.uncappedPermute, e1, e2, e3]
  · simp [Chain.uncappedInvert, i3, xor_cancel, i2, i1]

theorem Chain.uncapped_onto {c : Chain} (h : c.WF) {y : Nat} (hy : y < 256 ^ c.size) :
    ∃ x, x < 256 ^ c.size ∧ c.uncappedInvert y = some x ∧ c.uncappedPermute x = some y := by
  obtain ⟨y1, hy1, e1, i1⟩ := Affine.invert_total h.affOut hy
  obtain ⟨y2, hy2, e2, i2⟩ := Affine.invert_total h.affMid (xor_lt hy1 h.outMid)
  obtain ⟨y3, hy3, e3, i3⟩ := Affine.invert_total h.affIn (xor_lt hy2 h.inMid)
  refine ⟨y3, hy3, ?_, ?_⟩
  · simp [Chain.uncappedInvert, e1, e2, e3]
  · simp [Chain.uncappedPermute, i3, xor_cancel, i2, i1]

theorem Chain.permute_eq (c : Chain) (x : Nat) :
    c.permute x = (c.uncappedPermute (x ^^^ c.inKey)).map (· ^^^ c.outKey) := by
  simp only [Chain.permute, Chain.uncappedPermute]
  cases c.affIn.permute (x ^^^ c.inKey) with
  | none => rfl
  | some a =>
    cases hb : c.affMid.permute (a ^^^ c.inMidKey) with
    | none => simp [hb]
    | some b =>
      cases hd : c.affOut.permute (b ^^^ c.outMidKey) with
      | none => simp [hb, hd]
      | some d => simp [hb, hd]

theorem Chain.invert_eq (c : Chain) (y : Nat) :
    c.invert y = (c.uncappedInvert (y ^^^ c.outKey)).map (· ^^^ c.inKey) := by
  simp only [Chain.invert, Chain.uncappedInvert]
  cases c.affOut.invert (y ^^^ c.outKey) with
  | none => rfl
  | some a =>
    cases hb : c.affMid.invert (a ^^^ c.outMidKey) with
    | none => simp [hb]
    | some b =>
      cases hd : c.affIn.invert (b ^^^ c.inMidKey) with
      | none => simp [hb, hd]
      | some d => simp [hb, hd]

theorem Chain.permute_total {c : Chain} (h : c.WF) {x : Nat} (hx : x < 256 ^ c.size) :
    ∃ y, y < 256 ^ c.size ∧ c.permute x = some y ∧ c.invert y = some x := by
  obtain ⟨y, hy, e, i⟩ := Chain.uncapped_total h (xor_lt hx h.inKey)
  refine ⟨y ^^^ c.outKey, xor_lt hy h.outKey, ?_, ?_⟩
  · simp [Chain.permute_eq, e]
  · simp [Chain.invert_eq, xor_cancel, i]

theorem Chain.invert_total {c : Chain} (h : c.WF) {y : Nat} (hy : y < 256 ^ c.size) :
    ∃ x, x < 256 ^ c.size ∧ c.invert y = some x ∧ c.permute x = some y := by
  obtain ⟨x, hx, e, i⟩ := Chain.uncapped_onto h (xor_lt hy h.outKey)
  refine ⟨x ^^^ c.inKey, xor_lt hx h.inKey, ?_, ?_⟩
  · simp [Chain.invert_eq, e]
  · simp [Chain.permute_eq, xor_cancel, i]

theorem Chain.run_steps (c : Chain) (n : Nat) :
    c.run (List.replicate n .step)
      = { c with inKey := if n = 0 then c.inKey else (c.inKey + n * c.increment) % domain c.size } := by
  induction n generalizing c with
  | zero => rfl
  | succ n ih =>
    rw [List.replicate_succ]
    show (c.apply .step).run (List.replicate n .step) = _
    rw [ih]
    simp only [Chain.apply, Chain.step]
    by_cases hn : n = 0
    · subst hn; simp
    · simp only [hn, if_false, Nat.add_one_ne_zero]
      congr 1
      rw [Nat.mod_add_mod]
      congr 1
      ring

end Aiootp.Perm
