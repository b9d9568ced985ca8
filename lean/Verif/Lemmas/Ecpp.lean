import Mathlib.AlgebraicGeometry.EllipticCurve.Affine.Point
import Mathlib.Data.ZMod.Basic
import Mathlib.Algebra.Field.ZMod
import Mathlib.GroupTheory.OrderOfElement
import Mathlib.Data.Nat.Prime.Basic

/-
Primality proofs with elliptic curves: `N` is a prime if a point of a curve modulo `N` has a prime order that is large enough.
No bound on the number of points is needed but that each of its coordinates belongs to at most two points.
-/

namespace Aiootp.Primes

open WeierstrassCurve

section Curve
variable {F : Type} [Field F] [DecidableEq F]

/-- The curve `y² = x³ + a x + b`. -/
abbrev curve (a b : F) : WeierstrassCurve.Affine F := ⟨0, 0, 0, a, b⟩

/-- `P` has the coordinates `X / Z²` and `Y / Z³`. -/
def Rep {a b : F} (P : (curve a b).Point) (X Y Z : F) : Prop :=
  Z ≠ 0 ∧ ∃ h, P = .some (X / Z ^ 2) (Y / Z ^ 3) h

theorem Rep.congr {a b : F} {P : (curve a b).Point} {x y X Y Z : F} (h : ∃ h, P = .some x y h) (hZ : Z ≠ 0) (hx : x = X / Z ^ 2) (hy : y = Y / Z ^ 3) :
    Rep P X Y Z := by
  subst hx hy
  exact ⟨hZ, h⟩

theorem Rep.double {a b : F} {P : (curve a b).Point} {X Y Z : F} (h : Rep P X Y Z) (h2 : 2 * Y * Z ≠ 0) :
    Rep (P + P) ((3 * X ^ 2 + a * Z ^ 4) ^ 2 - 2 * (4 * X * Y ^ 2))
      ((3 * X ^ 2 + a * Z ^ 4) * (4 * X * Y ^ 2 - ((3 * X ^ 2 + a * Z ^ 4) ^ 2 - 2 * (4 * X * Y ^ 2))) - 8 * Y ^ 4) (2 * Y * Z) := by
  obtain ⟨hZ, hn, rfl⟩ := h
  have h20 : (2 : F) ≠ 0 := fun h => h2 (by rw [h]; ring)
  have hY : Y ≠ 0 := fun h => h2 (by rw [h]; ring)
  have hne : Y / Z ^ 3 ≠ (curve a b).negY (X / Z ^ 2) (Y / Z ^ 3) := by
    intro e
    simp only [Affine.negY, zero_mul, sub_zero] at e
    have : 2 * (Y / Z ^ 3) = 0 := by linear_combination e
    rcases mul_eq_zero.1 this with h | h
    · exact h20 h
    · rcases div_eq_zero_iff.1 h with h | h
      · exact hY h
      · exact hZ (pow_eq_zero_iff (by decide) |>.1 h)
  have hs : (curve a b).slope (X / Z ^ 2) (X / Z ^ 2) (Y / Z ^ 3) (Y / Z ^ 3) = (3 * X ^ 2 + a * Z ^ 4) / (2 * Y * Z) := by
    have hd : Y / Z ^ 3 - (curve a b).negY (X / Z ^ 2) (Y / Z ^ 3) ≠ 0 := sub_ne_zero.2 hne
    rw [Affine.slope_of_Y_ne rfl hne, div_eq_div_iff hd h2]
    simp only [Affine.negY, zero_mul, mul_zero, sub_zero, add_zero]
    field_simp
    ring
  have hx : X / Z ^ 2 = 4 * X * Y ^ 2 / (2 * Y * Z) ^ 2 := by
    rw [div_eq_div_iff (pow_ne_zero _ hZ) (pow_ne_zero _ h2)]; ring
  have hy : Y / Z ^ 3 = 8 * Y ^ 4 / (2 * Y * Z) ^ 3 := by
    rw [div_eq_div_iff (pow_ne_zero _ hZ) (pow_ne_zero _ h2)]; ring
  refine Rep.congr ⟨_, Affine.Point.add_self_of_Y_ne hne⟩ h2 ?_ ?_
  · rw [hs, hx]
    simp only [Affine.addX, zero_mul, sub_zero, add_zero]
    generalize 2 * Y * Z = z at h2
    field_simp
    ring
  · rw [hs, hx, hy]
    simp only [Affine.addY, Affine.negAddY, Affine.addX, Affine.negY, zero_mul, sub_zero, add_zero]
    generalize 2 * Y * Z = z at h2
    field_simp
    ring

theorem Rep.add {a b x y : F} {P Q : (curve a b).Point} {X Y Z : F} (h : Rep P X Y Z) (hQ : ∃ h, Q = .some x y h) (h2 : Z * (x * Z ^ 2 - X) ≠ 0) :
    Rep (P + Q) ((y * Z ^ 3 - Y) ^ 2 - (x * Z ^ 2 - X) ^ 3 - 2 * (X * (x * Z ^ 2 - X) ^ 2))
      ((y * Z ^ 3 - Y) * (X * (x * Z ^ 2 - X) ^ 2 - ((y * Z ^ 3 - Y) ^ 2 - (x * Z ^ 2 - X) ^ 3 - 2 * (X * (x * Z ^ 2 - X) ^ 2))) - Y * (x * Z ^ 2 - X) ^ 3)
      (Z * (x * Z ^ 2 - X)) := by
  obtain ⟨hZ, hn, rfl⟩ := h
  obtain ⟨hq, rfl⟩ := hQ
  have hH : x * Z ^ 2 - X ≠ 0 := fun h => h2 (by rw [h]; ring)
  have hne : X / Z ^ 2 ≠ x := by
    intro e
    apply hH
    rw [← e]
    field_simp
    ring
  have hd : X / Z ^ 2 - x ≠ 0 := sub_ne_zero.2 hne
  have hs : (Y / Z ^ 3 - y) / (X / Z ^ 2 - x) = (y * Z ^ 3 - Y) / (Z * (x * Z ^ 2 - X)) := by
    rw [div_eq_div_iff hd h2]
    field_simp
    ring
  have hx1 : X / Z ^ 2 = X * (x * Z ^ 2 - X) ^ 2 / (Z * (x * Z ^ 2 - X)) ^ 2 := by
    rw [div_eq_div_iff (pow_ne_zero _ hZ) (pow_ne_zero _ h2)]; ring
  have hx2 : x = (X + (x * Z ^ 2 - X)) * (x * Z ^ 2 - X) ^ 2 / (Z * (x * Z ^ 2 - X)) ^ 2 := by
    rw [eq_div_iff (pow_ne_zero _ h2)]; ring
  have hy1 : Y / Z ^ 3 = Y * (x * Z ^ 2 - X) ^ 3 / (Z * (x * Z ^ 2 - X)) ^ 3 := by
    rw [div_eq_div_iff (pow_ne_zero _ hZ) (pow_ne_zero _ h2)]; ring
  refine Rep.congr ⟨_, Affine.Point.add_of_X_ne hne⟩ h2 ?_ ?_
  · rw [Affine.slope_of_X_ne hne, hs, hx1]
    simp only [Affine.addX, zero_mul, sub_zero, add_zero]
    generalize Z * (x * Z ^ 2 - X) = z at h2 hx2
    generalize x * Z ^ 2 - X = H at hx2
    rw [hx2]
    field_simp
    ring
  · rw [Affine.slope_of_X_ne hne, hs, hx1, hy1]
    simp only [Affine.addY, Affine.negAddY, Affine.addX, Affine.negY, zero_mul, sub_zero, add_zero]
    generalize Z * (x * Z ^ 2 - X) = z at h2 hx2
    generalize x * Z ^ 2 - X = H at hx2
    rw [hx2]
    field_simp
    ring

end Curve

/-! ### Computing with numbers -/

/-- Makes the kernel compute `n` before it goes on. -/
def force {α : Type} (n : Nat) (k : Nat → α) : α :=
  match n with
  | 0 => k 0
  | m + 1 => k (m + 1)

theorem force_eq {α : Type} (n : Nat) (k : Nat → α) : force n k = k n := by cases n <;> rfl

/-- `s - t` modulo `N`. -/
def subMod (N s t : Nat) : Nat := (s + (N - t % N)) % N

/-- Doubling of a point. -/
def ecDouble {α : Type} (N a X Y Z : Nat) (k : Nat → Nat → Nat → α) : α :=
  force (Y * Y % N) fun YY =>
  force (Z * Z % N) fun ZZ =>
  force (4 * X * YY % N) fun S =>
  force ((3 * (X * X) + a * (ZZ * ZZ % N)) % N) fun M =>
  force (subMod N (M * M) (2 * S)) fun X' =>
  force (subMod N (M * (S + (N - X' % N))) (8 * (YY * YY))) fun Y' =>
  force (2 * Y * Z % N) fun Z' =>
  k X' Y' Z'

/-- Addition of the point with the coordinates `x` and `y`. -/
def ecAdd {α : Type} (N x y X Y Z : Nat) (k : Nat → Nat → Nat → α) : α :=
  force (Z * Z % N) fun ZZ =>
  force (subMod N (x * ZZ) X) fun H =>
  force (subMod N (y * (Z * ZZ % N)) Y) fun R =>
  force (H * H % N) fun HH =>
  force (H * HH % N) fun HHH =>
  force (X * HH % N) fun V =>
  force (subMod N (R * R) (HHH + 2 * V)) fun X' =>
  force (subMod N (R * (V + (N - X' % N))) (Y * HHH)) fun Y' =>
  force (Z * H % N) fun Z' =>
  k X' Y' Z'

/-- Double and add, for the lowest `i` bits of `e`. -/
def ecMul {α : Type} (N a x y e : Nat) (k : Nat → Nat → Nat → α) : (i : Nat) → (X Y Z : Nat) → α
  | 0, X, Y, Z => k X Y Z
  | i + 1, X, Y, Z =>
    ecDouble N a X Y Z fun X Y Z =>
      match (e / 2 ^ i) % 2 with
      | 0 => ecMul N a x y e k i X Y Z
      | _ => ecAdd N x y X Y Z fun X Y Z => ecMul N a x y e k i X Y Z

/-- Whether `q - 1` times the point is its negative, and `q` is large enough. -/
def ecCheck (N a x y q : Nat) : Bool :=
  decide (1 < N) && decide (4 * N < (q - 1) * (q - 1)) && decide ((q - 1) / 2 ^ Nat.log2 (q - 1) = 1) &&
  ecMul N a x y (q - 1) (fun X Y Z => Nat.gcd Z N == 1 && (x * (Z * Z) + (N - X % N)) % N == 0 && (y * (Z * (Z * Z)) + Y) % N == 0) (Nat.log2 (q - 1)) x y 1

section Cast
variable {p N : Nat} [Fact p.Prime]

theorem cast_mod (h : p ∣ N) (n : Nat) : ((n % N : Nat) : ZMod p) = n := by
  conv => rhs; rw [← Nat.mod_add_div n N]
  have : (N : ZMod p) = 0 := (ZMod.natCast_eq_zero_iff N p).2 h
  push_cast
  rw [this]
  ring

theorem cast_neg (h : p ∣ N) (hN : 0 < N) (t : Nat) : ((N - t % N : Nat) : ZMod p) = -t := by
  have : (N : ZMod p) = 0 := (ZMod.natCast_eq_zero_iff N p).2 h
  rw [Nat.cast_sub (Nat.le_of_lt (Nat.mod_lt _ hN)), this, cast_mod h]
  ring

theorem cast_subMod (h : p ∣ N) (hN : 0 < N) (s t : Nat) : ((subMod N s t : Nat) : ZMod p) = s - t := by
  unfold subMod
  rw [cast_mod h, Nat.cast_add, cast_neg h hN]
  ring

/-- The continuation gets numbers that represent the double. -/
theorem ecDouble_spec (h : p ∣ N) (hN : 0 < N) (a X Y Z : Nat) : ∃ X' Y' Z' : Nat, (∀ {α : Type} (k : Nat → Nat → Nat → α), ecDouble N a X Y Z k = k X' Y' Z') ∧
    (Z' : ZMod p) = 2 * Y * Z ∧
    ∀ (b : ZMod p) (P : (curve (a : ZMod p) b).Point), Rep P (X : ZMod p) Y Z → (Z' : ZMod p) ≠ 0 → Rep (P + P) (X' : ZMod p) Y' Z' := by
  refine ⟨_, _, _, (fun k => by simp only [ecDouble, force_eq]; rfl), ?_, ?_⟩
  · rw [cast_mod h]; push_cast; ring
  · intro b P hP h0
    have e : ((2 * Y * Z % N : Nat) : ZMod p) = 2 * Y * Z := by rw [cast_mod h]; push_cast; ring
    rw [e] at h0
    have := hP.double h0
    simp only [cast_subMod h hN, cast_mod h, Nat.cast_mul, Nat.cast_add, cast_neg h hN, Nat.cast_ofNat]
    convert this using 1 <;> ring

theorem ecAdd_spec (h : p ∣ N) (hN : 0 < N) (x y X Y Z : Nat) : ∃ X' Y' Z' : Nat, (∀ {α : Type} (k : Nat → Nat → Nat → α), ecAdd N x y X Y Z k = k X' Y' Z') ∧
    (Z' : ZMod p) = Z * (x * Z ^ 2 - X) ∧
    ∀ (a b : ZMod p) (P Q : (curve a b).Point), Rep P (X : ZMod p) Y Z → (∃ h, Q = .some (x : ZMod p) y h) → (Z' : ZMod p) ≠ 0 → Rep (P + Q) (X' : ZMod p) Y' Z' := by
  refine ⟨_, _, _, (fun k => by simp only [ecAdd, force_eq]; rfl), ?_, ?_⟩
  · simp only [cast_subMod h hN, cast_mod h, Nat.cast_mul]; ring
  · intro a b P Q hP hQ h0
    have e : ((Z * subMod N (x * (Z * Z % N)) X % N : Nat) : ZMod p) = Z * (x * Z ^ 2 - X) := by
      simp only [cast_subMod h hN, cast_mod h, Nat.cast_mul]; ring
    rw [e] at h0
    have := hP.add hQ h0
    simp only [cast_subMod h hN, cast_mod h, Nat.cast_mul, Nat.cast_add, cast_neg h hN, Nat.cast_ofNat]
    convert this using 1 <;> ring

/-- The numbers at the end of the ladder represent the multiple, if the last denominator is not zero. -/
theorem ecMul_spec (h : p ∣ N) (hN : 0 < N) (a x y e : Nat) : ∀ (i X Y Z : Nat), ∃ X' Y' Z' : Nat, (∀ {α : Type} (k : Nat → Nat → Nat → α), ecMul N a x y e k i X Y Z = k X' Y' Z') ∧
    ((Z' : ZMod p) ≠ 0 → (Z : ZMod p) ≠ 0) ∧ (0 < i → (Z' : ZMod p) ≠ 0 → (2 * Y : ZMod p) ≠ 0) ∧
    ∀ (b : ZMod p) (Q : (curve (a : ZMod p) b).Point), (∃ h, Q = .some (x : ZMod p) y h) → Rep ((e / 2 ^ i) • Q) (X : ZMod p) Y Z → (Z' : ZMod p) ≠ 0 → Rep (e • Q) (X' : ZMod p) Y' Z' := by
  intro i
  induction i with
  | zero =>
    intro X Y Z
    refine ⟨X, Y, Z, fun k => rfl, id, fun h => absurd h (by decide), fun b Q _ hr _ => ?_⟩
    simpa using hr
  | succ i ih =>
    intro X Y Z
    obtain ⟨X1, Y1, Z1, hk1, hz1, hr1⟩ := ecDouble_spec (p := p) h hN a X Y Z
    have hdiv : e / 2 ^ (i + 1) = (e / 2 ^ i) / 2 := by rw [pow_succ, Nat.div_div_eq_div_mul]
    rcases hb : (e / 2 ^ i) % 2 with _ | m
    · obtain ⟨X2, Y2, Z2, hk2, hz2, -, hr2⟩ := ih X1 Y1 Z1
      refine ⟨X2, Y2, Z2, (fun k => ?_), fun h => ?_, fun _ h => ?_, fun b Q hQ hr hz => ?_⟩
      · simp only [ecMul, hk1, hb, hk2]
      · have := hz2 h
        rw [hz1] at this
        exact fun e => this (by rw [e]; ring)
      · have := hz2 h
        rw [hz1] at this
        exact fun e => this (by rw [e]; ring)
      · refine hr2 b Q hQ ?_ hz
        have := hr1 b _ hr (hz2 hz)
        rw [← add_nsmul] at this
        rwa [show e / 2 ^ i = e / 2 ^ (i + 1) + e / 2 ^ (i + 1) by omega]
    · obtain ⟨X2, Y2, Z2, hk2, hz2, hr2⟩ := ecAdd_spec (p := p) h hN x y X1 Y1 Z1
      obtain ⟨X3, Y3, Z3, hk3, hz3, -, hr3⟩ := ih X2 Y2 Z2
      have hz : (Z3 : ZMod p) ≠ 0 → (Z1 : ZMod p) ≠ 0 := by
        intro h
        have := hz3 h
        rw [hz2] at this
        exact fun e => this (by rw [e]; ring)
      refine ⟨X3, Y3, Z3, (fun k => ?_), fun h => ?_, fun _ h => ?_, fun b Q hQ hr h3 => ?_⟩
      · simp only [ecMul, hk1, hb, hk2, hk3]
      · have := hz h
        rw [hz1] at this
        exact fun e => this (by rw [e]; ring)
      · have := hz h
        rw [hz1] at this
        exact fun e => this (by rw [e]; ring)
      · refine hr3 b Q hQ ?_ h3
        have h4 := hr1 b _ hr (hz h3)
        have h5 := hr2 _ b _ Q h4 hQ (hz3 h3)
        rw [← add_nsmul] at h5
        rw [show e / 2 ^ i = e / 2 ^ (i + 1) + e / 2 ^ (i + 1) + 1 by omega, add_nsmul, one_nsmul]
        exact h5

end Cast

/-- A point of prime order `q` on a curve over a field with `p` elements: there are at least `(q - 1) / 2` first coordinates. -/
theorem order_le {p : Nat} [Fact p.Prime] {a b : ZMod p} {Q : (curve a b).Point} {q : Nat} (hq : q.Prime) (h0 : Q ≠ 0) (hQ : q • Q = 0) : (q - 1) / 2 ≤ p := by
  have hord : addOrderOf Q = q := by
    rcases (Nat.dvd_prime hq).1 (addOrderOf_dvd_of_nsmul_eq_zero hQ) with h | h
    · exact absurd (AddMonoid.addOrderOf_eq_one_iff.1 h) h0
    · exact h
  have hmul : ∀ n, n • Q = 0 → q ∣ n := fun n h => hord ▸ addOrderOf_dvd_of_nsmul_eq_zero h
  let f : Nat → ZMod p := fun i => match (i + 1) • Q with
    | .zero => 0
    | .some x _ _ => x
  have hinj : Set.InjOn f (Finset.range ((q - 1) / 2) : Set Nat) := by
    intro i hi j hj hij
    simp only [Finset.coe_range, Set.mem_Iio] at hi hj
    have hne : ∀ k < (q - 1) / 2, (k + 1) • Q ≠ 0 := by
      intro k hk h
      have := Nat.le_of_dvd (by omega) (hmul _ h)
      omega
    have hi0 := hne i hi
    have hj0 := hne j hj
    simp only [f] at hij
    rcases hP : (i + 1) • Q with _ | ⟨x, y, hn⟩
    · exact absurd hP hi0
    rcases hR : (j + 1) • Q with _ | ⟨x', y', hn'⟩
    · exact absurd hR hj0
    rw [hP, hR] at hij
    dsimp only at hij
    rcases Affine.Y_eq_of_X_eq hn.1 hn'.1 hij with hy | hy
    · have e : (i + 1) • Q = (j + 1) • Q := by
        rw [hP, hR]; subst hij hy; rfl
      rcases Nat.lt_trichotomy i j with hlt | heq | hlt
      · have : (j - i) • Q = 0 := by
          have : (j + 1) • Q = (j - i) • Q + (i + 1) • Q := by rw [← add_nsmul]; congr 1; omega
          rw [this] at e
          exact right_eq_add.1 e
        have := Nat.le_of_dvd (by omega) (hmul _ this)
        omega
      · exact heq
      · have : (i - j) • Q = 0 := by
          have : (i + 1) • Q = (i - j) • Q + (j + 1) • Q := by rw [← add_nsmul]; congr 1; omega
          rw [this] at e
          exact right_eq_add.1 e.symm
        have := Nat.le_of_dvd (by omega) (hmul _ this)
        omega
    · have e : (i + 1) • Q + (j + 1) • Q = 0 := by
        rw [hP, hR]; exact Affine.Point.add_of_Y_eq hij hy
      rw [← add_nsmul] at e
      have := Nat.le_of_dvd (by omega) (hmul _ e)
      omega
  have := Finset.card_le_card_of_injOn f (fun _ _ => Finset.mem_coe.2 (Finset.mem_univ _)) hinj
  simpa [ZMod.card] using this

/-- A number is a prime if the computation of `ecCheck` succeeds for a prime `q`. -/
theorem prime_of_ecCheck {N a x y q : Nat} (h : ecCheck N a x y q = true) (hq : q.Prime) : N.Prime := by
  simp only [ecCheck, Bool.and_eq_true, decide_eq_true_eq] at h
  obtain ⟨⟨⟨h1, h2⟩, h3⟩, h4⟩ := h
  refine Classical.byContradiction fun hnp => ?_
  have hpp : N.minFac.Prime := Nat.minFac_prime (by omega)
  have hpn : N.minFac ∣ N := Nat.minFac_dvd N
  have hsq : N.minFac * N.minFac ≤ N := by
    have := Nat.minFac_sq_le_self (by omega) hnp
    rwa [sq] at this
  generalize N.minFac = p at hpp hpn hsq
  haveI : Fact p.Prime := ⟨hpp⟩
  obtain ⟨X, Y, Z, hk, -, hy, hr⟩ := ecMul_spec (p := p) hpn (by omega) a x y (q - 1) (Nat.log2 (q - 1)) x y 1
  rw [hk] at h4
  simp only [Bool.and_eq_true, beq_iff_eq] at h4
  obtain ⟨⟨g1, g2⟩, g3⟩ := h4
  have hZ : (Z : ZMod p) ≠ 0 := by
    intro h
    have := Nat.dvd_gcd ((ZMod.natCast_eq_zero_iff Z p).1 h) hpn
    rw [g1] at this
    exact hpp.one_lt.ne' (Nat.dvd_one.1 this)
  have e2 : (x : ZMod p) * Z ^ 2 = X := by
    have := congrArg (fun n : Nat => (n : ZMod p)) g2
    simp only [cast_mod hpn, Nat.cast_add, Nat.cast_mul, cast_neg hpn (show 0 < N by omega), Nat.cast_zero] at this
    linear_combination this
  have e3 : (y : ZMod p) * Z ^ 3 = -Y := by
    have := congrArg (fun n : Nat => (n : ZMod p)) g3
    simp only [cast_mod hpn, Nat.cast_add, Nat.cast_mul, Nat.cast_zero] at this
    linear_combination this
  have hlog : 0 < Nat.log2 (q - 1) := by
    refine Classical.byContradiction fun hc => ?_
    have h0 : Nat.log2 (q - 1) = 0 := by omega
    rw [h0] at h3
    have : q - 1 = 1 := by simpa using h3
    rw [this] at h2
    omega
  have hy2 := hy hlog hZ
  have hon : (curve (a : ZMod p) ((y : ZMod p) ^ 2 - x ^ 3 - a * x)).Nonsingular (x : ZMod p) y := by
    rw [Affine.nonsingular_iff']
    refine ⟨?_, .inr ?_⟩
    · rw [Affine.equation_iff]
      ring
    · simpa using hy2
  let Q : (curve (a : ZMod p) ((y : ZMod p) ^ 2 - x ^ 3 - a * x)).Point := .some (x : ZMod p) y hon
  have hrep : Rep (((q - 1) / 2 ^ Nat.log2 (q - 1)) • Q) (x : ZMod p) y (1 : Nat) := by
    rw [h3, one_nsmul]
    exact Rep.congr ⟨hon, rfl⟩ (by simp) (by simp) (by simp)
  obtain ⟨-, hn, hm⟩ := hr _ Q ⟨hon, rfl⟩ hrep hZ
  have hneg : (q - 1) • Q = -Q := by
    rw [hm, Affine.Point.neg_some]
    congr 1
    · rw [← e2]; field_simp
    · simp only [Affine.negY, zero_mul, sub_zero]
      rw [show (Y : ZMod p) = -(y * Z ^ 3) by rw [e3]; ring]
      field_simp
  have hzero : q • Q = 0 := by
    have : q = (q - 1) + 1 := by have := hq.two_le; omega
    rw [this, add_nsmul, one_nsmul, hneg, neg_add_cancel]
  have hle := order_le hq (Affine.Point.some_ne_zero hon) hzero
  have : (q - 1) / 2 * ((q - 1) / 2) ≤ p * p := Nat.mul_le_mul hle hle
  have h5 : (q - 1) / 2 * ((q - 1) / 2) ≤ N := by omega
  have hodd : q ≠ 2 := by
    rintro rfl
    omega
  have hq2 : q % 2 = 1 := by
    rcases hq.eq_two_or_odd with h | h
    · exact absurd h hodd
    · exact h
  obtain ⟨t, ht⟩ : ∃ t, q - 1 = 2 * t := ⟨(q - 1) / 2, by omega⟩
  rw [ht, Nat.mul_div_cancel_left _ (by decide)] at h5
  rw [ht, show 2 * t * (2 * t) = 4 * (t * t) by ring] at h2
  omega

end Aiootp.Primes
