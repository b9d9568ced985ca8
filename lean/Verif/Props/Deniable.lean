import Verif.Spec.Collision
import Verif.Model.Deniable
import Verif.Lemmas.Profile
import Verif.Lemmas.Ids
import Verif.Lemmas.Cipher

/-
Property C93 (names of salt files).
-/

namespace Aiootp.Profile

open Canon

/-! ### Specification -/

/-- The exclusive or of two byte strings of one length. -/
def xorBytes (a b : Bytes) : Bytes := List.zipWith (· ^^^ ·) a b

/-- The exclusive or of some byte strings of length `size`. -/
def xorAll (size : Nat) (segments : List Bytes) : Bytes := segments.foldl xorBytes (List.replicate size 0)

/-! ### Lemmas -/

theorem nat_xor_split {a b x y k : Nat} (hx : x < 2 ^ k) (hy : y < 2 ^ k) : (a * 2 ^ k + x) ^^^ (b * 2 ^ k + y) = (a ^^^ b) * 2 ^ k + (x ^^^ y) := by
  have hxy := Nat.xor_lt_two_pow hx hy
  apply Nat.eq_of_testBit_eq
  intro i
  rw [Nat.testBit_xor, Nat.mul_comm a, Nat.mul_comm b, Nat.mul_comm (a ^^^ b), Nat.testBit_two_pow_mul_add a hx, Nat.testBit_two_pow_mul_add b hy,
    Nat.testBit_two_pow_mul_add _ hxy]
  split <;> simp [Nat.testBit_xor]

theorem length_xorBytes {a b : Bytes} (h : a.length = b.length) : (xorBytes a b).length = a.length := by
  simp [xorBytes, h]

theorem fromBE_xorBytes {a b : Bytes} (h : a.length = b.length) : fromBE (xorBytes a b) = fromBE a ^^^ fromBE b := by
  induction a generalizing b with
  | nil =>
    cases b with
    | nil => rfl
    | cons y b => simp at h
  | cons x a ih =>
    cases b with
    | nil => simp at h
    | cons y b =>
      have h : a.length = b.length := by simpa using h
      have hl : (xorBytes a b).length = a.length := length_xorBytes h
      have e : xorBytes (x :: a) (y :: b) = (x ^^^ y) :: xorBytes a b := rfl
      rw [e, Text.fromBE_cons, Text.fromBE_cons, Text.fromBE_cons, ih h, hl, ← h]
      have p : 256 ^ a.length = 2 ^ (8 * a.length) := by rw [Nat.pow_mul]
      have l1 := fromBE_lt a
      have l2 := fromBE_lt b
      rw [← h] at l2
      rw [p] at l1 l2 ⊢
      rw [nat_xor_split l1 l2, UInt8.toNat_xor]

theorem foldl_xor (segments : List Bytes) (size : Nat) (hs : ∀ s ∈ segments, s.length = size) (acc : Bytes) (ha : acc.length = size) :
    (segments.foldl xorBytes acc).length = size ∧
      fromBE (segments.foldl xorBytes acc) = segments.foldl (fun result chunk => result ^^^ fromBE chunk) (fromBE acc) := by
  induction segments generalizing acc with
  | nil => exact ⟨ha, rfl⟩
  | cons s ss ih =>
    have h1 : s.length = size := hs s List.mem_cons_self
    have h2 : acc.length = s.length := by rw [ha, h1]
    obtain ⟨i1, i2⟩ := ih (fun s h => hs s (List.mem_cons_of_mem _ h)) (xorBytes acc s) (by rw [length_xorBytes h2, ha])
    refine ⟨i1, ?_⟩
    rw [List.foldl_cons, i2, List.foldl_cons, fromBE_xorBytes h2]

theorem batch_segments (size : Nat) (hs : 0 < size) (segments : List Bytes) (h : ∀ s ∈ segments, s.length = size) :
    Text.batch size segments.flatten = segments := by
  induction segments with
  | nil => exact Text.batch_nil size
  | cons s ss ih =>
    have h1 : s.length = size := h s List.mem_cons_self
    have hne : (s :: ss).flatten ≠ [] := by
      intro e
      have := congrArg List.length e
      simp only [List.flatten_cons, List.length_append, List.length_nil] at this
      omega
    rw [Text.batch_cons hne hs, List.flatten_cons, ← h1, List.take_left, List.drop_left, h1, ih (fun s h' => h s (List.mem_cons_of_mem _ h'))]

theorem xorBytes_comm_assoc (a b c : Bytes) : xorBytes (xorBytes a b) c = xorBytes (xorBytes a c) b := by
  induction a generalizing b c with
  | nil => rfl
  | cons x a ih =>
    cases b with
    | nil => cases c <;> rfl
    | cons y b =>
      cases c with
      | nil => rfl
      | cons z c =>
        have e1 : xorBytes (xorBytes (x :: a) (y :: b)) (z :: c) = (x ^^^ y ^^^ z) :: xorBytes (xorBytes a b) c := rfl
        have e2 : xorBytes (xorBytes (x :: a) (z :: c)) (y :: b) = (x ^^^ z ^^^ y) :: xorBytes (xorBytes a c) b := rfl
        rw [e1, e2, ih, UInt8.xor_assoc, UInt8.xor_comm y, ← UInt8.xor_assoc]

theorem xorAll_perm {size : Nat} {l l' : List Bytes} (h : l.Perm l') : xorAll size l = xorAll size l' :=
  h.foldl_eq' (fun _ _ _ _ _ => xorBytes_comm_assoc _ _ _) _

theorem length_xorAll {size : Nat} {l : List Bytes} (h : ∀ s ∈ l, s.length = size) : (xorAll size l).length = size :=
  (foldl_xor l size h _ (by simp)).1

theorem xorBytes_cancel {a b : Bytes} (h : a.length = b.length) : xorBytes a (xorBytes a b) = b := by
  have hl := length_xorBytes h
  refine fromBE_inj (by rw [length_xorBytes hl.symm, h]) ?_
  rw [fromBE_xorBytes hl.symm, fromBE_xorBytes h, ← Nat.xor_assoc, Nat.xor_self, Nat.zero_xor]

/-! ### C93 -/

/-- **C93** A key is condensed to the exclusive or of its segments of `size` bytes. -/
theorem C93_condensed {size : Nat} (hs : 0 < size) {segments : List Bytes} (h : ∀ s ∈ segments, s.length = size) :
    xiMix segments.flatten size = .ok (xorAll size segments) := by
  obtain ⟨h1, h2⟩ := foldl_xor segments size h (List.replicate size 0) (by simp)
  rw [fromBE_replicate] at h2
  unfold xiMix
  rw [batch_segments size hs segments h, ← h2]
  exact toBytesBE_ok.2 ⟨Cipher.fromBE_lt_of_length h1, (Cipher.beDigits_fromBE_of_length h1).symm⟩

/-- **C93** A key whose last segment is shorter is condensed as if zeros had been put in front of that segment. -/
theorem C93_short_segment {size : Nat} {segments : List Bytes} {last : Bytes} (h : ∀ s ∈ segments, s.length = size) (h0 : 0 < last.length)
    (hl : last.length < size) :
    xiMix (segments.flatten ++ last) size = .ok (xorAll size (segments ++ [List.replicate (size - last.length) 0 ++ last])) := by
  have hs : 0 < size := by omega
  have hb : Text.batch size (segments.flatten ++ last) = segments ++ [last] := by
    induction segments with
    | nil =>
      have hne : last ≠ [] := by rintro rfl; exact absurd h0 (by decide)
      rw [List.flatten_nil, List.nil_append, Text.batch_cons hne hs, List.take_of_length_le (by omega), List.drop_eq_nil_of_le (by omega), Text.batch_nil]
      rfl
    | cons s ss ih =>
      have h1 : s.length = size := h s List.mem_cons_self
      have hne : (s :: ss).flatten ++ last ≠ [] := by
        intro e
        have := congrArg List.length e
        simp only [List.flatten_cons, List.length_append, List.length_nil] at this
        omega
      rw [Text.batch_cons hne hs, List.flatten_cons, List.append_assoc, ← h1, List.take_left, List.drop_left, h1,
        ih (fun s h' => h s (List.mem_cons_of_mem _ h'))]
      rfl
  have hp : (List.replicate (size - last.length) (0 : UInt8) ++ last).length = size := by simp; omega
  have hf : fromBE (List.replicate (size - last.length) (0 : UInt8) ++ last) = fromBE last := by
    rw [Ids.fromBE_append, fromBE_replicate, Nat.zero_mul, Nat.zero_add]
  have hall : ∀ s ∈ segments ++ [List.replicate (size - last.length) 0 ++ last], s.length = size := by
    intro s hm
    rcases List.mem_append.1 hm with hm | hm
    · exact h s hm
    · rw [List.mem_singleton.1 hm]; exact hp
  obtain ⟨h1, h2⟩ := foldl_xor _ size hall (List.replicate size 0) (by simp)
  rw [fromBE_replicate] at h2
  unfold xiMix
  have e : (segments ++ [last]).foldl (fun result chunk => result ^^^ fromBE chunk) 0 = fromBE (xorAll size (segments ++ [List.replicate (size - last.length) 0 ++ last])) := by
    rw [xorAll, h2]
    simp only [List.foldl_append, List.foldl_cons, List.foldl_nil, hf]
  rw [hb, e]
  exact toBytesBE_ok.2 ⟨Cipher.fromBE_lt_of_length h1, (Cipher.beDigits_fromBE_of_length h1).symm⟩

/-- **C93** `deniable_filename` returns a name exactly if the size is from 1 to 16 and the key has at least two segments; otherwise it raises
`ValueError`. -/
theorem C93_outcomes (sha256 : Bytes → Bytes) (key : Bytes) (size : Int) :
    (1 ≤ size ∧ size ≤ 16 ∧ 2 * size ≤ key.length → ∃ n, deniableName sha256 key size = .ok n ∧ n ≠ [] ∧ ∀ c ∈ n, c ∈ Text.base38) ∧
    (¬ (1 ≤ size ∧ size ≤ 16 ∧ 2 * size ≤ key.length) → deniableName sha256 key size = .error .value) := by
  constructor
  · rintro ⟨h1, h2, h3⟩
    obtain ⟨m, hm⟩ := xiMix_total key size.toNat (by omega)
    obtain ⟨n, hn, hne, hc, _⟩ := Text.bytesToFilename_spec ((sha256 m).take 24)
    refine ⟨n, ?_, hne, hc⟩
    simp only [deniableName, bind_eq_ok, raiseIf_ok]
    exact ⟨(), by omega, (), by omega, m, hm, by rw [hn]; rfl⟩
  · intro h
    by_cases h1 : 16 ≥ size ∧ size ≥ 1
    · have h2 : ¬ ((key.length : Int) ≥ 2 * size) := by omega
      simp [deniableName, raiseIf, h1, h2, bind, Except.bind]
    · simp [deniableName, raiseIf, h1, bind, Except.bind]

/-- **C93** The name of a file depends on nothing but the condensed key. -/
theorem C93_condensed_decides (sha256 : Bytes → Bytes) {key key' : Bytes} {size : Nat} (h : 2 * size ≤ key.length) (h' : 2 * size ≤ key'.length)
    (hm : xiMix key size = xiMix key' size) : deniableName sha256 key size = deniableName sha256 key' size := by
  have a : (key.length : Int) ≥ 2 * (size : Int) := by omega
  have b : (key'.length : Int) ≥ 2 * (size : Int) := by omega
  simp only [deniableName, a, b, Int.toNat_natCast, hm]

theorem xiMix_length {key m : Bytes} {size : Nat} (h : xiMix key size = .ok m) : m.length = size := by
  obtain ⟨-, rfl⟩ := toBytesBE_ok.1 h
  simp

/-- **C93** Two keys have the same name only if they are condensed to the same bytes, or the digests of the two condensed keys begin with the same 24
bytes. -/
theorem C93_same_name {sha256 : Bytes → Bytes} (hsha : ∀ m, (sha256 m).length = 32) {key key' : Bytes} {size : Nat} {n : Name}
    (h : deniableName sha256 key size = .ok n) (h' : deniableName sha256 key' size = .ok n) :
    xiMix key size = xiMix key' size ∨
      ∃ x y, xiMix key size = .ok x ∧ xiMix key' size = .ok y ∧ Collide (fun m => (sha256 m).take 24) x y := by
  simp only [deniableName, bind_eq_ok, Int.toNat_natCast] at h h'
  obtain ⟨_, _, _, _, m, hm, h⟩ := h
  obtain ⟨_, _, _, _, m', hm', h'⟩ := h'
  by_cases e : m = m'
  · exact .inl (by rw [hm, hm', e])
  · refine .inr ⟨m, m', hm, hm', e, ?_⟩
    obtain ⟨s, hs, _, _, hb⟩ := Text.bytesToFilename_spec ((sha256 m).take 24)
    obtain ⟨s', hs', _, _, hb'⟩ := Text.bytesToFilename_spec ((sha256 m').take 24)
    rw [hs] at h
    rw [hs'] at h'
    cases h
    cases h'
    rw [hb] at hb'
    injection hb' with hb'
    exact fromBE_inj (by simp [hsha]) hb'

/-- **C93** Deniability: to every sequence of segments that someone likes to begin with, there is exactly one last segment with which the key is condensed to
the same bytes, and with it the key has the same name as the given one. -/
theorem C93_forged (sha256 : Bytes → Bytes) {key : Bytes} {size : Nat} (hs : 1 ≤ size) (hs' : size ≤ 16) (hk : 2 * size ≤ key.length)
    {segments : List Bytes} (hne : segments ≠ []) (h : ∀ s ∈ segments, s.length = size) :
    ∃ last : Bytes, last.length = size ∧ deniableName sha256 (segments.flatten ++ last) size = deniableName sha256 key size ∧
      xiMix (segments.flatten ++ last) size = xiMix key size ∧
      ∀ other : Bytes, other.length = size → xiMix (segments.flatten ++ other) size = xiMix key size → other = last := by
  obtain ⟨m, hm⟩ := xiMix_total key size hs
  have lm := xiMix_length hm
  have lx := length_xorAll h
  have hmix : ∀ last : Bytes, last.length = size → xiMix (segments.flatten ++ last) size = .ok (xorBytes (xorAll size segments) last) := by
    intro last hl
    have e : segments.flatten ++ last = (segments ++ [last]).flatten := by simp
    rw [e, C93_condensed hs]
    · simp [xorAll]
    · intro s hm
      rcases List.mem_append.1 hm with hm | hm
      · exact h s hm
      · rw [List.mem_singleton.1 hm]; exact hl
  have ll : (xorBytes (xorAll size segments) m).length = size := by rw [length_xorBytes (by rw [lx, lm]), lx]
  have hx : xiMix (segments.flatten ++ xorBytes (xorAll size segments) m) size = xiMix key size := by
    rw [hmix _ ll, xorBytes_cancel (by rw [lx, lm]), hm]
  have hlen : size ≤ segments.flatten.length := by
    cases segments with
    | nil => exact absurd rfl hne
    | cons s ss =>
      have := h s List.mem_cons_self
      simp only [List.flatten_cons, List.length_append]
      omega
  refine ⟨xorBytes (xorAll size segments) m, ll, C93_condensed_decides sha256 ?_ hk hx, hx, ?_⟩
  · rw [List.length_append, ll]; omega
  · intro other ho he
    rw [hmix _ ho, hm] at he
    injection he with he
    rw [← he, xorBytes_cancel (by rw [lx, ho])]

/-- Different keys share a file: the segments of a key may come in any order, and segments of zeros may be added. -/
theorem C93_shared (sha256 : Bytes → Bytes) {size : Nat} (hs : 1 ≤ size) {segments segments' : List Bytes} (h : ∀ s ∈ segments, s.length = size)
    (h2 : 2 ≤ segments.length) (k : Nat) (hp : segments'.Perm (segments ++ List.replicate k (List.replicate size 0))) :
    deniableName sha256 segments'.flatten size = deniableName sha256 segments.flatten size := by
  have h0 : ∀ s ∈ segments ++ List.replicate k (List.replicate size 0), s.length = size := by
    intro s hm
    rcases List.mem_append.1 hm with hm | hm
    · exact h s hm
    · rw [(List.mem_replicate.1 hm).2]; simp
  have hall : ∀ s ∈ segments', s.length = size := fun s hm => h0 s (hp.subset hm)
  have hlen : ∀ l : List Bytes, (∀ s ∈ l, s.length = size) → l.flatten.length = l.length * size := by
    intro l hl
    induction l with
    | nil => simp
    | cons s l ih =>
      rw [List.flatten_cons, List.length_append, ih (fun s hm => hl s (List.mem_cons_of_mem _ hm)), hl s List.mem_cons_self, List.length_cons, Nat.add_mul,
        Nat.one_mul, Nat.add_comm]
  have hzero : ∀ k, ∀ a : Bytes, a.length = size → (List.replicate k (List.replicate size (0 : UInt8))).foldl xorBytes a = a := by
    intro k
    induction k with
    | zero => intro a _; rfl
    | succ k ih =>
      intro a ha
      have e : xorBytes a (List.replicate size 0) = a := by
        refine fromBE_inj (by rw [length_xorBytes (by simp [ha])]) ?_
        rw [fromBE_xorBytes (by simp [ha]), fromBE_replicate, Nat.xor_zero]
      rw [List.replicate_succ, List.foldl_cons, e, ih a ha]
  refine C93_condensed_decides sha256 ?_ ?_ ?_
  · rw [hlen _ hall, hp.length_eq, List.length_append]
    exact Nat.mul_le_mul_right _ (by omega)
  · rw [hlen _ h]
    exact Nat.mul_le_mul_right _ h2
  · rw [C93_condensed hs hall, C93_condensed hs h, xorAll_perm hp]
    have e : xorAll size (segments ++ List.replicate k (List.replicate size 0)) = xorAll size segments := by
      rw [xorAll, List.foldl_append]
      exact hzero k _ (length_xorAll h)
    rw [e]

/-- The name of Model/Profile.lean is the one with the default size. -/
theorem deniableName_default (E : Env) (key : Bytes) : deniableName E.sha256 key 8 = deniableFilename E key := by
  by_cases h : 2 * 8 ≤ key.length
  · have h' : (key.length : Int) ≥ 2 * 8 := by omega
    simp [deniableName, deniableFilename, raiseIf, h, h', bind, Except.bind]
  · have h' : ¬ ((key.length : Int) ≥ 2 * 8) := by omega
    simp [deniableName, deniableFilename, raiseIf, h, h', bind, Except.bind]

/-- **C93** So a forged key finds the salt of the given one: `SecureSaltPath` and `read_salt_file` do the same for both. -/
theorem C93_forged_salt (E : Env) (dir : Dir) {key : Bytes} (draw : Bytes) (hk : 16 ≤ key.length) {segments : List Bytes} (hne : segments ≠ [])
    (h : ∀ s ∈ segments, s.length = 8) :
    ∃ last : Bytes, last.length = 8 ∧ summonSalt E dir (segments.flatten ++ last) draw = summonSalt E dir key draw := by
  obtain ⟨last, hl, hn, -⟩ := C93_forged E.sha256 (size := 8) (by decide) (by decide) hk hne h
  refine ⟨last, hl, ?_⟩
  have hn : deniableFilename E (segments.flatten ++ last) = deniableFilename E key := by
    rw [← deniableName_default, ← deniableName_default]; exact hn
  simp only [summonSalt, hn]

/-- A key of 20 bytes with segments of 8 bytes, and a beginning of 16 bytes. -/
example : (∃ n, deniableName (fun m => (m ++ List.replicate 32 0).take 32) (List.range 20 |>.map UInt8.ofNat) 8 = .ok n) ∧
    ∀ s ∈ [List.replicate 8 (1 : UInt8), List.replicate 8 2], s.length = 8 := by
  refine ⟨?_, by decide⟩
  obtain ⟨n, hn, _⟩ := (C93_outcomes (fun m => (m ++ List.replicate 32 0).take 32) (List.range 20 |>.map UInt8.ofNat) 8).1 (by decide)
  exact ⟨n, hn⟩

/-- A concrete forgery. -/
example : xiMix [1, 2, 3, 4, 5] 2 = xiMix ([7, 7] ++ [5, 4]) 2 := by decide +kernel

end Aiootp.Profile
