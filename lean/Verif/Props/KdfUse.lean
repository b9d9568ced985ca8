import Verif.Spec.KdfUse
import Verif.Lemmas.Profile
import Verif.Props.DomainKdf

/-
Property C106: kdfs for different domains derive different keys.
-/

namespace Aiootp.Kdf

open Canon
open Passcrypt (packed unpadded keyed rawKey padding body canonicalPack_iff encodeKey_iff padding_add padding_length keyed_aligned body_cons)
open Profile (packed_length_congr)

theorem foldlM_absorb {bs : Nat} (us : List (List Bytes)) (p : Bytes) : us.foldlM (absorbUpdate bs) p = absorbAll bs p us := by
  induction us generalizing p with
  | nil => rfl
  | cons u us ih =>
    rw [List.foldlM_cons]
    simp only [absorbAll, ih]

theorem state_eq {F : Functions} {salt kdfDomain : Bytes} {l : Life} :
    l.state F salt kdfDomain = (l.first kdfDomain).bind fun m => absorbAll 168 (salt ++ F .shake_128 m 168) l.updates := by
  unfold Life.state initialPayload hashBytes
  simp only [foldlM_absorb]
  show (do
    let payload ← (do
      let h ← (do
        let x ← l.first kdfDomain
        Except.ok (F .shake_128 x 168))
      Except.ok (salt ++ h))
    absorbAll 168 payload l.updates) = _
  cases l.first kdfDomain <;> rfl

theorem state_ok {F : Functions} {salt kdfDomain : Bytes} {l : Life} {p : Bytes} :
    l.state F salt kdfDomain = .ok p ↔ ∃ m, l.first kdfDomain = .ok m ∧ absorbAll 168 (salt ++ F .shake_128 m 168) l.updates = .ok p := by
  rw [state_eq]
  exact bind_eq_ok

theorem run_ok {F : Functions} {p k : Bytes} {d : Derivation} : d.run F p = .ok k ↔ 0 < d.output.bytes ∧ ∃ m, d.message F p = .ok m ∧ k = F d.output.type m d.output.bytes := by
  unfold Derivation.run runKdf hashBytes Derivation.message
  have hsize : (if (hasher F d.output.type).digestSize ≠ 0 then none else d.output.size?) = d.output.size? := by
    cases d.output <;> rfl
  have hbytes : d.output.size? ≠ some 0 → sizeOr d.output.size? (hasher F d.output.type).digestSize = d.output.bytes := by
    cases d.output with
    | sha3_256 => intro; rfl
    | sha3_512 => intro; rfl
    | shake_128 n => cases n with
      | zero => intro h; exact absurd rfl h
      | succ n => intro; rfl
    | shake_256 n => cases n with
      | zero => intro h; exact absurd rfl h
      | succ n => intro; rfl
  have hzero : d.output.size? = some 0 ↔ d.output.bytes = 0 := by
    cases d.output <;> simp [Output.size?, Output.bytes]
  rw [hsize]
  by_cases h0 : d.output.size? = some 0
  · rw [if_pos h0]
    constructor
    · intro h; cases h
    · rintro ⟨h, _⟩
      have := hzero.1 h0
      omega
  · rw [if_neg h0]
    have hpos : 0 < d.output.bytes := Nat.pos_of_ne_zero fun h => h0 (hzero.2 h)
    rw [hbytes h0]
    show (hashBytesInput (d.aad :: d.args) d.output.type.block (hasher F d.output.type).digestSize [0] d.output.size? (some (F .shake_128 p d.output.type.block)) >>= fun x =>
      Except.ok (F d.output.type x d.output.bytes)) = .ok k ↔ _
    cases hashBytesInput (d.aad :: d.args) d.output.type.block (hasher F d.output.type).digestSize [0] d.output.size? (some (F .shake_128 p d.output.type.block)) with
    | error e =>
      constructor
      · intro h; cases h
      · rintro ⟨_, m, h, _⟩; cases h
    | ok m =>
      constructor
      · intro h; cases h; exact ⟨hpos, m, rfl, rfl⟩
      · rintro ⟨_, m', h, rfl⟩; cases h; rfl

theorem derive_ok {F : Functions} {salt kdfDomain k : Bytes} {l : Life} {d : Derivation} : derive F salt kdfDomain l d = .ok k ↔
    ∃ p, l.state F salt kdfDomain = .ok p ∧ 0 < d.output.bytes ∧ ∃ m, d.message F p = .ok m ∧ k = F d.output.type m d.output.bytes := by
  unfold derive
  simp only [bind_eq_ok, run_ok]

/-- **C106**, if keys and domains together take the same number of blocks: two keys are equal only if kdfs with the same key, domain, data and updates derived them with the same arguments, or there is
a collision of what was hashed for the two. Missing: `C106_long_domain`. -/
theorem C106_partial {F : Functions} (hF : ∀ t x n, (F t x n).length = n) {salt kdfDomain : Bytes} {l l' : Life} {d d' : Derivation} {k : Bytes}
    (h : derive F salt kdfDomain l d = .ok k) (h' : derive F salt kdfDomain l' d' = .ok k) (ho : d.output = d'.output)
    (hb : keyBlocks 168 (l.key ++ l.domain) = keyBlocks 168 (l'.key ++ l'.domain)) :
    (l = l' ∧ d = d') ∨ ∃ t n x y, Hashes F salt kdfDomain l d t n x ∧ Hashes F salt kdfDomain l' d' t n y ∧ Collide (F t · n) x y := by
  obtain ⟨p, hp, _, m, hm, rfl⟩ := derive_ok.1 h
  obtain ⟨p', hp', _, m', hm', e⟩ := derive_ok.1 h'
  obtain ⟨o, aad, args⟩ := d
  obtain ⟨o', aad', args'⟩ := d'
  cases (show o = o' from ho)
  by_cases hmm : m = m'
  · subst hmm
    obtain ⟨e1, _, _, e4⟩ := C05_same_key_length_partial hm hm' (by simp only [Option.map_some, hF])
    injection e1 with e1
    injection e4 with e4 e5
    simp only at e1 e4 e5
    subst e4 e5
    by_cases hpp : p = p'
    · subst hpp
      obtain ⟨x, hx, hu⟩ := state_ok.1 hp
      obtain ⟨x', hx', hu'⟩ := state_ok.1 hp'
      have hd : F .shake_128 x 168 = F .shake_128 x' 168 := by
        obtain ⟨t, ht, _⟩ := absorbAll_grows hu
        obtain ⟨t', ht', _⟩ := absorbAll_grows hu'
        rw [ht] at ht'
        simp only [List.append_assoc] at ht'
        exact (List.append_inj (List.append_cancel_left ht') (by rw [hF, hF])).1
      by_cases hxx : x = x'
      · subst hxx
        have hus := C04_update_history_injective hu hu'
        obtain ⟨e1, _, _, e4⟩ := C05_same_blocks_partial (by decide) hx hx' (by simpa using hb)
        injection e1 with e1
        injection e4 with _ e4
        injection e4 with e4 e5
        obtain ⟨key, domain, data, us⟩ := l
        obtain ⟨key', domain', data', us'⟩ := l'
        simp only at e1 e4 e5 hus
        subst e4 e5 hus
        cases List.append_cancel_right e1
        exact .inl ⟨rfl, rfl⟩
      · exact .inr ⟨_, _, x, x', .first hx, .first hx', hxx, hd⟩
    · exact .inr ⟨_, _, p, p', .payload hp, .payload hp', hpp, e1⟩
  · exact .inr ⟨_, _, m, m', .last hp hm, .last hp' hm', hmm, e⟩

/-- **C106**, for keys and domains that have less than 152 bytes together, as those of the package have. -/
theorem C106_one_block_partial {F : Functions} (hF : ∀ t x n, (F t x n).length = n) {salt kdfDomain : Bytes} {l l' : Life} {d d' : Derivation} {k : Bytes}
    (h : derive F salt kdfDomain l d = .ok k) (h' : derive F salt kdfDomain l' d' = .ok k) (ho : d.output = d'.output)
    (hl : l.key.length + l.domain.length < 152) (hl' : l'.key.length + l'.domain.length < 152) :
    (l = l' ∧ d = d') ∨ ∃ t n x y, Hashes F salt kdfDomain l d t n x ∧ Hashes F salt kdfDomain l' d' t n y ∧ Collide (F t · n) x y :=
  C106_partial hF h h' ho (by
    have : ∀ a : Bytes, a.length < 152 → keyBlocks 168 a = 1 := fun a ha => by
      unfold keyBlocks
      rw [Nat.div_eq_of_lt (by omega)]
    rw [this _ (by rw [List.length_append]; exact hl), this _ (by rw [List.length_append]; exact hl')])

/-! ### long domains -/

theorem first_iff {l : Life} {kdfDomain m : Bytes} : l.first kdfDomain = .ok m ↔
    (l.key ++ l.domain ≠ [] ∧ (l.key ++ l.domain).length < 256 ^ 8) ∧ (l.data.length + 5 < 256 ^ 8 ∧ kdfDomain.length < 256 ^ 8 ∧ l.domain.length < 256 ^ 8 ∧ ∀ i ∈ l.data, i.length < 256 ^ 8) ∧
      m = keyed 168 0 (l.key ++ l.domain) ++ packed 168 0 (beDigits 8 168 :: kdfDomain :: l.domain :: l.data) := by
  have hb : 0 < 168 ∧ 168 < 256 ^ 8 := by decide
  have hsz : effectiveSize (some 168) 0 = 168 := rfl
  unfold Life.first
  simp only [hashBytesInput_ok, hsz, keyPrefix, encodeKey_iff hb, canonicalPack_iff hb, List.forall_mem_cons, length_beDigits, List.length_cons]
  constructor
  · rintro ⟨_, _, ⟨h1, rfl⟩, _, ⟨⟨h2, _, h3, h4, h5⟩, rfl⟩, rfl⟩
    exact ⟨h1, ⟨by omega, h3, h4, h5⟩, rfl⟩
  · rintro ⟨h1, ⟨h2, h3, h4, h5⟩, rfl⟩
    exact ⟨_, _, ⟨h1, rfl⟩, by decide, ⟨⟨by omega, by decide, h3, h4, h5⟩, rfl⟩, rfl⟩

theorem body_size (items : List Bytes) : (body items).length = (items.map fun i => i.length + 8).sum := by
  induction items with
  | nil => rfl
  | cons i is ih =>
    rw [body_cons, List.length_append, List.length_append, length_beDigits, ih, List.map_cons, List.sum_cons]
    omega

theorem padding_short {n : Nat} : (padding 168 0 n).length < 168 := by
  unfold padding ceilDiv
  rw [List.length_replicate]
  omega

theorem items_short (items : List Bytes) {n : Nat} (h : (items.map fun i => i.length + 8).sum < n) : items.length < n ∧ ∀ i ∈ items, i.length < n := by
  induction items generalizing n with
  | nil => exact ⟨by simpa using h, by simp⟩
  | cons i is ih =>
    rw [List.map_cons, List.sum_cons] at h
    obtain ⟨h1, h2⟩ := ih (n := n - (i.length + 8)) (by omega)
    refine ⟨by rw [List.length_cons]; omega, fun j hj => ?_⟩
    rcases List.mem_cons.1 hj with rfl | hj
    · omega
    · have := h2 j hj
      omega

/-- **C106** The negation: whatever the hash functions, for every key and domain there is another domain, and there are data for the two, so that the kdfs that are made of them are the same. Sizes
are below a petabyte. -/
theorem C106_long_domain (F : Functions) (salt kdfDomain key domain : Bytes) (data' : List Bytes) (updates : List (List Bytes)) (hkey : key ++ domain ≠ [])
    (hsize : kdfDomain.length + key.length + domain.length + (data'.map fun i => i.length + 8).sum < 2 ^ 50) :
    ∃ domain' data m, domain' ≠ domain ∧ Life.first ⟨key, domain, data, updates⟩ kdfDomain = .ok m ∧ Life.first ⟨key, domain', data', updates⟩ kdfDomain = .ok m ∧
      Life.state F salt kdfDomain ⟨key, domain, data, updates⟩ = Life.state F salt kdfDomain ⟨key, domain', data', updates⟩ := by
  let rest := domain ++ leDigits 8 (key ++ domain).length ++ leDigits 8 168 ++ [0] ++ padding 168 0 (rawKey 168 0 (key ++ domain)).length
  have hQ : keyed 168 0 (key ++ domain) = key ++ rest := by simp [keyed, rawKey, rest]
  let head : Nat → Bytes := fun n => beDigits 1 8 ++ beDigits 8 6 ++ body [beDigits 8 168, [0], beDigits 8 168, kdfDomain, domain] ++ beDigits 8 n
  have hhead : ∀ n, (head n).length = 74 + kdfDomain.length + domain.length := by
    intro n
    simp only [head, List.length_append, length_beDigits, body_size, List.map_cons, List.map_nil, List.sum_cons, List.sum_nil, List.length_cons, List.length_nil]
    omega
  have hun : ∀ x, unpadded 168 0 [beDigits 8 168, kdfDomain, domain, x] = head x.length ++ x := by
    intro x
    simp [unpadded, head, body]
  let dom : Nat → Bytes := fun n => rest ++ head n
  have hdom : ∀ n, (dom n).length = rest.length + (74 + kdfDomain.length + domain.length) := fun n => by simp only [dom, List.length_append, hhead]
  let tail : Nat → Bytes := fun n => leDigits 8 (key ++ dom n).length ++ leDigits 8 168 ++ [0] ++ padding 168 0 (rawKey 168 0 (key ++ dom n)).length ++
    packed 168 0 (beDigits 8 168 :: kdfDomain :: dom n :: data')
  have htail : ∀ n, (tail n).length = (tail 0).length := by
    intro n
    have e1 : (rawKey 168 0 (key ++ dom n)).length = (rawKey 168 0 (key ++ dom 0)).length := by
      simp only [rawKey, List.length_append, length_leDigits, hdom]
    have e2 := packed_length_congr (b := 168) (p := 0) (items := beDigits 8 168 :: kdfDomain :: dom n :: data') (items' := beDigits 8 168 :: kdfDomain :: dom 0 :: data') (by simp only [List.map_cons, hdom])
    simp only [tail, List.length_append, length_leDigits, e1, e2]
  have hall : ∀ n, keyed 168 0 (key ++ dom n) ++ packed 168 0 (beDigits 8 168 :: kdfDomain :: dom n :: data') = keyed 168 0 (key ++ domain) ++ (head n ++ tail n) := by
    intro n
    rw [hQ]
    simp [keyed, rawKey, tail, dom]
  obtain ⟨x, hx⟩ : ∃ x, x = tail (tail 0).length := ⟨_, rfl⟩
  have hxl : x.length = (tail 0).length := by rw [hx, htail]
  have hpad : packed 168 0 [beDigits 8 168, kdfDomain, domain, x] = head x.length ++ x := by
    have hmod : (head x.length ++ x).length % 168 = 0 := by
      have h1 := congrArg List.length (hall x.length)
      have h2 : (keyed 168 0 (key ++ dom x.length)).length % 168 = 0 := keyed_aligned (by decide)
      have h3 : (packed 168 0 (beDigits 8 168 :: kdfDomain :: dom x.length :: data')).length % 168 = 0 := by
        rw [packed, List.length_append]
        exact padding_length (by decide)
      have h4 : (keyed 168 0 (key ++ domain)).length % 168 = 0 := keyed_aligned (by decide)
      have h5 : tail x.length = x := by rw [hxl, hx]
      rw [h5] at h1
      rw [List.length_append, List.length_append] at h1
      omega
    rw [packed, hun, show (head x.length ++ x).length = (head x.length ++ x).length + 0 from rfl, padding_add (by decide) hmod]
    simp [padding, ceilDiv]
  have hrest : rest.length ≤ domain.length + 17 + 168 := by
    have := padding_short (n := (rawKey 168 0 (key ++ domain)).length)
    simp only [rest, List.length_append, length_leDigits, List.length_cons, List.length_nil]
    omega
  have hxs : x.length < 2 ^ 53 := by
    have p1 := padding_short (n := (rawKey 168 0 (key ++ dom 0)).length)
    have p2 := padding_short (n := (unpadded 168 0 (beDigits 8 168 :: kdfDomain :: dom 0 :: data')).length)
    have e : (unpadded 168 0 (beDigits 8 168 :: kdfDomain :: dom 0 :: data')).length = 66 + kdfDomain.length + (dom 0).length + (data'.map fun i => i.length + 8).sum := by
      simp only [unpadded, List.length_append, length_beDigits, body_size, List.map_cons, List.sum_cons, List.length_cons, List.length_nil]
      omega
    rw [hxl]
    simp only [tail, List.length_append, length_leDigits, List.length_cons, List.length_nil, packed]
    have := hdom 0
    omega
  obtain ⟨hd1, hd2⟩ := items_short data' (n := 2 ^ 50) (by omega)
  have hdl := hdom x.length
  have big : (256 : Nat) ^ 8 = 2 ^ 64 := by decide
  have f1 : Life.first ⟨key, domain, [x], updates⟩ kdfDomain = .ok (keyed 168 0 (key ++ domain) ++ (head x.length ++ x)) := by
    refine first_iff.2 ⟨⟨hkey, ?_⟩, ⟨by show 1 + 5 < 256 ^ 8; decide, ?_, ?_, ?_⟩, by rw [← hpad]⟩
    · show (key ++ domain).length < _
      rw [List.length_append, big]; omega
    · rw [big]; omega
    · show domain.length < _
      rw [big]; omega
    · intro i hi
      cases List.mem_singleton.1 hi
      rw [big]; omega
  have f2 : Life.first ⟨key, dom x.length, data', updates⟩ kdfDomain = .ok (keyed 168 0 (key ++ domain) ++ (head x.length ++ x)) := by
    refine first_iff.2 ⟨⟨?_, ?_⟩, ⟨?_, ?_, ?_, ?_⟩, ?_⟩
    · intro e
      have := congrArg List.length e
      rw [List.length_append] at this
      simp only [hdl, List.length_nil] at this
      omega
    · rw [List.length_append, big]
      simp only [hdl]
      omega
    · show data'.length + 5 < _
      rw [big]; omega
    · rw [big]; omega
    · show (dom x.length).length < _
      rw [big]; omega
    · intro i hi
      have := hd2 i hi
      rw [big]; omega
    · have h5 : tail x.length = x := by rw [hxl, hx]
      show _ = keyed 168 0 (key ++ dom x.length) ++ packed 168 0 (beDigits 8 168 :: kdfDomain :: dom x.length :: data')
      rw [hall, h5]
  refine ⟨dom x.length, [x], _, ?_, f1, f2, ?_⟩
  · intro e
    have := congrArg List.length e
    rw [hdl] at this
    have : domain.length ≤ rest.length := by
      simp only [rest, List.length_append]
      omega
    omega
  · rw [state_eq, state_eq, f1, f2]

theorem message_short {F : Functions} (hF : ∀ t x n, (F t x n).length = n) (p : Bytes) : ∃ m, Derivation.message F p ⟨.sha3_512, [], []⟩ = .ok m := by
  have hb : 0 < 72 ∧ 72 < 256 ^ 8 := by decide
  refine ⟨_, hashBytesInput_ok.2 ⟨_, _, (encodeKey_iff hb).2 ⟨⟨?_, ?_⟩, rfl⟩, by show 64 < 256 ^ 8; decide, (canonicalPack_iff hb).2 ⟨⟨by simp, by simp⟩, rfl⟩, rfl⟩⟩
  · intro e
    have := congrArg List.length e
    rw [hF] at this
    cases this
  · rw [hF]; decide

/-- **C106** is false of the code, whatever the hash functions: two kdfs with one key and different domains derive the same key, and what is hashed for the two is the same. -/
theorem C106_not_separate {F : Functions} (hF : ∀ t x n, (F t x n).length = n) (salt : Bytes) {kdfDomain : Bytes} (h : kdfDomain.length < 2 ^ 49) : ¬ DomainsSeparate F salt kdfDomain := by
  intro hs
  obtain ⟨domain', data, m, hne, hm, hm', he⟩ := C106_long_domain F salt kdfDomain [1] [] [] [] (by decide) (by simp only [List.length_cons, List.length_nil, List.map_nil, List.sum_nil]; omega)
  obtain ⟨p, hp⟩ : ∃ p, Life.state F salt kdfDomain ⟨[1], [], data, []⟩ = .ok p := ⟨_, state_ok.2 ⟨m, hm, rfl⟩⟩
  have hp' := he.symm.trans hp
  obtain ⟨q, hq⟩ := message_short hF p
  have d1 := derive_ok.2 ⟨p, hp, by decide, q, hq, rfl⟩
  have d2 := derive_ok.2 ⟨p, hp', by decide, q, hq, rfl⟩
  have blocks : ∀ l : Life, Life.first l kdfDomain = .ok m → l.state F salt kdfDomain = .ok p → ∀ {t n x}, Hashes F salt kdfDomain l ⟨.sha3_512, [], []⟩ t n x →
      (t, n, x) = (.shake_128, 168, m) ∨ (t, n, x) = (.shake_128, 72, p) ∨ (t, n, x) = (.sha3_512, 64, q) := by
    intro l e1 e2 t n x hx
    cases hx with
    | first e => cases e1.symm.trans e; exact .inl rfl
    | payload e => cases e2.symm.trans e; exact .inr (.inl rfl)
    | last e e' =>
      cases e2.symm.trans e
      cases hq.symm.trans e'
      exact .inr (.inr rfl)
  rcases hs _ _ _ _ _ d1 d2 rfl with ⟨e, _⟩ | ⟨t, n, x, y, hx, hy, hc, _⟩
  · injection e with _ e
    exact hne e.symm
  · apply hc
    rcases blocks _ hm hp hx with ex | ex | ex <;> rcases blocks _ hm' hp' hy with ey | ey | ey <;> cases ex <;> cases ey <;> rfl

/-! ### a case -/

/-- Two kdfs with one key and two short domains. -/
example (F : Functions) (hF : ∀ t x n, (F t x n).length = n) (salt : Bytes) : ∃ k k' : Bytes,
    derive F salt [9] ⟨[1, 2], [3], [[4]], [[[5], []]]⟩ ⟨.sha3_512, [], []⟩ = .ok k ∧ derive F salt [9] ⟨[1, 2], [3, 3], [[4]], [[[5], []]]⟩ ⟨.sha3_512, [], []⟩ = .ok k' := by
  have go : ∀ l : Life, l.updates = [[[5], []]] → (∃ m, l.first [9] = .ok m) → ∃ k, derive F salt [9] l ⟨.sha3_512, [], []⟩ = .ok k := by
    rintro l hl ⟨m, hm⟩
    obtain ⟨p, hp⟩ : ∃ p, absorbAll 168 (salt ++ F .shake_128 m 168) l.updates = .ok p := by
      rw [hl]
      have e : canonicalPack [[5], []] 168 [0] 8 = .ok (packed 168 0 [[5], []]) := (canonicalPack_iff (by decide)).2 ⟨by decide, rfl⟩
      simp only [absorbAll, absorbUpdate, e]
      exact ⟨_, rfl⟩
    obtain ⟨q, hq⟩ := message_short hF p
    exact ⟨_, derive_ok.2 ⟨p, state_ok.2 ⟨m, hm, hp⟩, by decide, q, hq, rfl⟩⟩
  obtain ⟨k, hk⟩ := go ⟨[1, 2], [3], [[4]], [[[5], []]]⟩ rfl ⟨_, first_iff.2 ⟨by decide, by decide, rfl⟩⟩
  obtain ⟨k', hk'⟩ := go ⟨[1, 2], [3, 3], [[4]], [[[5], []]]⟩ rfl ⟨_, first_iff.2 ⟨by decide, by decide, rfl⟩⟩
  exact ⟨k, k', hk, hk'⟩

end Aiootp.Kdf
