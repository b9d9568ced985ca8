import Verif.Spec.Passcrypt
import Verif.Lemmas.Passcrypt
import Verif.Props.Canon

/-!
Lemmas about the messages that passcrypt hashes.
-/

namespace Aiootp.Passcrypt

open Canon

/-! ### canonical encodings as functions -/

/-- Items with their lengths. -/
def body (items : List Bytes) : Bytes := items.flatMap (fun i => beDigits 8 i.length ++ i)

theorem body_cons (i : Bytes) (is : List Bytes) : body (i :: is) = beDigits 8 i.length ++ i ++ body is := by simp [body]

theorem encodeBody_iff {items : List Bytes} {e : Bytes} : encodeBody 8 items = .ok e ↔ (∀ i ∈ items, i.length < 256 ^ 8) ∧ e = body items := by
  induction items generalizing e with
  | nil =>
    simp only [encodeBody, body, List.not_mem_nil, false_implies, implies_true, true_and, List.flatMap_nil]
    constructor
    · intro h; injection h with h; exact h.symm
    · rintro rfl; rfl
  | cons i is ih =>
    rw [encodeBody_cons_ok]
    simp only [ih, body_cons, List.forall_mem_cons]
    constructor
    · rintro ⟨h1, _, ⟨h2, rfl⟩, rfl⟩; exact ⟨⟨h1, h2⟩, rfl⟩
    · rintro ⟨⟨h1, h2⟩, rfl⟩; exact ⟨h1, _, ⟨h2, rfl⟩, rfl⟩

/-- The padding to whole blocks. -/
def padding (b : Nat) (p : UInt8) (n : Nat) : Bytes := List.replicate (b * ceilDiv n b - n) p

/-- A packed encoding without its padding. -/
def unpadded (b : Nat) (p : UInt8) (items : List Bytes) : Bytes :=
  beDigits 1 8 ++ beDigits 8 (items.length + 2) ++ body (beDigits 8 b :: [p] :: items)

/-- What `canonical_pack` returns. -/
def packed (b : Nat) (p : UInt8) (items : List Bytes) : Bytes := unpadded b p items ++ padding b p (unpadded b p items).length

theorem canonicalPack_iff {items : List Bytes} {b : Nat} {p : UInt8} {x : Bytes} (hb : 0 < b ∧ b < 256 ^ 8) :
    canonicalPack items b [p] 8 = .ok x ↔ (items.length + 2 < 256 ^ 8 ∧ ∀ i ∈ items, i.length < 256 ^ 8) ∧ x = packed b p items := by
  rw [canonicalPack_ok]
  simp only [encodeItems_ok, encodeBody_iff, List.forall_mem_cons, List.length_cons]
  constructor
  · rintro ⟨_, _, q, e, hq, ⟨_, h2, bd, ⟨⟨_, _, h3⟩, rfl⟩, rfl⟩, rfl⟩
    injection hq with hq
    subst hq
    exact ⟨⟨h2, h3⟩, rfl⟩
  · rintro ⟨⟨h2, h3⟩, rfl⟩
    exact ⟨hb.2, hb.1, p, _, rfl, ⟨by decide, h2, _, ⟨⟨by simp, by simp, h3⟩, rfl⟩, rfl⟩, rfl⟩

/-- An encoded key without its padding. -/
def rawKey (b : Nat) (p : UInt8) (key : Bytes) : Bytes := key ++ leDigits 8 key.length ++ leDigits 8 b ++ [p]

/-- What `encode_key` returns. -/
def keyed (b : Nat) (p : UInt8) (key : Bytes) : Bytes := rawKey b p key ++ padding b p (rawKey b p key).length

theorem encodeKey_iff {key : Bytes} {b : Nat} {p : UInt8} {x : Bytes} (hb : 0 < b ∧ b < 256 ^ 8) :
    encodeKey key b [p] = .ok x ↔ (key ≠ [] ∧ key.length < 256 ^ 8) ∧ x = keyed b p key := by
  cases key with
  | nil =>
    constructor
    · intro h; cases h
    · rintro ⟨⟨h, _⟩, _⟩; exact absurd rfl h
  | cons k ks =>
    rw [encodeKey]
    simp only [List.isEmpty_cons, Bool.false_eq_true, if_false, bind_eq_ok, toBytesLE_ok, fullblockLjust_ok]
    constructor
    · rintro ⟨_, ⟨h1, rfl⟩, _, ⟨h2, rfl⟩, _, q, hq, rfl⟩
      injection hq with hq
      subst hq
      exact ⟨⟨by simp, h1⟩, rfl⟩
    · rintro ⟨⟨_, h1⟩, rfl⟩
      exact ⟨_, ⟨h1, rfl⟩, _, ⟨hb.2, rfl⟩, hb.1, p, rfl, rfl⟩

theorem padding_length {b n : Nat} {p : UInt8} (hb : 0 < b) : (n + (padding b p n).length) % b = 0 := by
  have h := (ceilDiv_le_iff (a := n) (b := b) hb).1 (Nat.le_refl _)
  rw [padding, List.length_replicate, Nat.mul_comm b, Nat.add_sub_cancel' h]
  exact Nat.mul_mod_left _ _

/-- Only the length modulo the block size matters. -/
theorem padding_add {b n m : Nat} {p : UInt8} (hb : 0 < b) (hm : m % b = 0) : padding b p (m + n) = padding b p n := by
  obtain ⟨k, rfl⟩ : ∃ k, m = k * b := ⟨m / b, by rw [Nat.div_mul_cancel (Nat.dvd_of_mod_eq_zero hm)]⟩
  unfold padding
  have : ceilDiv (k * b + n) b = k + ceilDiv n b := by
    unfold ceilDiv
    rw [Nat.add_assoc, Nat.add_sub_assoc (by omega), Nat.add_comm (k * b), Nat.add_mul_div_right _ _ hb, Nat.add_comm k]
  rw [this]
  congr 1
  rw [Nat.mul_add, Nat.mul_comm b k]
  omega

theorem keyed_aligned {b : Nat} {p : UInt8} {key : Bytes} (hb : 0 < b) : (keyed b p key).length % b = 0 := by
  rw [keyed, List.length_append]; exact padding_length hb

/-- Encoded keys of one size are different for different keys, unless the padding looks like the block size. -/
theorem keyed_inj {p : UInt8} (hp : p ≠ 168) {key key' : Bytes} (h : keyed 168 p key = keyed 168 p key') : key = key' := by
  have hle : ∀ key key' : Bytes, keyed 168 p key = keyed 168 p key' → ¬ key.length < key'.length := by
    intro key key' h hlt
    have form : ∀ k : Bytes, ∃ n, keyed 168 p k = (k ++ leDigits 8 k.length) ++ (168 :: (List.replicate 7 0 ++ List.replicate n p)) := by
      intro k
      refine ⟨1 + (168 * ceilDiv (rawKey 168 p k).length 168 - (rawKey 168 p k).length), ?_⟩
      have e : leDigits 8 168 = 168 :: List.replicate 7 0 := by decide
      rw [List.replicate_add]
      simp [keyed, padding, rawKey, e]
    obtain ⟨n, hn⟩ := form key
    obtain ⟨m, hm⟩ := form key'
    have e1 : (keyed 168 p key')[key'.length + 8]? = some 168 := by
      rw [hm, List.getElem?_append_right (by simp)]
      simp
    have hd : ∃ d, key'.length = key.length + d + 1 := ⟨key'.length - key.length - 1, by omega⟩
    obtain ⟨d, hd⟩ := hd
    rw [← h, hn, List.getElem?_append_right (by simp; omega)] at e1
    have e2 : key'.length + 8 - (key ++ leDigits 8 key.length).length = d + 1 := by simp; omega
    rw [e2, List.getElem?_cons_succ] at e1
    have := List.mem_of_getElem? e1
    simp only [List.mem_append, List.mem_replicate] at this
    rcases this with ⟨_, h⟩ | ⟨_, h⟩
    · exact absurd h (by decide)
    · exact hp h.symm
  have hlen : key.length = key'.length := by
    have h1 := hle _ _ h
    have h2 := hle _ _ h.symm
    omega
  simp only [keyed, rawKey, List.append_assoc] at h
  exact (List.append_inj h hlen).1

/-! ### the message of a session -/

/-- The message with the parameters of a session. -/
def sessionMessage (E : Env) (M : Bytes) (s : Session) : Bytes :=
  keyed 168 0xf2 (s.passphrase ++ s.salt ++ s.aad) ++
    packed 168 0xf2 [beDigits 8 336, E.domain, M, s.salt, s.aad, beDigits 8 s.mb, beDigits 8 s.cpu, beDigits 8 s.cores, beDigits 8 s.tagSize]

/-- The sizes that can be encoded. -/
structure Fits (E : Env) (M : Bytes) (s : Session) : Prop where
  passphrase : s.passphrase ++ s.salt ++ s.aad ≠ []
  key : (s.passphrase ++ s.salt ++ s.aad).length < 256 ^ 8
  domain : E.domain.length < 256 ^ 8
  metadata : M.length < 256 ^ 8
  mb : s.mb < 256 ^ 8
  cpu : s.cpu < 256 ^ 8
  cores : s.cores < 256 ^ 8
  tagSize : s.tagSize < 256 ^ 8

theorem parametersMessage_iff {E : Env} {M : Bytes} {s : Session} {x : Bytes} :
    parametersMessage E (spec M) s = .ok x ↔ Fits E M s ∧ x = sessionMessage E M s := by
  have hb : 0 < 168 ∧ 168 < 256 ^ 8 := by decide
  have hsz : effectiveSize (some 336) 0 = 336 := rfl
  simp only [parametersMessage, bind_eq_ok, toBytesBE_ok, hashBytesInput_ok, keyPrefix, hsz]
  show (∃ a, (s.mb < 256 ^ 8 ∧ a = _) ∧ ∃ a, (s.cpu < 256 ^ 8 ∧ a = _) ∧ ∃ a, (s.cores < 256 ^ 8 ∧ a = _) ∧ ∃ a, (s.tagSize < 256 ^ 8 ∧ a = _) ∧
    ∃ pre packed, encodeKey _ 168 [0xf2] = .ok pre ∧ _ ∧ canonicalPack _ 168 [0xf2] 8 = .ok packed ∧ _) ↔ _
  simp only [encodeKey_iff hb, canonicalPack_iff hb]
  constructor
  · rintro ⟨_, ⟨h1, rfl⟩, _, ⟨h2, rfl⟩, _, ⟨h3, rfl⟩, _, ⟨h4, rfl⟩, _, _, ⟨⟨h5, h6⟩, rfl⟩, _, ⟨⟨_, h7⟩, rfl⟩, rfl⟩
    exact ⟨⟨h5, h6, h7 _ (by simp), h7 _ (by simp [spec]), h1, h2, h3, h4⟩, rfl⟩
  · rintro ⟨⟨h5, h6, h7, h8, h1, h2, h3, h4⟩, rfl⟩
    refine ⟨_, ⟨h1, rfl⟩, _, ⟨h2, rfl⟩, _, ⟨h3, rfl⟩, _, ⟨h4, rfl⟩, _, _, ⟨⟨h5, h6⟩, rfl⟩, by decide, ⟨⟨by simp, ?_⟩, rfl⟩, rfl⟩
    have h6' := h6
    simp only [List.length_append] at h6'
    intro i hi
    simp only [List.mem_cons, List.not_mem_nil, or_false] at hi
    rcases hi with rfl | rfl | rfl | rfl | rfl | rfl | rfl | rfl | rfl
    · simp
    · exact h7
    · exact h8
    · omega
    · omega
    · simp
    · simp
    · simp
    · simp

/-- With one aad, messages of different passphrases are different. -/
theorem sessionMessage_passphrase {E : Env} {M : Bytes} {s : Session} {p' : Bytes} (h : sessionMessage E M s = sessionMessage E M { s with passphrase := p' }) :
    s.passphrase = p' := by
  have h1 : keyed 168 0xf2 (s.passphrase ++ s.salt ++ s.aad) = keyed 168 0xf2 (p' ++ s.salt ++ s.aad) := List.append_cancel_right h
  have h2 := keyed_inj (by decide) h1
  exact List.append_cancel_right (List.append_cancel_right h2)

/-- With passphrases of one length, messages of different passphrases and aads are different. -/
theorem sessionMessage_aad {E : Env} {M : Bytes} {s : Session} {p' : Bytes} {items items' : List Bytes} {a' : Bytes}
    (h1 : canonicalPack items 1 [0] 8 = .ok s.aad) (h2 : canonicalPack items' 1 [0] 8 = .ok a') (hl : s.passphrase.length = p'.length)
    (h : sessionMessage E M s = sessionMessage E M { s with passphrase := p', aad := a' }) : s.passphrase = p' ∧ items = items' := by
  simp only [sessionMessage, keyed, rawKey, List.append_assoc] at h
  obtain ⟨e1, h⟩ := List.append_inj h hl
  have h := List.append_cancel_left h
  exact ⟨e1, (C04_prefix_free h1 h2 h).1⟩

/-! ### the hash object of the walk -/

theorem allocate_absorbed (E : Env) (m : Nat) (hm : maxDigest = m) (k : Nat) : ∀ (size : Nat) (p : Proof), size ≤ k →
    p.absorbed <+: (allocate E p size).absorbed := by
  have e1 : ∀ (p : Proof) (size : Nat), size > maxDigest → allocate E p size = allocate E { p with
      ram := p.ram ++ E.xof.digest p.absorbed maxDigest
      absorbed := p.absorbed ++ lastBlock (p.ram ++ E.xof.digest p.absorbed maxDigest) } (size - maxDigest) := by
    intro p size h; rw [allocate, if_pos h]
  have e2 : ∀ (p : Proof) (size : Nat), ¬ size > maxDigest → size ≠ 0 → allocate E p size = { p with
      ram := p.ram ++ E.xof.digest p.absorbed size
      absorbed := p.absorbed ++ lastBlock (p.ram ++ E.xof.digest p.absorbed size) } := by
    intro p size h h0; rw [allocate, if_neg h, if_neg h0]
  have e0 : ∀ (p : Proof), allocate E p 0 = p := by
    intro p; rw [allocate, if_neg (Nat.not_lt_zero _), if_pos rfl]
  have hpos : 0 < maxDigest := by decide
  rw [hm] at hpos
  simp only [hm] at e1 e2
  clear hm
  induction k with
  | zero =>
    intro size p h
    have : size = 0 := Nat.le_zero.1 h
    subst this
    rw [e0]
    exact List.prefix_refl _
  | succ k ih =>
    intro size p h
    by_cases hm : size > m
    · rw [e1 p size hm]
      refine List.IsPrefix.trans ?_ (ih (size - m) _ (by omega))
      exact List.prefix_append _ _
    · by_cases h0 : size = 0
      · subst h0
        rw [e0]
        exact List.prefix_refl _
      · rw [e2 p size hm h0]
        exact List.prefix_append _ _

theorem foldl_absorbed {α : Type} {f : Proof → α → Proof} (hf : ∀ p a, p.absorbed <+: (f p a).absorbed) (l : List α) (p : Proof) :
    p.absorbed <+: (l.foldl f p).absorbed := by
  induction l generalizing p with
  | nil => exact List.prefix_refl _
  | cons a l ih => exact (hf p a).trans (ih (f p a))

theorem walkStep_absorbed (X : Xof) (rowSize column : Nat) (p : Proof) (row : Nat) : p.absorbed <+: (walkStep X rowSize column p row).absorbed := by
  refine List.IsPrefix.trans ?_ (List.prefix_append _ _)
  exact List.prefix_append _ _

theorem prover_absorbed {X : Xof} {cpu rowSize total : Nat} {p q : Proof} (h : workMemoryProver X cpu rowSize total p = .ok q) :
    p.absorbed <+: q.absorbed := by
  simp only [workMemoryProver, bind_eq_ok] at h
  obtain ⟨_, _, h⟩ := h
  injection h with h
  rw [← h]
  refine List.IsPrefix.trans ?_ (foldl_absorbed (fun p i => ?_) _ _)
  · exact foldl_absorbed (fun p c => foldl_absorbed (fun p r => walkStep_absorbed X rowSize c p r) _ p) _ _
  · exact List.prefix_append _ _

/-- Sessions with the same result have the same message, or what they hash is a collision. -/
theorem passcrypt_same {E : Env} {M : Bytes} {s s' : Session} {r : Bytes} (h : passcrypt E (spec M) s = .ok r) (h' : passcrypt E (spec M) s' = .ok r) :
    sessionMessage E M s = sessionMessage E M s' ∨ CollideIn E.xof (SessionHashes E (spec M) s) (SessionHashes E (spec M) s') := by
  have get : ∀ (s : Session), passcrypt E (spec M) s = .ok r → ∃ m t, m = sessionMessage E M s ∧ r = E.xof.digest (E.proofSalt ++ E.xof.digest m 336 ++ t) 168 ∧
      SessionHashes E (spec M) s 336 m ∧ SessionHashes E (spec M) s 168 (E.proofSalt ++ E.xof.digest m 336 ++ t) := by
    intro s h
    simp only [passcrypt, prepare, bind_eq_ok] at h
    obtain ⟨p, ⟨m, hm, hp⟩, q, hq, hr⟩ := h
    have hpre : prepare E (spec M) s = .ok p := by rw [prepare, bind_eq_ok]; exact ⟨m, hm, hp⟩
    injection hp with hp
    injection hr with hr
    have h1 := allocate_absorbed E maxDigest rfl (totalSize (spec M) s.mb s.cpu) (totalSize (spec M) s.mb s.cpu) ⟨[], E.proofSalt ++ E.xof.digest m 336, []⟩ (Nat.le_refl _)
    rw [hp] at h1
    obtain ⟨t, ht⟩ := h1.trans (prover_absorbed hq)
    exact ⟨m, t, (parametersMessage_iff.1 hm).2, by rw [← hr, ← ht], .parameters hm, by rw [ht]; exact .result hpre hq⟩
  obtain ⟨m, t, hm, hr, a1, a2⟩ := get s h
  obtain ⟨m', t', hm', hr', b1, b2⟩ := get s' h'
  by_cases e : E.proofSalt ++ E.xof.digest m 336 ++ t = E.proofSalt ++ E.xof.digest m' 336 ++ t'
  · simp only [List.append_assoc] at e
    have e := List.append_cancel_left e
    have e := (List.append_inj e (by rw [E.xof.length_digest, E.xof.length_digest])).1
    by_cases em : m = m'
    · left; rw [← hm, ← hm', em]
    · exact .inr ⟨336, m, m', a1, b1, em, e⟩
  · exact .inr ⟨168, _, _, a2, b2, e, hr.symm.trans hr'⟩

end Aiootp.Passcrypt
