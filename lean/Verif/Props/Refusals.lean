import Verif.Spec.Refusals
import Verif.Props.Token
import Verif.Props.Ids
import Verif.Props.Text
import Verif.Props.Canon
import Verif.Props.PasscryptVerify
import Verif.Props.Package

/-!
C90: how input from outside is refused.
-/

namespace Aiootp.Refusals

/-! ### ciphertexts and tokens -/

section
open Cipher

/-- What `bytes_decrypt` can end with: the plaintext, or one of three exceptions. `InvalidCiphertextSize` depends only on the size of the input,
and `TimestampExpired` is raised only if a time to live was given; its argument is the positive excess. -/
def DecryptEnds {κ : Type} (C : Cipher κ) (key saltDraw : Bytes) (now : Int) (ttl : Option Int) (aad data : Bytes) : Prop :=
  (C.bytesDecrypt key saltDraw now ttl aad data = .error .ciphertextSize ↔
    ¬ (C.cfg.shmacBytes + C.cfg.saltBytes + C.cfg.ivBytes < data.length ∧
      C.cfg.blocksize ∣ data.length - (C.cfg.shmacBytes + C.cfg.saltBytes + C.cfg.ivBytes))) ∧
  ∀ e, C.bytesDecrypt key saltDraw now ttl aad data = .error e → e = .ciphertextSize ∨ e = .invalidSHMAC ∨
    ∃ t x, ttl = some t ∧ 0 < x ∧ e = .timestampExpired x

theorem depad_ends {c : Sizes} {now : Int} {ttl : Option Int} {data : Bytes} {e : Err} (h : c.depadPlaintext now ttl data = .error e) :
    ∃ t x, ttl = some t ∧ 0 < x ∧ e = .timestampExpired x := by
  cases ttl with
  | none => simp [Sizes.depadPlaintext, Clock.testTimestamp, bind, Except.bind, pure, Except.pure] at h
  | some t =>
    simp only [Sizes.depadPlaintext, Clock.testTimestamp, bind, Except.bind] at h
    split at h
    · rename_i h1
      split at h1
      · injection h1 with h1
        injection h with h
        exact ⟨t, Clock.delta now (c.timestampSlice.of data) .big - t, rfl, by omega, by rw [← h, ← h1]⟩
      · cases h1
    · cases h

theorem decrypt_ends {κ : Type} {C : Cipher κ} (hacc : Accepted C.cfg) {key saltDraw aad data : Bytes} (h : TagChecked C key saltDraw aad data) (now : Int)
    (ttl : Option Int) : DecryptEnds C key saltDraw now ttl aad data := by
  obtain ⟨h1, h2⟩ := h
  cases hp : Ciphertext.parse C.cfg data with
  | error e =>
    have hd := h1 e hp now ttl
    refine ⟨⟨fun _ hs => ?_, fun _ => hd⟩, fun e' he => ?_⟩
    · obtain ⟨parts, h⟩ := (C25_accepts_exactly hacc data).2 hs
      rw [hp] at h; cases h
    · rw [hd] at he; injection he with he; exact .inl he.symm
  | ok parts =>
    have hs := (C25_accepts_exactly hacc data).1 ⟨parts, hp⟩
    obtain ⟨padded, hashed, _, hr⟩ := h2 parts hp
    obtain ⟨hne, heq⟩ := hr now ttl
    by_cases ht : parts.shmac = Shmac.tagOf C.toEnv hashed
    · rw [DecryptEnds, heq ht]
      refine ⟨⟨fun hb => ?_, fun hn => absurd hs hn⟩, fun e he => .inr (.inr (depad_ends he))⟩
      obtain ⟨_, _, _, _, h⟩ := depad_ends hb
      cases h
    · rw [DecryptEnds, hne ht]
      refine ⟨⟨fun hb => (by cases hb), fun hn => absurd hs hn⟩, fun e he => ?_⟩
      injection he with he
      exact .inr (.inl he.symm)

/-- **C90** Whatever bytes are given to `bytes_decrypt` of a shake-permute cipher. -/
theorem C90_permute_decrypt {E : Env} (h : PermuteSetup E) (key : Bytes) (hk : 64 ≤ key.length) (hk2 : key.length < 256 ^ 8) (saltDraw : Bytes)
    (hdraw : saltDraw.length = E.cfg.saltBytes) (aad : Bytes) (ha : aad.length < 256 ^ 4) (now : Int) (ttl : Option Int) (data : Bytes) :
    DecryptEnds (permuteCipher E) key saltDraw now ttl aad data :=
  decrypt_ends h.usable.accepted (C23_permute h key hk hk2 saltDraw hdraw aad ha data) now ttl

/-- **C90** Whatever bytes are given to `bytes_decrypt` of a dual-output cipher. -/
theorem C90_dual_decrypt {E : DualEnv} (h : DualSetup E) (key : Bytes) (hk : 64 ≤ key.length) (hk2 : key.length < 256 ^ 8) (saltDraw : Bytes)
    (hdraw : saltDraw.length = E.cfg.saltBytes) (aad : Bytes) (ha : aad.length < 256 ^ 4) (now : Int) (ttl : Option Int) (data : Bytes) :
    DecryptEnds (dualCipher E) key saltDraw now ttl aad data :=
  decrypt_ends h.usable.accepted (C23_dual h key hk hk2 saltDraw hdraw aad ha data) now ttl

end

/-! ### texts -/

section
open Text

theorem a2b_error : ∀ (cs : Bytes) (q l p : Nat) (e : Err), a2b q l p cs = .error e → e = .value
  | [], q, l, p, e, h => by
    simp only [a2b] at h
    split at h
    · injection h with h; exact h.symm
    · cases h
  | c :: cs, q, l, p, e, h => by
    simp only [a2b] at h
    split at h
    · split at h
      · split at h
        · cases h
        · exact a2b_error cs _ _ _ e h
      · exact a2b_error cs _ _ _ e h
    · split at h
      · exact a2b_error cs _ _ _ e h
      · split at h
        · exact a2b_error cs _ _ _ e h
        all_goals
          rcases Canon.bind_error h with h | ⟨_, _, h⟩
          · exact a2b_error cs _ _ _ e h
          · cases h

theorem b64Value_isSome (c : UInt8) : (b64Value c).isSome = true ↔ IsB64 c := by
  unfold b64Value IsB64
  simp only
  split
  · simp_all
  · split
    · simp_all
    · split
      · simp_all
      · split
        · rename_i h; simp; omega
        · split
          · rename_i h; simp; omega
          · simp only [Option.isSome_none, Bool.false_eq_true, false_iff]; omega

theorem a2b_signs (f q l : Nat) (hf : f < 4) (hq : q < 4) :
    (∃ out, a2b q l 0 (List.replicate f 61) = .ok out) ↔ q = 0 ∨ (q = 2 ∧ 2 ≤ f) ∨ (q = 3 ∧ 1 ≤ f) := by
  obtain rfl | rfl | rfl | rfl : f = 0 ∨ f = 1 ∨ f = 2 ∨ f = 3 := by omega
  all_goals
    obtain rfl | rfl | rfl | rfl : q = 0 ∨ q = 1 ∨ q = 2 ∨ q = 3 := by omega
    all_goals simp [a2b, List.replicate]

theorem ok_bind_iff {α β : Type} {x : Except Err α} {g : α → β} : (∃ out, (do let r ← x; .ok (g r) : Except Err β) = .ok out) ↔ ∃ out, x = .ok out := by
  cases x with
  | error e => simp [bind, Except.bind]
  | ok a => simp [bind, Except.bind]

theorem a2b_accepts : ∀ (text : Bytes) (f q l : Nat), f < 4 → q < 4 → 61 ∉ text →
    ((∃ out, a2b q l 0 (text ++ List.replicate f 61) = .ok out) ↔
      let k := (q + (text.filter fun c => decide (IsB64 c)).length) % 4
      k = 0 ∨ (k = 2 ∧ 2 ≤ f) ∨ (k = 3 ∧ 1 ≤ f))
  | [], f, q, l, hf, hq, _ => by
    simp only [List.nil_append, List.filter_nil, List.length_nil, Nat.add_zero, Nat.mod_eq_of_lt hq]
    exact a2b_signs f q l hf hq
  | c :: cs, f, q, l, hf, hq, hn => by
    have hc : c ≠ 61 := fun h => hn (by simp [h])
    have hcs : 61 ∉ cs := fun h => hn (by simp [h])
    rw [List.cons_append]
    simp only [a2b, if_neg hc]
    cases hv : b64Value c with
    | none =>
      have : ¬ IsB64 c := fun h => by rw [← b64Value_isSome, hv] at h; cases h
      simp only [List.filter_cons, decide_eq_true_eq, if_neg this]
      exact a2b_accepts cs f q l hf hq hcs
    | some v =>
      have hb : IsB64 c := by rw [← b64Value_isSome, hv]; rfl
      simp only [List.filter_cons, decide_eq_true_eq, if_pos hb, List.length_cons]
      obtain rfl | rfl | rfl | rfl : q = 0 ∨ q = 1 ∨ q = 2 ∨ q = 3 := by omega
      · show (∃ out, a2b 1 v 0 (cs ++ List.replicate f 61) = .ok out) ↔ _
        rw [a2b_accepts cs f 1 v hf (by omega) hcs]
        rw [show 0 + (((cs.filter fun c => decide (IsB64 c)).length) + 1) = 1 + (cs.filter fun c => decide (IsB64 c)).length by omega]
      · simp only [ok_bind_iff]
        rw [a2b_accepts cs f 2 _ hf (by omega) hcs]
        rw [show 1 + (((cs.filter fun c => decide (IsB64 c)).length) + 1) = 2 + (cs.filter fun c => decide (IsB64 c)).length by omega]
      · simp only [ok_bind_iff]
        rw [a2b_accepts cs f 3 _ hf (by omega) hcs]
        rw [show 2 + (((cs.filter fun c => decide (IsB64 c)).length) + 1) = 3 + (cs.filter fun c => decide (IsB64 c)).length by omega]
      · simp only [ok_bind_iff]
        rw [a2b_accepts cs f 0 _ hf (by omega) hcs]
        rw [show (3 + (((cs.filter fun c => decide (IsB64 c)).length) + 1)) % 4 = (0 + (cs.filter fun c => decide (IsB64 c)).length) % 4 by omega]

theorem urlsafe_padded (text : Bytes) : urlsafeToBytes text = a2b 0 0 0 (text ++ List.replicate (fill text) 61) := by
  have : 4 * ceilDiv text.length 4 - text.length = fill text := by
    simp only [ceilDiv, fill]; omega
  simp only [urlsafeToBytes, Canon.fullblockLjust, Canon.ljust, bind, Except.bind, this]
  simp

theorem not_b64_sign {c : UInt8} (h : IsB64 c) : c ≠ 61 := by
  rintro rfl
  exact absurd h (by decide)

theorem letters_append (a b : Bytes) : letters (a ++ b) = letters a + letters b := by
  simp [letters]

theorem letters_sign : letters [61] = 0 := by decide

theorem letters_one {c : UInt8} (h : IsB64 c) : letters [c] = 1 := by
  simp [letters, h]

theorem last_ne {before : Bytes} {pre : Bytes} {c : UInt8} (hc : c ≠ 61) : pre ++ [c] ≠ before ++ [61] := fun h =>
  hc (List.cons.inj (List.append_inj' h rfl).2).1

/-- No piece up to here ends with a last group. -/
def Open (pre : Bytes) : Prop := ∀ piece, piece <+: pre → ¬ LastGroup piece

theorem Open.snoc {pre : Bytes} {c : UInt8} (h : Open pre) (hl : ¬ LastGroup (pre ++ [c])) : Open (pre ++ [c]) := by
  intro piece hp
  rcases List.prefix_concat_iff.1 hp with rfl | hp
  · exact hl
  · exact h piece hp

theorem Open.letter {pre : Bytes} {c : UInt8} (h : Open pre) (hc : c ≠ 61) : Open (pre ++ [c]) := by
  refine h.snoc ?_
  rintro (⟨b, hb, _⟩ | ⟨b, hb, _⟩)
  · exact last_ne (before := b ++ [61]) hc (by simpa using hb)
  · exact last_ne hc hb

theorem a2b_exact : ∀ (cs pre : Bytes) (q l p : Nat), q = letters pre % 4 → Open pre → (p = 0 ∨ p = 1) → (p = 1 → q = 2 ∧ ∃ b, pre = b ++ [61]) →
    (p = 0 → q = 2 → ∀ b, pre ≠ b ++ [61]) →
    ((∃ out, a2b q l p cs = .ok out) ↔
      (∃ piece, piece <+: pre ++ cs.filter (fun c => decide (IsB64 c ∨ c = 61)) ∧ LastGroup piece) ∨
        letters (pre ++ cs.filter (fun c => decide (IsB64 c ∨ c = 61))) % 4 = 0)
  | [], pre, q, l, p, hq, ho, hp, h1, h0 => by
    simp only [a2b, List.filter_nil, List.append_nil, ← hq]
    constructor
    · rintro ⟨out, h⟩
      split at h
      · cases h
      · right; omega
    · rintro (⟨piece, hpre, hl⟩ | h)
      · exact absurd hl (ho piece hpre)
      · rw [if_neg (by omega)]; exact ⟨_, rfl⟩
  | c :: cs, pre, q, l, p, hq, ho, hp, h1, h0 => by
    by_cases hc : c = 61
    · subst hc
      have hf : (61 :: cs).filter (fun c => decide (IsB64 c ∨ c = 61)) = [61] ++ cs.filter (fun c => decide (IsB64 c ∨ c = 61)) := by
        rw [List.filter_cons, if_pos (by simp)]; rfl
      have hq' : q = letters (pre ++ [61]) % 4 := by rw [letters_append, letters_sign, hq]; rfl
      rw [hf, ← List.append_assoc]
      simp only [a2b, if_true]
      by_cases hq2 : q ≥ 2
      · simp only [if_pos hq2]
        by_cases hg : q + (p + 1) ≥ 4
        · simp only [if_pos hg]
          refine iff_of_true ⟨_, rfl⟩ (.inl ⟨pre ++ [61], List.prefix_append _ _, ?_⟩)
          rcases hp with rfl | rfl
          · exact .inr ⟨pre, rfl, by rw [← hq']; omega⟩
          · obtain ⟨hq3, b, hb⟩ := h1 rfl
            exact .inl ⟨b, by rw [hb]; simp, by rw [← hq']; omega⟩
        · simp only [if_neg hg]
          have hp0 : p = 0 := by omega
          subst hp0
          have hq3 : q = 2 := by omega
          refine a2b_exact cs (pre ++ [61]) q l 1 hq' (ho.snoc ?_) (.inr rfl) (fun _ => ⟨hq3, pre, rfl⟩) (fun h => by cases h)
          rintro (⟨b, hb, _⟩ | ⟨b, _, hb⟩)
          · have : pre ++ [61] = (b ++ [61]) ++ [61] := by simpa using hb
            exact h0 rfl hq3 b (List.append_inj' this rfl).1
          · omega
      · simp only [if_neg hq2]
        have hp0 : p = 0 := by
          rcases hp with h | h
          · exact h
          · have := (h1 h).1; omega
        refine a2b_exact cs (pre ++ [61]) q l p hq' (ho.snoc ?_) hp (fun h => by omega) (fun _ h => by omega)
        rintro (⟨b, _, hb⟩ | ⟨b, _, hb⟩) <;> omega
    · cases hv : b64Value c with
      | none =>
        have hb : ¬ IsB64 c := fun h => by rw [← b64Value_isSome, hv] at h; cases h
        rw [List.filter_cons, if_neg (by simp [hb, hc])]
        simp only [a2b, if_neg hc, hv]
        exact a2b_exact cs pre q l p hq ho hp h1 h0
      | some v =>
        have hb : IsB64 c := by rw [← b64Value_isSome, hv]; rfl
        have hf : (c :: cs).filter (fun c => decide (IsB64 c ∨ c = 61)) = [c] ++ cs.filter (fun c => decide (IsB64 c ∨ c = 61)) := by
          rw [List.filter_cons, if_pos (by simp [hb])]; rfl
        have hl : letters (pre ++ [c]) = letters pre + 1 := by rw [letters_append, letters_one hb]
        rw [hf, ← List.append_assoc]
        have step : ∀ q' l', q' = letters (pre ++ [c]) % 4 → _ := fun q' l' hq' =>
          a2b_exact cs (pre ++ [c]) q' l' 0 hq' (ho.letter hc) (.inl rfl) (fun h => by cases h) (fun _ _ b => last_ne hc)
        simp only [a2b, if_neg hc, hv]
        have hlt : q < 4 := by omega
        obtain rfl | rfl | rfl | rfl : q = 0 ∨ q = 1 ∨ q = 2 ∨ q = 3 := by omega
        · exact step 1 v (by omega)
        · simp only [ok_bind_iff]
          exact step 2 _ (by omega)
        · simp only [ok_bind_iff]
          exact step 3 _ (by omega)
        · simp only [ok_bind_iff]
          exact step 0 _ (by omega)

theorem letters_said (text : Bytes) : letters (said text) = letters text := by
  have : ∀ n, (List.replicate n (61 : UInt8)).filter (fun c => decide (IsB64 c)) = [] := fun n => by
    rw [List.filter_eq_nil_iff]
    intro a ha
    rw [List.eq_of_mem_replicate ha]
    decide
  unfold said letters
  rw [List.filter_filter]
  rw [List.filter_congr (q := fun c => decide (IsB64 c)) (fun c _ => by by_cases h : IsB64 c <;> simp [h])]
  rw [List.filter_append, this, List.append_nil]

/-- **C90** `urlsafe_to_bytes` refuses nothing but with `ValueError`, and a text exactly if what it says does not make complete groups; for a text without `=`
that is to say, exactly if its characters do not. -/
theorem C90_urlsafe (text : Bytes) :
    (∀ e, urlsafeToBytes text = .error e → e = .value) ∧
    ((∃ out, urlsafeToBytes text = .ok out) ↔ Complete text) ∧
    (61 ∉ text → (Complete text ↔ Decodable text)) := by
  have hx : (∃ out, urlsafeToBytes text = .ok out) ↔ Complete text := by
    rw [urlsafe_padded, a2b_exact _ [] 0 0 0 rfl ?_ (.inl rfl) (fun h => by cases h) (fun _ h => by cases h)]
    · rw [List.nil_append, Complete, ← letters_said text]
      exact Iff.rfl
    · intro piece hp hl
      rw [List.prefix_nil] at hp
      subst hp
      rcases hl with ⟨b, hb, _⟩ | ⟨b, hb, _⟩ <;> simp at hb
  refine ⟨fun e h => a2b_error _ _ _ _ e (urlsafe_padded text ▸ h), hx, fun hn => ?_⟩
  rw [← hx, urlsafe_padded]
  have := a2b_accepts text (fill text) 0 0 (by unfold fill; omega) (by omega) hn
  rw [Nat.zero_add] at this
  exact this

/-- Texts with `=` signs of both kinds: `YQ==`, `YQ==` with anything after it, and `YQ=`, `Y==` and `YW=J`, which the sign after them completes or not. -/
example : Complete [89, 81, 61, 61] ∧ Complete [89, 81, 61, 61, 89] ∧ Complete [89, 81, 61] ∧ ¬ Complete [89, 61, 61] ∧ ¬ Complete [89, 87, 61, 74] := by
  simp only [← (C90_urlsafe _).2.1]
  refine ⟨⟨_, rfl⟩, ⟨_, rfl⟩, ⟨_, rfl⟩, ?_, ?_⟩ <;> rintro ⟨_, h⟩ <;> cases h

/-- Both cases occur, also for a text with characters of neither alphabet. -/
example : Decodable [97, 98, 45, 95] ∧ Decodable [97, 33, 98, 32, 32, 33] ∧ ¬ Decodable [97, 98, 99, 100, 101] ∧ ¬ Decodable [97, 33, 98, 32] := by
  unfold Decodable
  decide +kernel

/-- How `read_token` and `json_decrypt` can end, if `bytes_decrypt` ends as above: a token that cannot be decoded raises `ValueError`, and a plaintext that is no
JSON what the JSON decoder raises for it. -/
theorem message_ends {κ : Type} {C : Cipher.Cipher κ} {key saltDraw aad : Bytes} {now : Int} {ttl : Option Int}
    (h : ∀ data, DecryptEnds C key saltDraw now ttl aad data) {α : Type} (loads : Bytes → Except Err α) :
    (∀ token e, C.readToken key saltDraw now ttl aad token = .error e →
      (e = .value ∧ Text.urlsafeToBytes token = .error .value) ∨ e = .ciphertextSize ∨ e = .invalidSHMAC ∨ ∃ t x, ttl = some t ∧ 0 < x ∧ e = .timestampExpired x) ∧
    (∀ data e, C.jsonDecrypt loads key saltDraw now ttl aad data = .error e →
      (∃ text, C.bytesDecrypt key saltDraw now ttl aad data = .ok text ∧ loads text = .error e) ∨
      e = .ciphertextSize ∨ e = .invalidSHMAC ∨ ∃ t x, ttl = some t ∧ 0 < x ∧ e = .timestampExpired x) := by
  constructor
  · intro token e he
    rcases Canon.bind_error he with he | ⟨data, _, he⟩
    · have := (C90_urlsafe token).1 e he
      subst this
      exact .inl ⟨rfl, he⟩
    · exact .inr ((h data).2 e he)
  · intro data e he
    rcases Canon.bind_error he with he | ⟨text, ht, he⟩
    · exact .inr ((h data).2 e he)
    · exact .inl ⟨text, ht, he⟩

/-- **C90** Whatever bytes are given to `read_token` and `json_decrypt` of a shake-permute cipher. -/
theorem C90_permute_messages {E : Cipher.Env} (h : Cipher.PermuteSetup E) (key : Bytes) (hk : 64 ≤ key.length) (hk2 : key.length < 256 ^ 8) (saltDraw : Bytes)
    (hdraw : saltDraw.length = E.cfg.saltBytes) (aad : Bytes) (ha : aad.length < 256 ^ 4) (now : Int) (ttl : Option Int) {α : Type} (loads : Bytes → Except Err α) :
    (∀ token e, (Cipher.permuteCipher E).readToken key saltDraw now ttl aad token = .error e →
      (e = .value ∧ Text.urlsafeToBytes token = .error .value) ∨ e = .ciphertextSize ∨ e = .invalidSHMAC ∨ ∃ t x, ttl = some t ∧ 0 < x ∧ e = .timestampExpired x) ∧
    (∀ data e, (Cipher.permuteCipher E).jsonDecrypt loads key saltDraw now ttl aad data = .error e →
      (∃ text, (Cipher.permuteCipher E).bytesDecrypt key saltDraw now ttl aad data = .ok text ∧ loads text = .error e) ∨
      e = .ciphertextSize ∨ e = .invalidSHMAC ∨ ∃ t x, ttl = some t ∧ 0 < x ∧ e = .timestampExpired x) :=
  message_ends (C90_permute_decrypt h key hk hk2 saltDraw hdraw aad ha now ttl) loads

/-- **C90** Whatever bytes are given to `read_token` and `json_decrypt` of a dual-output cipher. -/
theorem C90_dual_messages {E : Cipher.DualEnv} (h : Cipher.DualSetup E) (key : Bytes) (hk : 64 ≤ key.length) (hk2 : key.length < 256 ^ 8) (saltDraw : Bytes)
    (hdraw : saltDraw.length = E.cfg.saltBytes) (aad : Bytes) (ha : aad.length < 256 ^ 4) (now : Int) (ttl : Option Int) {α : Type} (loads : Bytes → Except Err α) :
    (∀ token e, (Cipher.dualCipher E).readToken key saltDraw now ttl aad token = .error e →
      (e = .value ∧ Text.urlsafeToBytes token = .error .value) ∨ e = .ciphertextSize ∨ e = .invalidSHMAC ∨ ∃ t x, ttl = some t ∧ 0 < x ∧ e = .timestampExpired x) ∧
    (∀ data e, (Cipher.dualCipher E).jsonDecrypt loads key saltDraw now ttl aad data = .error e →
      (∃ text, (Cipher.dualCipher E).bytesDecrypt key saltDraw now ttl aad data = .ok text ∧ loads text = .error e) ∨
      e = .ciphertextSize ∨ e = .invalidSHMAC ∨ ∃ t x, ttl = some t ∧ 0 < x ∧ e = .timestampExpired x) :=
  message_ends (C90_dual_decrypt h key hk hk2 saltDraw hdraw aad ha now ttl) loads

theorem baseAsIntLoop_spec (base : Nat) (table : List Nat) : ∀ (cs : List Nat) (p r : Nat),
    (∀ e, baseAsIntLoop base table p r cs = .error e → e = .value) ∧ ((∃ n, baseAsIntLoop base table p r cs = .ok n) ↔ ∀ c ∈ cs, c ∈ table)
  | [], p, r => by simp [baseAsIntLoop]
  | c :: cs, p, r => by
    have hfind : ∀ (t : List Nat), (findIdx c t = none ↔ c ∉ t) := by
      intro t
      induction t with
      | nil => simp [findIdx]
      | cons x xs ih =>
        simp only [findIdx]
        by_cases hx : x = c
        · simp [hx]
        · simp only [if_neg hx, Option.map_eq_none_iff, ih, List.mem_cons, not_or]
          exact ⟨fun h => ⟨fun h' => hx h'.symm, h⟩, fun h => h.2⟩
    simp only [baseAsIntLoop]
    cases hf : findIdx c table with
    | none =>
      have := (hfind table).1 hf
      simp only [reduceCtorEq, exists_false, List.mem_cons, forall_eq_or_imp, false_iff, not_and]
      exact ⟨fun e h => by injection h with h; exact h.symm, fun h => absurd h this⟩
    | some d =>
      have hm : c ∈ table := Classical.byContradiction fun h => by rw [(hfind table).2 h] at hf; cases hf
      have ih := baseAsIntLoop_spec base table cs (p * base) (r + d * p)
      simp only [List.mem_cons, forall_eq_or_imp, hm, true_and]
      exact ih

theorem minimal_bytes (n : Nat) : ∃ b, toBytesBE (ceilDiv (bitLength n) 8) n = .ok b := by
  have : n < 256 ^ ceilDiv (bitLength n) 8 := by
    by_cases h0 : n = 0
    · subst h0; exact Nat.pow_pos (by decide)
    · have hl : n < 2 ^ (Nat.log2 n + 1) := Nat.lt_log2_self
      have hb : bitLength n = Nat.log2 n + 1 := by simp [bitLength, h0]
      rw [hb]
      refine Nat.lt_of_lt_of_le hl ?_
      rw [show (256 : Nat) = 2 ^ 8 by decide, ← Nat.pow_mul]
      apply Nat.pow_le_pow_right (by decide)
      simp only [ceilDiv]
      omega
  exact ⟨_, toBytesBE_ok.2 ⟨this, rfl⟩⟩

/-- **C90** `filename_to_bytes` accepts exactly the texts of the 38 characters, and refuses others with `ValueError`. -/
theorem C90_filename (name : List Nat) :
    (∀ e, filenameToBytes name = .error e → e = .value) ∧
    ((∃ b, filenameToBytes name = .ok b) ↔ ∀ c ∈ name, c = 45 ∨ c = 95 ∨ (48 ≤ c ∧ c ≤ 57) ∨ (97 ≤ c ∧ c ≤ 122)) := by
  have hs := baseAsIntLoop_spec 38 (base38.take 38) name.reverse 1 0
  have hm : ∀ c, c ∈ base38.take 38 ↔ (c = 45 ∨ c = 95 ∨ (48 ≤ c ∧ c ≤ 57) ∨ (97 ≤ c ∧ c ≤ 122)) := by
    intro c
    show c ∈ base38 ↔ _
    simp only [base38, List.mem_cons, List.not_mem_nil, or_false]
    omega
  simp only [List.mem_reverse, hm] at hs
  rw [← hs.2]
  have hb : baseAsInt name (some 38) base38 = baseAsIntLoop 38 (base38.take 38) 1 0 name.reverse := rfl
  constructor
  · intro e h
    rcases Canon.bind_error h with h | ⟨n, _, h⟩
    · exact hs.1 e h
    · obtain ⟨b, hb⟩ := minimal_bytes n
      rw [hb] at h; cases h
  · constructor
    · rintro ⟨b, h⟩
      obtain ⟨n, h, _⟩ := bind_eq_ok.1 h
      exact ⟨n, h⟩
    · rintro ⟨n, h⟩
      obtain ⟨b, hb'⟩ := minimal_bytes n
      exact ⟨b, bind_eq_ok.2 ⟨n, h, hb'⟩⟩

theorem lookupWords_spec (words : List Bytes) : ∀ (ws : List Bytes),
    (∀ e, lookupWords words ws = .error e → e = .key) ∧ ((∃ b, lookupWords words ws = .ok b) ↔ ∀ w ∈ ws, w ∈ words)
  | [] => by simp [lookupWords]
  | w :: ws => by
    have hfind : ∀ (t : List Bytes), (findIdx w t = none ↔ w ∉ t) := by
      intro t
      induction t with
      | nil => simp [findIdx]
      | cons x xs ih =>
        simp only [findIdx]
        by_cases hx : x = w
        · simp [hx]
        · simp only [if_neg hx, Option.map_eq_none_iff, ih, List.mem_cons, not_or]
          exact ⟨fun h => ⟨fun h' => hx h'.symm, h⟩, fun h => h.2⟩
    have ih := lookupWords_spec words ws
    simp only [lookupWords]
    cases hf : findIdx w words with
    | none =>
      have := (hfind words).1 hf
      simp only [reduceCtorEq, exists_false, List.mem_cons, forall_eq_or_imp, false_iff, not_and]
      exact ⟨fun e h => by injection h with h; exact h.symm, fun h => absurd h this⟩
    | some d =>
      have hm : w ∈ words := Classical.byContradiction fun h => by rw [(hfind words).2 h] at hf; cases hf
      simp only [List.mem_cons, forall_eq_or_imp, hm, true_and]
      refine ⟨fun e h => ?_, ?_⟩
      · rcases Canon.bind_error h with h | ⟨_, _, h⟩
        · exact ih.1 e h
        · cases h
      · rw [ok_bind_iff]; exact ih.2

/-- **C90** `phrase_to_bytes` accepts exactly the phrases whose words are all in the list, and refuses others with `KeyError`. -/
theorem C90_phrase (words : List Bytes) (phrase : Bytes) :
    (∀ e, phraseToBytes words phrase = .error e → e = .key) ∧
    ((∃ b, phraseToBytes words phrase = .ok b) ↔ ∀ w ∈ splitSpace (strip phrase), w ∈ words) := lookupWords_spec words _

end

/-! ### identifiers -/

section
open Ids

/-- **C90** A `GUID` object reads every byte string of its size and refuses every other one with `ValueError`. -/
theorem C90_guid {size hash : Nat} {key nodeId : Bytes} {g : Guid} (h : Reachable size hash key nodeId g) (guid : Bytes) :
    (guid.length = size → ∃ c, g.read guid = .ok c) ∧ (guid.length ≠ size → g.read guid = .error .value) := by
  obtain ⟨config, hc, perm, hp, hw⟩ := h.wf
  constructor
  · intro hl
    have hlt : fromBE guid < 256 ^ perm.size := by rw [hw.chainSize, ← hl]; exact fromBE_lt guid
    obtain ⟨v, hv, e, -⟩ := Perm.Chain.invert_total hw.chain hlt
    rw [hw.chainSize] at hv
    have hb : toBytesBE size v = .ok (beDigits size v) := toBytesBE_ok.2 ⟨hv, rfl⟩
    simp only [Guid.read, hw.config, hl, ne_eq, not_true_eq_false, if_false, hw.perm, e, hb, rawRead, length_beDigits]
    exact ⟨_, rfl⟩
  · intro hl
    simp only [Guid.read, hw.config, ne_eq, hl, not_false_eq_true, if_true]

/-- **C90** The same for raw guids. -/
theorem C90_raw_guid (c : RawConfig) (guid : Bytes) :
    (guid.length = c.size → ∃ r, rawRead c guid = .ok r) ∧ (guid.length ≠ c.size → rawRead c guid = .error .value) := by
  constructor
  · intro h; simp [rawRead, h]
  · intro h; simp [rawRead, h]

end

/-! ### passcrypt hashes -/

section
open Passcrypt

theorem mapM_error {α β : Type} {f : α → Except Err β} : ∀ {l : List α} {e : Err}, l.mapM f = .error e → ∃ a ∈ l, f a = .error e
  | [], e, h => by cases h
  | a :: l, e, h => by
    rw [List.mapM_cons] at h
    rcases Canon.bind_error h with h | ⟨b, _, h⟩
    · exact ⟨a, by simp, h⟩
    · rcases Canon.bind_error h with h | ⟨_, _, h⟩
      · obtain ⟨x, hx, h⟩ := mapM_error h
        exact ⟨x, by simp [hx], h⟩
      · cases h

theorem make_session_error {M : Bytes} {s : Session} {e : Err} (h : Session.make (spec M) s = .error e) : e = .value := by
  rcases Canon.bind_error h with h | ⟨_, _, h⟩
  · rcases Canon.bind_error h with h | ⟨_, _, h⟩
    all_goals
      unfold raiseIf at h
      split at h
      · injection h with h; exact h.symm
      · cases h
  · rcases Canon.bind_error h with h | ⟨_, _, h⟩
    · exact validateSettings_error h
    · cases h

theorem spawn_error {M p s aad pepper : Bytes} {mb cpu cores tagSize : Nat} {e : Err} (h : spawn (spec M) p s aad pepper mb cpu cores tagSize = .error e)
    (hmb : mb < 256 ^ 8) (hc : cores ≤ 256) (hp : pepper.length < 256 ^ 8) (ha : aad.length < 256 ^ 8) : e = .value := by
  rcases Canon.bind_error h with h | ⟨t, ht, h⟩
  · rw [toBytesBE_ok.2 ⟨hmb, rfl⟩] at h; cases h
  obtain ⟨core, hcore, h⟩ := mapM_error h
  have hlt : core < 256 ^ 8 := by
    have := List.mem_range.1 hcore
    have : (256 : Nat) ≤ 256 ^ 8 := by decide
    omega
  obtain ⟨-, rfl⟩ := toBytesBE_ok.1 ht
  rcases Canon.bind_error h with h | ⟨c, hc', h⟩
  · rw [toBytesBE_ok.2 ⟨hlt, rfl⟩] at h; cases h
  obtain ⟨-, rfl⟩ := toBytesBE_ok.1 hc'
  rcases Canon.bind_error h with h | ⟨_, _, h⟩
  · have := (canonicalPack_iff (b := 1) (p := 0) (items := [pepper, aad, beDigits 8 core, beDigits 8 mb]) (by decide)).2 ⟨⟨by simp, by
      intro i hi
      simp only [List.mem_cons, List.not_mem_nil, or_false] at hi
      rcases hi with rfl | rfl | rfl | rfl
      · exact hp
      · exact ha
      · simp
      · simp⟩, rfl⟩
    rw [this] at h; cases h
  · exact make_session_error h

/-- **C90** Whatever bytes are given to `Passcrypt.verify` as a hash, it ends with success, `ValueError`, `TimestampExpired` (only if a time to live was given),
`ResourceWarning` or `InvalidPassphrase`. Only success and the last of these are possible once work has been started. -/
theorem C90_passcrypt (E : Env) (M pepper hash p aad : Bytes) (now : Int) (ttl : Option Int) (mbA cpuA coresA : Nat → Bool)
    (hsz : p.length + aad.length + pepper.length < 2 ^ 60) (hh : hash.length < 2 ^ 29) (hD : E.domain.length < 2 ^ 60) (hM : M.length < 2 ^ 60) (e : Err)
    (h : (verify E (spec M) pepper hash p aad now ttl mbA cpuA coresA).result = .error e) :
    e = .value ∨ (∃ t x, ttl = some t ∧ 0 < x ∧ e = .timestampExpired x) ∨ e = .resource ∨ e = .passcrypt := by
  by_cases hs : (verify E (spec M) pepper hash p aad now ttl mbA cpuA coresA).started = []
  · unfold verify at h hs
    cases hp : verifyParts (spec M) hash now ttl mbA cpuA coresA with
    | error e' =>
      rw [hp] at h
      injection h with h
      subst h
      rcases Canon.bind_error hp with h | ⟨parts, hi, h⟩
      · left
        unfold importHash Hash.make at h
        rcases Canon.bind_error h with h | ⟨_, _, h⟩
        · exact validateSettings_error h
        · cases h
      rcases Canon.bind_error h with h | ⟨_, _, h⟩
      · right; left
        cases ttl with
        | none => simp [Clock.testTimestamp] at h
        | some t =>
          simp only [Option.map_some, Clock.testTimestamp] at h
          split at h
          · injection h with h
            exact ⟨t, _, rfl, by rename_i hgt; exact Int.sub_pos.2 hgt, h.symm⟩
          · cases h
      rcases Canon.bind_error h with h | ⟨_, _, h⟩
      · right; right; left
        unfold inAllowedRanges at h
        rcases Canon.bind_error h with h | ⟨_, _, h⟩
        · unfold raiseIf at h
          split at h
          · injection h with h; exact h.symm
          · cases h
        rcases Canon.bind_error h with h | ⟨_, _, h⟩
        all_goals
          unfold raiseIf at h
          split at h
          · injection h with h; exact h.symm
          · cases h
      · rcases Canon.bind_error h with h | ⟨_, _, h⟩
        · exact .inl (validateSettings_error h)
        · cases h
    | ok parts =>
      rw [hp] at h hs
      simp only at h hs
      obtain ⟨h1, _⟩ := verifyParts_ok.1 hp
      obtain ⟨hv, hts, hl⟩ := (C47_import (spec_wf M) hash parts).1 h1
      have hcores : 1 ≤ parts.cores ∧ parts.cores ≤ 256 := hv.cores
      have hmb : 1 ≤ parts.mb ∧ parts.mb ≤ 256 ^ 3 := hv.mb
      have hts8 : parts.timestamp.length = 8 := hts
      cases hsp : spawn (spec M) p parts.salt (parts.timestamp ++ aad) pepper parts.mb parts.cpu parts.cores parts.tag.length with
      | error e' =>
        rw [hsp] at h
        injection h with h
        subst h
        exact .inl (spawn_error hsp (by omega) hcores.2 (by omega) (by rw [List.length_append, hts8]; omega))
      | ok sessions =>
        rw [hsp] at hs
        simp only at hs
        obtain ⟨_, rfl⟩ := (spawn_iff hcores.1).1 hsp
        have := congrArg List.length hs
        simp at this
        omega
  · rcases C48_outcome E M pepper hash p aad now ttl mbA cpuA coresA hs hsz hh hD hM with h' | h'
    · rw [h'] at h; cases h
    · rw [h'] at h; injection h with h; exact .inr (.inr (.inr h.symm))

end

/-! ### public keys -/

section
open Keys

/-- **C90** A key object that is given something which is neither bytes nor a key raises `TypeError` and still has no key; one that has a key
raises `PermissionError`, whatever is given. -/
theorem C90_keys {Sk Pk : Type} (C : Curve Sk Pk) (k : KeyObj Sk Pk) :
    (k.pub = none → (k.importSecret C .other).2 = .error .type ∧ (k.importPublic C .other).2 = .error .type ∧
      (k.importSecret C .other).1.pub = none ∧ (k.importPublic C .other).1.pub = none) ∧
    (k.pub ≠ none → (∀ g, k.importSecret C g = (k, .error .permission)) ∧ ∀ g, k.importPublic C g = (k, .error .permission)) := by
  constructor
  · intro h
    simp [KeyObj.importSecret, KeyObj.importPublic, h, Curve.processSecret, Curve.processPublic]
  · intro h
    have : k.pub.isSome = true := by cases hp : k.pub with | none => exact absurd hp h | some _ => rfl
    simp [KeyObj.importSecret, KeyObj.importPublic, this]

end

/-! ### package summaries -/

section
open Package Keys

theorem hexValue_iff (c : Char) (n : Nat) : hexValue c = some n ↔ HexDigit c n := by
  have hle : ∀ (a : Char), (a ≤ c ↔ a.toNat ≤ c.toNat) := fun a => Iff.rfl
  have hge : ∀ (a : Char), (c ≤ a ↔ c.toNat ≤ a.toNat) := fun a => Iff.rfl
  have hc : Char.ofNat c.toNat = c := Char.ofNat_toNat c
  simp only [hexValue, hle, hge, show '0'.toNat = 48 from rfl, show '9'.toNat = 57 from rfl, show 'a'.toNat = 97 from rfl, show 'f'.toNat = 102 from rfl,
    show 'A'.toNat = 65 from rfl, show 'F'.toNat = 70 from rfl]
  constructor
  · intro h
    split at h
    · injection h with h
      have := HexDigit.digit n (by omega)
      rwa [show 48 + n = c.toNat by omega, hc] at this
    · split at h
      · injection h with h
        have := HexDigit.lower (n - 10) (by omega)
        rwa [show 97 + (n - 10) = c.toNat by omega, hc, show 10 + (n - 10) = n by omega] at this
      · split at h
        · injection h with h
          have := HexDigit.upper (n - 10) (by omega)
          rwa [show 65 + (n - 10) = c.toNat by omega, hc, show 10 + (n - 10) = n by omega] at this
        · cases h
  · have hd : ∀ n < 10, (Char.ofNat (48 + n)).toNat = 48 + n := by decide
    have hl : ∀ n < 6, (Char.ofNat (97 + n)).toNat = 97 + n := by decide
    have hu : ∀ n < 6, (Char.ofNat (65 + n)).toNat = 65 + n := by decide
    rintro (⟨n, h⟩ | ⟨n, h⟩ | ⟨n, h⟩)
    · rw [hd n h, if_pos (by omega)]; congr 1; omega
    · rw [hl n h, if_neg (by omega), if_pos (by omega)]; congr 1; omega
    · rw [hu n h, if_neg (by omega), if_neg (by omega), if_pos (by omega)]; congr 1; omega

theorem isSpace_iff (c : Char) : isSpace c = true ↔ c ∈ [' ', '\t', '\n', '\r', '\x0b', '\x0c'] := by
  have h11 : c.toNat = 11 ↔ c = '\x0b' := ⟨fun h => by rw [← Char.ofNat_toNat c, h], fun h => by subst h; rfl⟩
  have h12 : c.toNat = 12 ↔ c = '\x0c' := ⟨fun h => by rw [← Char.ofNat_toNat c, h], fun h => by subst h; rfl⟩
  simp [isSpace, h11, h12, or_assoc]

theorem space_not_digit {c : Char} (h : isSpace c = true) (n : Nat) : ¬ HexDigit c n := by
  rw [isSpace_iff] at h
  rw [← hexValue_iff]
  simp only [List.mem_cons, List.not_mem_nil, or_false] at h
  rcases h with rfl | rfl | rfl | rfl | rfl | rfl
  all_goals exact nofun

theorem fromHexChars_iff : ∀ (text : List Char) (b : Bytes), fromHexChars text = .ok b ↔ HexText text b
  | [], b => by
    constructor
    · intro h; injection h with h; rw [← h]; exact .nil
    · intro h; cases h; rfl
  | [c], b => by
    simp only [fromHexChars]
    split
    · rename_i h
      constructor
      · intro e; injection e with e; rw [← e]; exact .space c [] [] ((isSpace_iff c).1 h) .nil
      · intro e
        cases e with
        | space _ _ _ _ e => cases e; rfl
    · rename_i h
      constructor
      · intro e; cases e
      · intro e
        cases e with
        | space _ _ _ hm _ => exact absurd ((isSpace_iff c).2 hm) h
  | c :: d :: rest, b => by
    simp only [fromHexChars]
    split
    · rename_i h
      rw [fromHexChars_iff (d :: rest) b]
      constructor
      · exact .space c _ b ((isSpace_iff c).1 h)
      · intro e
        cases e with
        | space _ _ _ _ e => exact e
        | byte _ _ _ _ _ _ hc _ _ => exact absurd hc (space_not_digit h _)
    · rename_i h
      constructor
      · intro e
        split at e
        · rename_i x y hx hy
          obtain ⟨bs, hb, e⟩ := bind_eq_ok.1 e
          injection e with e
          rw [← e]
          exact .byte c d x y rest bs ((hexValue_iff c x).1 hx) ((hexValue_iff d y).1 hy) ((fromHexChars_iff rest bs).1 hb)
        · cases e
      · intro e
        cases e with
        | space _ _ _ hm _ => exact absurd ((isSpace_iff c).2 hm) h
        | byte _ _ x y _ bs hc hd ht =>
          rw [(hexValue_iff c x).2 hc, (hexValue_iff d y).2 hd]
          simp only
          rw [(fromHexChars_iff rest bs).2 ht]
          rfl

theorem fromHexChars_error : ∀ (text : List Char) (e : Err), fromHexChars text = .error e → e = .value
  | [], e, h => by cases h
  | [c], e, h => by
    simp only [fromHexChars] at h
    split at h
    · cases h
    · injection h with h; exact h.symm
  | c :: d :: rest, e, h => by
    simp only [fromHexChars] at h
    split at h
    · exact fromHexChars_error _ e h
    · split at h
      · rcases Canon.bind_error h with h | ⟨_, _, h⟩
        · exact fromHexChars_error _ e h
        · cases h
      · injection h with h; exact h.symm

/-- **C90** How a summary spells bytes: a text in hexadecimal, in either case and with white space between the bytes. Another text is refused with
`ValueError`, and what is not a text with `TypeError`. -/
theorem C90_hex (j : Json) :
    (∀ text, j = .str text → (∀ b, fromHex j = .ok b ↔ HexText text.toList b) ∧ ∀ e, fromHex j = .error e → e = .value) ∧
    ((∀ text, j ≠ .str text) → fromHex j = .error .type) := by
  constructor
  · rintro text rfl
    exact ⟨fromHexChars_iff text.toList, fromHexChars_error text.toList⟩
  · intro h
    cases j with
    | str s => exact absurd rfl (h s)
    | _ => rfl

example : HexText "0f A0\t".toList [15, 160] :=
  .byte '0' 'f' 0 15 _ _ (.digit 0 (by decide)) (.lower 5 (by decide))
    (.space ' ' _ _ (by decide) (.byte 'A' '0' 10 0 _ _ (.upper 0 (by decide)) (.digit 0 (by decide)) (.space '\t' _ _ (by decide) .nil)))

theorem fromHex_error {j : Json} {e : Err} (h : fromHex j = .error e) : e = .type ∨ e = .value := by
  by_cases hj : ∃ t, j = .str t
  · obtain ⟨t, rfl⟩ := hj
    exact .inr (((C90_hex _).1 t rfl).2 e h)
  · rw [(C90_hex j).2 fun t e => hj ⟨t, e⟩] at h
    injection h with h
    exact .inl h.symm

theorem get_error {α : Type} {d : Dict α} {k : String} {e : Err} (h : d.get k = .error e) : e = .key ∧ d.lookup k = none := by
  unfold Dict.get at h
  split at h
  · cases h
  · rename_i hn; injection h with h; exact ⟨h.symm, hn⟩

theorem raiseIf_error {p : Prop} [Decidable p] {e e' : Err} (h : raiseIf p e = .error e') : e' = e ∧ p := by
  unfold raiseIf at h
  split at h
  · rename_i hp; injection h with h; exact ⟨h.symm, hp⟩
  · cases h

theorem checkFiles_error {E : Package.Env} {read : String → Except Err Bytes} : ∀ {items : Dict Json} {e : Err}, checkFiles E read items = .error e →
    e = .type ∨ e = .value ∨ e = .invalidDigest ∨ ∃ f j, (f, j) ∈ items ∧ read f = .error e
  | [], e, h => by cases h
  | (f, j) :: rest, e, h => by
    rcases Canon.bind_error h with h | ⟨_, _, h⟩
    · rcases Canon.bind_error h with h | ⟨_, _, h⟩
      · rcases fromHex_error h with h | h
        · exact .inl h
        · exact .inr (.inl h)
      rcases Canon.bind_error h with h | ⟨_, _, h⟩
      · exact .inr (.inr (.inr ⟨f, j, by simp, h⟩))
      · exact .inr (.inr (.inl (raiseIf_error h).1))
    · rcases checkFiles_error h with h | h | h | ⟨f', j', hm, h⟩
      · exact .inl h
      · exact .inr (.inl h)
      · exact .inr (.inr (.inl h))
      · exact .inr (.inr (.inr ⟨f', j', by simp [hm], h⟩))

/-- **C90** (part) Which exceptions a refused package summary raises: `InvalidSignature`, `ValueError`, if files are verified `InvalidDigest` and what reading
a listed file raises; but also `KeyError` for a missing field, `TypeError` for a field that is not a text, and `AttributeError` if the list of files is no `dict`. -/
theorem C90_package_partial {Sk Pk : Type} (E : Package.Env) (C : Curve Sk Pk) (key : Pk) (read : Option (String → Except Err Bytes)) (summary : Dict Json) (e : Err)
    (h : verifySummary E C key read summary = .error e) :
    e = .invalidSignature ∨ e = .value ∨ (e = .invalidDigest ∧ read ≠ none) ∨ (∃ r f, read = some r ∧ r f = .error e) ∨
    (e = .key ∧ ∃ field ∈ ["signing_key", "checksum", "signature", "checksums"], summary.lookup field = none) ∨ e = .type ∨
    (e = .attribute ∧ ∃ j, summary.lookup "checksums" = some j ∧ ∀ items, j ≠ .obj items) := by
  have hx : ∀ {j : Json} {e : Err}, fromHex j = .error e → e = .invalidSignature ∨ e = .value ∨ (e = .invalidDigest ∧ read ≠ none) ∨ (∃ r f, read = some r ∧ r f = .error e) ∨
    (e = .key ∧ ∃ field ∈ ["signing_key", "checksum", "signature", "checksums"], summary.lookup field = none) ∨ e = .type ∨
    (e = .attribute ∧ ∃ j, summary.lookup "checksums" = some j ∧ ∀ items, j ≠ .obj items) := by
    intro j e h
    rcases fromHex_error h with h | h
    · exact .inr (.inr (.inr (.inr (.inr (.inl h)))))
    · exact .inr (.inl h)
  rcases Canon.bind_error h with h | ⟨_, _, h⟩
  · obtain ⟨h1, h2⟩ := get_error h
    exact .inr (.inr (.inr (.inr (.inl ⟨h1, "signing_key", by decide, h2⟩))))
  rcases Canon.bind_error h with h | ⟨_, _, h⟩
  · exact hx h
  rcases Canon.bind_error h with h | ⟨_, _, h⟩
  · exact .inr (.inl (raiseIf_error h).1)
  rcases Canon.bind_error h with h | ⟨⟨_, _⟩, _, h⟩
  · rcases Canon.bind_error h with h | ⟨_, _, h⟩
    · obtain ⟨h1, h2⟩ := get_error h
      exact .inr (.inr (.inr (.inr (.inl ⟨h1, "checksum", by decide, h2⟩))))
    rcases Canon.bind_error h with h | ⟨_, _, h⟩
    · exact hx h
    rcases Canon.bind_error h with h | ⟨_, _, h⟩
    · obtain ⟨h1, h2⟩ := get_error h
      rw [lookup_without (by decide)] at h2
      exact .inr (.inr (.inr (.inr (.inl ⟨h1, "signature", by decide, h2⟩))))
    rcases Canon.bind_error h with h | ⟨_, _, h⟩
    · exact hx h
    rcases Canon.bind_error h with h | ⟨_, _, h⟩
    · exact .inr (.inl (raiseIf_error h).1)
    · cases h
  cases read with
  | none =>
    exact .inl (raiseIf_error h).1
  | some r =>
    rcases Canon.bind_error h with h | ⟨j, hj, h⟩
    · obtain ⟨h1, h2⟩ := get_error h
      exact .inr (.inr (.inr (.inr (.inl ⟨h1, "checksums", by decide, h2⟩))))
    · rcases Canon.bind_error h with h | ⟨items, _, h⟩
      · refine .inr (.inr (.inr (.inr (.inr (.inr ⟨?_, j, get_ok.1 hj, ?_⟩)))))
        · unfold itemsOf at h
          split at h
          · cases h
          · injection h with h; exact h.symm
        · rintro items rfl
          cases h
      · rcases Canon.bind_error h with h | ⟨_, _, h⟩
        · rcases checkFiles_error h with h | h | h | ⟨f, _, _, h⟩
          · exact .inr (.inr (.inr (.inr (.inr (.inl h)))))
          · exact .inr (.inl h)
          · exact .inr (.inr (.inl ⟨h, by simp⟩))
          · exact .inr (.inr (.inr (.inl ⟨r, f, rfl, h⟩)))
        · exact .inl (raiseIf_error h).1

/-- **C90** is false for package summaries: for every key and every hash there are summaries that raise `KeyError`, `TypeError` and `AttributeError`. -/
theorem C90_package_other_exceptions {Sk Pk : Type} (E : Package.Env) (C : Curve Sk Pk) (key : Pk) (r : String → Except Err Bytes) :
    verifySummary E C key (some r) [] = .error .key ∧
    verifySummary E C key (some r) [("signing_key", (.other 0))] = .error .type ∧
    ∃ summary, verifySummary E C key (some r) summary = .error .attribute := by
  refine ⟨rfl, rfl, ?_⟩
  let rest : Dict Json := [("signing_key", .str (hex (C.rawPublic key))), ("checksums", (.other 0))]
  refine ⟨rest ++ [("checksum", .str (hex (E.hash (E.dumps rest)))), ("signature", .str "")], ?_⟩
  have h0 : fromHex (.str "") = .ok [] := rfl
  have hw : (((rest ++ [("checksum", Json.str (hex (E.hash (E.dumps rest)))), ("signature", Json.str "")] : Dict Json).without "checksum").without "signature") = rest := by
    simp [Dict.without, rest]
  simp only [verifySummary, importSummary, hw]
  simp [Dict.get, Dict.without, rest, List.lookup, fromHex_hex, h0, bind, Except.bind, raiseIf, itemsOf]

end

/-! ### canonical encodings -/

section
open Canon

/-- **C90** is false for `canonical_unpack`: whatever items are encoded and whatever follows them, a block size of zero raises `ZeroDivisionError`. -/
theorem C90_unpack_zero_division (items : List Bytes) (intBytes : Nat) (pad data rest : Bytes) (h1 : 0 < intBytes) (hp : pad ≠ [])
    (h : encodeItems (List.replicate intBytes 0 :: pad :: items) intBytes = .ok data) (hs : ∀ i ∈ pad :: items, i.length < 2 ^ 63) :
    canonicalUnpack (data ++ rest) = .error .zeroDivision := by
  obtain ⟨hi, hil, body, hbody, rfl⟩ := encodeItems_ok.1 h
  have hss : intBytes < ssizeLimit := by unfold ssizeLimit; omega
  have hlen := length_encodeBody hbody
  have hpl : 0 < pad.length := List.length_pos_iff.2 hp
  simp only [List.map_cons, List.sum_cons, List.length_replicate, List.length_cons] at hlen hil
  have hlc : (List.replicate intBytes 0 :: pad :: items).length = items.length + 2 := rfl
  rw [hlc]
  have r1 : read 1 (beDigits 1 intBytes ++ (beDigits intBytes (items.length + 2) ++ (body ++ rest)))
      = .ok (beDigits 1 intBytes, beDigits intBytes (items.length + 2) ++ (body ++ rest)) :=
    read_append (by simp) (by unfold ssizeLimit; omega)
  have r2 : read intBytes (beDigits intBytes (items.length + 2) ++ (body ++ rest))
      = .ok (beDigits intBytes (items.length + 2), body ++ rest) :=
    read_append (by simp) hss
  have hf1 : fromBE (beDigits 1 intBytes) = intBytes := fromBE_beDigits_of_lt (by simpa using hi)
  have hf2 : fromBE (beDigits intBytes (items.length + 2)) = items.length + 2 := fromBE_beDigits_of_lt (by simpa using hil)
  have hd : decodeItems intBytes (items.length + 2) (body ++ rest) = .ok (List.replicate intBytes 0 :: pad :: items, rest) := by
    have := decodeItems_encodeBody (r := rest) hbody hss (by
      intro i hi
      simp only [List.mem_cons] at hi
      rcases hi with rfl | hi
      · simpa using hss
      · exact hs i (by simpa using hi))
    simpa using this
  have hsize : ¬ ((beDigits 1 intBytes ++ (beDigits intBytes (items.length + 2) ++ (body ++ rest))).length
      < intBytes * (items.length + 2 + 1) + 3) := by
    simp only [List.length_append, length_beDigits, hlen, Nat.mul_add, Nat.mul_one]
    omega
  rw [show beDigits 1 intBytes ++ beDigits intBytes (items.length + 2) ++ body ++ rest
      = beDigits 1 intBytes ++ (beDigits intBytes (items.length + 2) ++ (body ++ rest)) by simp]
  simp only [canonicalUnpack, r1, bind, Except.bind, hf1, r2, hf2]
  rw [if_neg hsize]
  simp only [hd, testCanonicalPadding, fromBE_replicate, if_true]

/-- Such encodings exist. -/
example : ∃ data, encodeItems (List.replicate 1 0 :: [7] :: [[1, 2], []]) 1 = .ok data := ⟨_, rfl⟩

/-- **C90** A declared size of `2 ** 63` or more raises `OverflowError`, whatever follows. -/
theorem C90_unpack_overflow (intBytes count size : Nat) (rest : Bytes) (hi : intBytes < 256) (hc : 0 < count ∧ count < 256 ^ intBytes)
    (hs : 2 ^ 63 ≤ size ∧ size < 256 ^ intBytes) (hr : intBytes * count + 3 ≤ rest.length) :
    canonicalUnpack (beDigits 1 intBytes ++ beDigits intBytes count ++ beDigits intBytes size ++ rest) = .error .overflow := by
  have hss : intBytes < ssizeLimit := by unfold ssizeLimit; omega
  have r1 : read 1 (beDigits 1 intBytes ++ (beDigits intBytes count ++ (beDigits intBytes size ++ rest)))
      = .ok (beDigits 1 intBytes, beDigits intBytes count ++ (beDigits intBytes size ++ rest)) :=
    read_append (by simp) (by unfold ssizeLimit; omega)
  have r2 : read intBytes (beDigits intBytes count ++ (beDigits intBytes size ++ rest)) = .ok (beDigits intBytes count, beDigits intBytes size ++ rest) :=
    read_append (by simp) hss
  have r3 : read intBytes (beDigits intBytes size ++ rest) = .ok (beDigits intBytes size, rest) := read_append (by simp) hss
  have hf1 : fromBE (beDigits 1 intBytes) = intBytes := fromBE_beDigits_of_lt (by simpa using hi)
  have hf2 : fromBE (beDigits intBytes count) = count := fromBE_beDigits_of_lt hc.2
  have hf3 : fromBE (beDigits intBytes size) = size := fromBE_beDigits_of_lt hs.2
  have r4 : read size rest = .error .overflow := by
    unfold Canon.read
    rw [if_neg (by unfold ssizeLimit; omega)]
  obtain ⟨k, rfl⟩ : ∃ k, count = k + 1 := ⟨count - 1, by omega⟩
  have hd : decodeItems intBytes (k + 1) (beDigits intBytes size ++ rest) = .error .overflow := by
    simp only [decodeItems, r3, bind, Except.bind, hf3, r4]
  have hsize : ¬ ((beDigits 1 intBytes ++ (beDigits intBytes (k + 1) ++ (beDigits intBytes size ++ rest))).length < intBytes * (k + 1 + 1) + 3) := by
    simp only [List.length_append, length_beDigits, Nat.mul_add, Nat.mul_one] at hr ⊢
    omega
  rw [show beDigits 1 intBytes ++ beDigits intBytes (k + 1) ++ beDigits intBytes size ++ rest
      = beDigits 1 intBytes ++ (beDigits intBytes (k + 1) ++ (beDigits intBytes size ++ rest)) by simp]
  simp only [canonicalUnpack, r1, bind, Except.bind, hf1, r2, hf2]
  rw [if_neg hsize]
  simp only [hd]

/-- The hypotheses are met. -/
example : (8 : Nat) < 256 ∧ (0 < 1 ∧ 1 < 256 ^ 8) ∧ (2 ^ 63 ≤ 2 ^ 63 ∧ 2 ^ 63 < 256 ^ 8) ∧ 8 * 1 + 3 ≤ (List.replicate 11 (0 : UInt8)).length := by decide

end

end Aiootp.Refusals
