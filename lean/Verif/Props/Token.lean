import Verif.Model.Token
import Verif.Props.Text
import Verif.Props.Cipher

/-! C59: tokens and JSON messages. -/

namespace Aiootp.Cipher

/-- Someone with the same key and aad reads the data from the token: without a time to live whenever they read it, with one exactly
while it has not expired. -/
def TokenComesBack {κ : Type} (C : Cipher κ) (key : Bytes) (reading : Int) (aad data token : Bytes) : Prop :=
  ∀ saltDraw : Bytes, saltDraw.length = C.cfg.saltBytes → ∀ now : Int,
    C.readToken key saltDraw now none aad token = .ok data ∧
    ∀ ttl, C.readToken key saltDraw now (some ttl) aad token
      = if now - reading > ttl then .error (.timestampExpired (now - reading - ttl)) else .ok data

theorem token_of_ciphertext {κ : Type} {C : Cipher κ} {key aad data : Bytes} {d : Draws}
    (h : ∃ ciphertext, C.bytesEncrypt key d none aad data = .ok ciphertext ∧ ComesBack C key d.reading aad data ciphertext) :
    ∃ token, C.makeToken key d aad data = .ok token ∧ (∀ c ∈ token, Text.UrlsafeChar c) ∧ TokenComesBack C key d.reading aad data token := by
  obtain ⟨ct, hct, hback⟩ := h
  refine ⟨Text.bytesToUrlsafe ct, by simp [Cipher.makeToken, hct, bind, Except.bind, pure, Except.pure], Text.C07_urlsafe_alphabet ct, ?_⟩
  intro saltDraw hs now
  have hr : ∀ ttl, C.readToken key saltDraw now ttl aad (Text.bytesToUrlsafe ct) = C.bytesDecrypt key saltDraw now ttl aad ct := by
    intro ttl
    simp [Cipher.readToken, Text.C07_urlsafe_round_trip, bind, Except.bind]
  obtain ⟨h1, h2⟩ := hback saltDraw hs now
  exact ⟨by rw [hr, h1], fun ttl => by rw [hr, h2]⟩

/-- C59 for Slick256 and every other permutation cipher with a padding frame of at most 256 bytes: making a token succeeds, it
has url-safe characters only, and it reads back. -/
theorem C59_permute_token {E : Env} (h : PermuteSetup E) (hframe : E.cfg.paddingFrame ≤ 256)
    (key : Bytes) (hk : 64 ≤ key.length) (hk2 : key.length < 256 ^ 8) (d : Draws) (hd : d.Fit E.cfg)
    (aad : Bytes) (ha : aad.length < 256 ^ 4) (data : Bytes) :
    ∃ token, (permuteCipher E).makeToken key d aad data = .ok token ∧ (∀ c ∈ token, Text.UrlsafeChar c) ∧
      TokenComesBack (permuteCipher E) key d.reading aad data token :=
  token_of_ciphertext (C21_decrypt_encrypt h hframe key hk hk2 d hd none (.inl rfl) aad ha data)

/-- C59 for Chunky2048 and every other dual-output cipher with a padding frame of at most 256 bytes. -/
theorem C59_dual_token {E : DualEnv} (h : DualSetup E) (hframe : E.cfg.paddingFrame ≤ 256)
    (key : Bytes) (hk : 64 ≤ key.length) (hk2 : key.length < 256 ^ 8) (d : Draws) (hd : d.Fit E.cfg)
    (aad : Bytes) (ha : aad.length < 256 ^ 4) (data : Bytes) :
    ∃ token, (dualCipher E).makeToken key d aad data = .ok token ∧ (∀ c ∈ token, Text.UrlsafeChar c) ∧
      TokenComesBack (dualCipher E) key d.reading aad data token :=
  token_of_ciphertext (C22_decrypt_encrypt h hframe key hk hk2 d hd none (.inl rfl) aad ha data)

example : PermuteSetup sampleSlick ∧ sampleSlick.cfg.paddingFrame ≤ 256 ∧ 64 ≤ sampleKey.length ∧
    (sampleDraws sampleSlick.cfg).Fit sampleSlick.cfg :=
  ⟨sampleSlick_setup, by decide, by decide, sampleDraws_fit _ rfl⟩

/-- A token whose bytes have another tag than the recomputed one is refused, whatever its time to live. -/
def TokenChecked {κ : Type} (C : Cipher κ) (key saltDraw aad token : Bytes) : Prop :=
  ∀ bytes parts, Text.urlsafeToBytes token = .ok bytes → Ciphertext.parse C.cfg bytes = .ok parts →
    ∃ padded hashed, recompute C key parts.salt aad parts.iv parts.ciphertext = .ok (padded, hashed) ∧
      (parts.shmac ≠ Shmac.tagOf C.toEnv hashed → ∀ now ttl, C.readToken key saltDraw now ttl aad token = .error .invalidSHMAC)

theorem token_checked {κ : Type} {C : Cipher κ} {key saltDraw aad : Bytes} (h : ∀ data, TagChecked C key saltDraw aad data) (token : Bytes) :
    TokenChecked C key saltDraw aad token := by
  intro bytes parts hb hp
  obtain ⟨padded, hashed, hr, hrest⟩ := (h bytes).2 parts hp
  refine ⟨padded, hashed, hr, fun hne now ttl => ?_⟩
  simp only [Cipher.readToken, hb, bind, Except.bind]
  exact (hrest now ttl).1 hne

/-- C59: no plaintext of a token is released before its tag has been checked. -/
theorem C59_permute_checked {E : Env} (h : PermuteSetup E) (key : Bytes) (hk : 64 ≤ key.length)
    (hk2 : key.length < 256 ^ 8) (saltDraw : Bytes) (hdraw : saltDraw.length = E.cfg.saltBytes) (aad : Bytes)
    (ha : aad.length < 256 ^ 4) (token : Bytes) : TokenChecked (permuteCipher E) key saltDraw aad token :=
  token_checked (C23_permute h key hk hk2 saltDraw hdraw aad ha) token

theorem C59_dual_checked {E : DualEnv} (h : DualSetup E) (key : Bytes) (hk : 64 ≤ key.length)
    (hk2 : key.length < 256 ^ 8) (saltDraw : Bytes) (hdraw : saltDraw.length = E.cfg.saltBytes) (aad : Bytes)
    (ha : aad.length < 256 ^ 4) (token : Bytes) : TokenChecked (dualCipher E) key saltDraw aad token :=
  token_checked (C23_dual h key hk hk2 saltDraw hdraw aad ha) token

/-- C59 is false in one clause: a token can be changed so that it is still accepted, since the decoder skips characters that are
not of its alphabet. Here four exclamation marks are put in front of it. -/
theorem C59_changed_token_accepted {κ : Type} (C : Cipher κ) (key saltDraw : Bytes) (now : Int) (ttl : Option Int) (aad token : Bytes) :
    C.readToken key saltDraw now ttl aad ([33, 33, 33, 33] ++ token) = C.readToken key saltDraw now ttl aad token := by
  have : Text.urlsafeToBytes ([33, 33, 33, 33] ++ token) = Text.urlsafeToBytes token := by
    have hw : 4 * ceilDiv ([33, 33, 33, 33] ++ token : Bytes).length 4 - ([33, 33, 33, 33] ++ token : Bytes).length
        = 4 * ceilDiv token.length 4 - token.length := by
      simp only [ceilDiv, List.length_append, List.length_cons, List.length_nil]; omega
    simp only [Text.urlsafeToBytes, Canon.fullblockLjust, Canon.ljust, bind, Except.bind, hw]
    simp only [show ¬ (4 : Nat) = 0 by decide, if_false, List.cons_append, List.nil_append]
    simp [Text.a2b, Text.b64Value]
  simp only [Cipher.readToken, this]

/-- C59, JSON messages: what was loaded is what was dumped, for every encoding for which loading undoes dumping. -/
theorem C59_permute_json {E : Env} (h : PermuteSetup E) (hframe : E.cfg.paddingFrame ≤ 256) {α : Type} (dumps : α → Except Err Bytes)
    (loads : Bytes → Except Err α) (hjson : ∀ x text, dumps x = .ok text → loads text = .ok x)
    (key : Bytes) (hk : 64 ≤ key.length) (hk2 : key.length < 256 ^ 8) (d : Draws) (hd : d.Fit E.cfg)
    (salt : Option Bytes) (hs : SaltAllowed E.cfg salt) (aad : Bytes) (ha : aad.length < 256 ^ 4) (x : α) (text : Bytes) (hx : dumps x = .ok text) :
    ∃ ciphertext, (permuteCipher E).jsonEncrypt dumps key d salt aad x = .ok ciphertext ∧
      ∀ saltDraw : Bytes, saltDraw.length = E.cfg.saltBytes → ∀ now,
        (permuteCipher E).jsonDecrypt loads key saltDraw now none aad ciphertext = .ok x := by
  obtain ⟨ct, hct, hback⟩ := C21_decrypt_encrypt h hframe key hk hk2 d hd salt hs aad ha text
  refine ⟨ct, by simp [Cipher.jsonEncrypt, hx, hct, bind, Except.bind], fun sd hsd now => ?_⟩
  simp [Cipher.jsonDecrypt, (hback sd hsd now).1, bind, Except.bind, hjson x text hx]

theorem C59_dual_json {E : DualEnv} (h : DualSetup E) (hframe : E.cfg.paddingFrame ≤ 256) {α : Type} (dumps : α → Except Err Bytes)
    (loads : Bytes → Except Err α) (hjson : ∀ x text, dumps x = .ok text → loads text = .ok x)
    (key : Bytes) (hk : 64 ≤ key.length) (hk2 : key.length < 256 ^ 8) (d : Draws) (hd : d.Fit E.cfg)
    (salt : Option Bytes) (hs : SaltAllowed E.cfg salt) (aad : Bytes) (ha : aad.length < 256 ^ 4) (x : α) (text : Bytes) (hx : dumps x = .ok text) :
    ∃ ciphertext, (dualCipher E).jsonEncrypt dumps key d salt aad x = .ok ciphertext ∧
      ∀ saltDraw : Bytes, saltDraw.length = E.cfg.saltBytes → ∀ now,
        (dualCipher E).jsonDecrypt loads key saltDraw now none aad ciphertext = .ok x := by
  obtain ⟨ct, hct, hback⟩ := C22_decrypt_encrypt h hframe key hk hk2 d hd salt hs aad ha text
  refine ⟨ct, by simp [Cipher.jsonEncrypt, hx, hct, bind, Except.bind], fun sd hsd now => ?_⟩
  simp [Cipher.jsonDecrypt, (hback sd hsd now).1, bind, Except.bind, hjson x text hx]

/-- An encoding of numbers below 256 for which loading undoes dumping. -/
example : ∀ (x : Nat) text, (if x < 256 then Except.ok (ε := Err) [UInt8.ofNat x] else .error .value) = .ok text →
    (match text with | [c] => Except.ok (ε := Err) c.toNat | _ => .error .value) = .ok x := by
  intro x text h
  split at h
  · rename_i hx
    cases h
    simp [UInt8.toNat_ofNat', Nat.mod_eq_of_lt hx]
  · cases h

end Aiootp.Cipher
