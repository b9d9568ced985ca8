import Verif.Spec.TokenForgery
import Verif.Props.Forgery
import Verif.Props.Token

/-!
C108: `read_token` returns only what was given to `make_token`.
-/

namespace Aiootp.Secrecy
open Aiootp.Cipher

/-- The request that an order makes. -/
def TokenOrder.request (r : TokenOrder) : Request := ⟨r.key, r.draws, none, r.aad, r.data⟩

theorem TokenOrder.Valid.request {c : Sizes} {r : TokenOrder} (h : r.Valid c) : r.request.Valid c :=
  ⟨h.key_ge, h.key_lt, h.draws, h.draws.salt, h.aad⟩

/-- The ciphertext that is read from a token. -/
def opened (a : Attempt) : Attempt :=
  { a with data := match Text.urlsafeToBytes a.data with | .ok bytes => bytes | .error _ => [] }

/-- The conversation about tokens is that about their ciphertexts. -/
theorem conversation_tokens {κ : Type} (C : Cipher κ) (ask : List Bytes → TokenOrder) (n : Nat) :
    ∀ (seen tokens : List Bytes), conversation (fun r => C.makeToken r.key r.draws r.aad r.data) ask n (seen.map Text.bytesToUrlsafe) = .ok tokens →
      ∃ messages, tokens = messages.map Text.bytesToUrlsafe ∧
        conversation (fun r => C.bytesEncrypt r.key r.draws r.salt r.aad r.data) (fun seen => (ask (seen.map Text.bytesToUrlsafe)).request) n seen = .ok messages := by
  induction n with
  | zero => intro seen tokens h; cases h; exact ⟨seen, rfl, rfl⟩
  | succ n ih =>
    intro seen tokens h
    rw [conversation] at h
    cases hc : C.bytesEncrypt (ask (seen.map Text.bytesToUrlsafe)).key (ask (seen.map Text.bytesToUrlsafe)).draws none (ask (seen.map Text.bytesToUrlsafe)).aad
        (ask (seen.map Text.bytesToUrlsafe)).data with
    | error e => simp only [Cipher.makeToken, hc, bind, Except.bind] at h; cases h
    | ok message =>
      have hm : C.makeToken (ask (seen.map Text.bytesToUrlsafe)).key (ask (seen.map Text.bytesToUrlsafe)).draws (ask (seen.map Text.bytesToUrlsafe)).aad
          (ask (seen.map Text.bytesToUrlsafe)).data = .ok (Text.bytesToUrlsafe message) := by
        simp only [Cipher.makeToken, hc, bind, Except.bind, pure, Except.pure]
      simp only [hm, bind, Except.bind] at h
      obtain ⟨messages, h1, h2⟩ := ih (seen ++ [message]) tokens (by simpa using h)
      refine ⟨messages, h1, ?_⟩
      show (C.bytesEncrypt _ _ none _ _ >>= _) = _
      simp only [TokenOrder.request, hc, bind, Except.bind]
      exact h2

/-- All messages of a conversation are encryptions of what is asked. -/
theorem conversation_made {ρ : Type} {encrypt : ρ → Except Err Bytes} {ask : List Bytes → ρ} (n : Nat) :
    ∀ (start messages : List Bytes), conversation encrypt ask n start = .ok messages → ∃ more, messages = start ++ more ∧
      ∀ seen message rest, more = seen ++ message :: rest → encrypt (ask (start ++ seen)) = .ok message := by
  induction n with
  | zero => intro start messages h; cases h; exact ⟨[], by simp, fun seen message rest e => by simp at e⟩
  | succ n ih =>
    intro start messages h
    simp only [conversation, bind, Except.bind] at h
    cases hc : encrypt (ask start) with
    | error e => rw [hc] at h; cases h
    | ok message =>
      rw [hc] at h
      obtain ⟨more, h1, h2⟩ := ih _ _ h
      refine ⟨message :: more, by simp [h1], fun seen message' rest e => ?_⟩
      cases seen with
      | nil => simp at e; rw [← e.1]; simpa using hc
      | cons x seen =>
        simp at e
        obtain ⟨rfl, e⟩ := e
        simpa using h2 seen message' rest e

/-- A forged token is a forged ciphertext, if ciphertexts come back. -/
theorem forged_ciphertext {κ : Type} {C : Cipher κ} {c : Sizes} (hc : C.cfg = c)
    (hback : ∀ r : TokenOrder, r.Valid c → ∀ ciphertext, C.bytesEncrypt r.key r.draws none r.aad r.data = .ok ciphertext → ComesBack C r.key r.draws.reading r.aad r.data ciphertext)
    {ask : List Bytes → TokenOrder} (hv : ∀ seen, (ask seen).Valid c) {n : Nat} {forge : Forger} (hf : ∀ seen, (forge seen).Valid c)
    (h : TokenForged (fun r => C.makeToken r.key r.draws r.aad r.data) (fun a => C.readToken a.key a.saltDraw a.now a.ttl a.aad a.data) ask n forge) :
    Succeeds (fun r => C.bytesEncrypt r.key r.draws r.salt r.aad r.data) (fun a => C.bytesDecrypt a.key a.saltDraw a.now a.ttl a.aad a.data)
      (fun seen => (ask (seen.map Text.bytesToUrlsafe)).request) n (fun seen => opened (forge (seen.map Text.bytesToUrlsafe))) := by
  obtain ⟨tokens, data, h1, h2, h3⟩ := h
  obtain ⟨messages, rfl, hm⟩ := conversation_tokens C ask n [] tokens h1
  have hdec : C.bytesDecrypt (opened (forge (messages.map Text.bytesToUrlsafe))).key (opened (forge (messages.map Text.bytesToUrlsafe))).saltDraw
      (opened (forge (messages.map Text.bytesToUrlsafe))).now (opened (forge (messages.map Text.bytesToUrlsafe))).ttl
      (opened (forge (messages.map Text.bytesToUrlsafe))).aad (opened (forge (messages.map Text.bytesToUrlsafe))).data = .ok data := by
    simp only [Cipher.readToken, bind, Except.bind] at h2
    simp only [opened]
    split at h2
    · cases h2
    · rename_i bytes hb
      rw [hb]
      exact h2
  refine ⟨messages, hm, ?_, ?_⟩
  · rintro seen message rest rfl ⟨e, ek, ea⟩
    obtain ⟨more, hmore, hmade⟩ := conversation_made n [] _ hm
    simp only [List.nil_append] at hmore hmade
    have henc := hmade seen message rest hmore.symm
    have := hback _ (hv _) _ henc
    have hs := (hf ((seen ++ message :: rest).map Text.bytesToUrlsafe)).saltDraw
    obtain ⟨c1, c2⟩ := this _ (hs.trans (congrArg Sizes.saltBytes hc.symm)) (forge ((seen ++ message :: rest).map Text.bytesToUrlsafe)).now
    rw [← e] at hdec
    rw [show (ask (seen.map Text.bytesToUrlsafe)).key = _ from ek, show (ask (seen.map Text.bytesToUrlsafe)).aad = _ from ea] at c1 c2
    refine h3 (seen.map Text.bytesToUrlsafe) (Text.bytesToUrlsafe message) (rest.map Text.bytesToUrlsafe) (by simp) ⟨ek, ea, ?_⟩
    cases ht : (forge ((seen ++ message :: rest).map Text.bytesToUrlsafe)).ttl with
    | none =>
      rw [show (opened (forge ((seen ++ message :: rest).map Text.bytesToUrlsafe))).ttl = none from ht] at hdec
      have := c1.symm.trans hdec
      cases this
      exact ⟨rfl, fun ttl e => by cases e⟩
    | some t =>
      rw [show (opened (forge ((seen ++ message :: rest).map Text.bytesToUrlsafe))).ttl = some t from ht] at hdec
      have := (c2 t).symm.trans hdec
      split at this
      · cases this
      · rename_i hle
        cases this
        exact ⟨rfl, fun ttl e => by cases e; omega⟩
  · constructor <;> · intro e; have := hdec.symm.trans e; cases this

/-- Tokens are unforgeable if ciphertexts are, and come back. -/
theorem tokens_of_ciphertexts {κ : Type} {c : Sizes} {constants : List Bytes} {K : Nat} {C : Xof → Cipher κ} (hc : ∀ x, (C x).cfg = c)
    (hback : ∀ x (r : TokenOrder), r.Valid c → ∀ ciphertext, (C x).bytesEncrypt r.key r.draws none r.aad r.data = .ok ciphertext →
      ComesBack (C x) r.key r.draws.reading r.aad r.data ciphertext)
    (h : Unforgeable c constants K (fun x r => (C x).bytesEncrypt r.key r.draws r.salt r.aad r.data) (fun x a => (C x).bytesDecrypt a.key a.saltDraw a.now a.ttl a.aad a.data)) :
    TokensUnforgeable c constants K (fun x r => (C x).makeToken r.key r.draws r.aad r.data) (fun x a => (C x).readToken a.key a.saltDraw a.now a.ttl a.aad a.data) := by
  intro known ask attempts hv hf hl
  obtain ⟨D0, h1, h2⟩ := h known (fun seen => (ask (seen.map Text.bytesToUrlsafe)).request)
    (attempts.map fun p => (p.1, fun seen => opened (p.2 (seen.map Text.bytesToUrlsafe)))) (fun seen => (hv _).request)
    (by
      intro p hp seen
      obtain ⟨q, hq, rfl⟩ := List.mem_map.mp hp
      have := hf q hq (seen.map Text.bytesToUrlsafe)
      exact ⟨this.key_ge, this.key_lt, this.aad, this.saltDraw⟩)
    (by
      intro p hp seen seen'
      obtain ⟨q, hq, rfl⟩ := List.mem_map.mp hp
      exact hl q hq _ _)
  refine ⟨D0, ?_, fun D hD => ?_⟩
  · intro q hq
    obtain ⟨F, hF, p, hp, seen, w, e⟩ := h1 q hq
    obtain ⟨p', hp', rfl⟩ := List.mem_map.mp hp
    exact ⟨F, hF, p', hp', seen.map Text.bytesToUrlsafe, w, e⟩
  · have := h2 D hD
    rw [List.length_map] at this
    refine le_trans (Nat.mul_le_mul_right _ (count_mono fun T => ?_)) this
    rintro ⟨p, hp, hs⟩
    exact ⟨_, List.mem_map.mpr ⟨p, hp, rfl⟩, forged_ciphertext (hc _) (hback _) hv (hf p hp) hs⟩

/-- **C108**. Tokens of the shake-permute ciphers that hold something that no token was made for are made for as many hash functions as a guess of the tag would be right for. -/
theorem C108_permute {E : Env} (h : PermuteSetup E) (hframe : E.cfg.paddingFrame ≤ 256) {K : Nat} (hK : 2 * E.cfg.shmacBlocksize ≤ K) (htag : E.cfg.shmacBytes ≤ E.cfg.shmacBlocksize) :
    TokensUnforgeable E.cfg [E.shmacKdf.factory] K
      (fun x r => (permuteCipher { E with shmacKdf := { E.shmacKdf with xof := x } }).makeToken r.key r.draws r.aad r.data)
      (fun x a => (permuteCipher { E with shmacKdf := { E.shmacKdf with xof := x } }).readToken a.key a.saltDraw a.now a.ttl a.aad a.data) := by
  refine tokens_of_ciphertexts (C := fun x => permuteCipher { E with shmacKdf := { E.shmacKdf with xof := x } }) (fun _ => rfl) ?_ (C96_permute h hK htag)
  intro x r hr ciphertext hct
  obtain ⟨ct, e, hb⟩ := C21_decrypt_encrypt (rehash_setup h x) hframe r.key hr.key_ge hr.key_lt r.draws hr.draws none (.inl rfl) r.aad hr.aad r.data
  have : ct = ciphertext := by
    have := e.symm.trans hct
    cases this; rfl
  exact this ▸ hb

/-- **C108**. The same for the dual output ciphers. -/
theorem C108_dual {E : DualEnv} (h : DualSetup E) (hframe : E.cfg.paddingFrame ≤ 256) {K : Nat} (hK : 2 * E.cfg.shmacBlocksize ≤ K) (htag : E.cfg.shmacBytes ≤ E.cfg.shmacBlocksize) :
    TokensUnforgeable E.cfg [E.shmacKdf.factory] K
      (fun x r => (dualCipher { E with shmacKdf := { E.shmacKdf with xof := x }, leftKdf := { E.leftKdf with xof := x }, rightKdf := { E.rightKdf with xof := x } }).makeToken
        r.key r.draws r.aad r.data)
      (fun x a => (dualCipher { E with shmacKdf := { E.shmacKdf with xof := x }, leftKdf := { E.leftKdf with xof := x }, rightKdf := { E.rightKdf with xof := x } }).readToken
        a.key a.saltDraw a.now a.ttl a.aad a.data) := by
  refine tokens_of_ciphertexts
    (C := fun x => dualCipher { E with shmacKdf := { E.shmacKdf with xof := x }, leftKdf := { E.leftKdf with xof := x }, rightKdf := { E.rightKdf with xof := x } }) (fun _ => rfl) ?_ (C96_dual h hK htag)
  intro x r hr ciphertext hct
  obtain ⟨ct, e, hb⟩ := C22_decrypt_encrypt (rehashDual_setup h x) hframe r.key hr.key_ge hr.key_lt r.draws hr.draws none (.inl rfl) r.aad hr.aad r.data
  have : ct = ciphertext := by
    have := e.symm.trans hct
    cases this; rfl
  exact this ▸ hb

/-- Someone who has numbered tokens made for three bytes of the tokens so far. -/
def sampleOrders (c : Sizes) : List Bytes → TokenOrder := fun seen => ⟨sampleKey, sampleDraws c, beDigits 4 seen.length, ([1, 2, 3] ++ seen.flatten).reverse.take 3⟩

theorem sampleOrders_valid {c : Sizes} (h : c.timestampBytes = 4) (seen : List Bytes) : (sampleOrders c seen).Valid c :=
  ⟨(by decide : 64 ≤ sampleKey.length), (by decide : sampleKey.length < 256 ^ 8), sampleDraws_fit c h, by
    show (beDigits 4 seen.length).length < 256 ^ 4
    rw [length_beDigits]; decide⟩

example := C108_permute sampleSlick_setup (by decide) (K := 1000) (by decide) (by decide) sampleXof (sampleOrders sampleSlick.cfg)
  [(0, sampleForger sampleSlick.cfg), (12, sampleForger sampleSlick.cfg)] (sampleOrders_valid rfl)
  (fun p hp seen => by simp at hp; rcases hp with rfl | rfl <;> exact sampleForger_valid _ seen) fun p hp seen seen' => by
    simp at hp; rcases hp with rfl | rfl <;> rfl

example := C108_dual sampleDual_setup (by decide) (K := 1000) (by decide) (by decide) sampleXof (sampleOrders sampleDual.cfg)
  [(0, sampleForger sampleDual.cfg), (12, sampleForger sampleDual.cfg)] (sampleOrders_valid rfl)
  (fun p hp seen => by simp at hp; rcases hp with rfl | rfl <;> exact sampleForger_valid _ seen) fun p hp seen seen' => by
    simp at hp; rcases hp with rfl | rfl <;> rfl

end Aiootp.Secrecy
