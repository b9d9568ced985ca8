import Verif.Props.Cipher

/-!
C124: which accepted cipher configs can decrypt what they encrypt.
-/

namespace Aiootp.Cipher

open Perm

/-! ### specification -/

/-- Whatever is encrypted comes back. -/
def Works {κ : Type} (C : Cipher κ) : Prop :=
  ∀ key : Bytes, 64 ≤ key.length → key.length < 256 ^ 8 → ∀ d : Draws, d.Fit C.cfg → ∀ salt : Option Bytes, SaltAllowed C.cfg salt →
    ∀ aad : Bytes, aad.length < 256 ^ 4 → ∀ data : Bytes,
      ∃ ciphertext, C.bytesEncrypt key d salt aad data = .ok ciphertext ∧ ComesBack C key d.reading aad data ciphertext

/-- Nothing is ever decrypted. -/
def NeverDecrypts {κ : Type} (C : Cipher κ) : Prop :=
  ∀ (key saltDraw : Bytes) (now : Int) (ttl : Option Int) (aad data out : Bytes), C.bytesDecrypt key saltDraw now ttl aad data ≠ .ok out

/-- Something is encrypted, whatever the key and the data. -/
def Encrypts {κ : Type} (C : Cipher κ) : Prop :=
  ∀ key : Bytes, 64 ≤ key.length → key.length < 256 ^ 8 → ∀ d : Draws, d.Fit C.cfg → ∀ salt : Option Bytes, SaltAllowed C.cfg salt →
    ∀ aad : Bytes, aad.length < 256 ^ 4 → ∀ data : Bytes, ∃ ciphertext, C.bytesEncrypt key d salt aad data = .ok ciphertext

/-- A tag is not empty and not longer than what the hash gives for it. -/
def TagFits (c : Sizes) : Prop := 0 < c.shmacBytes ∧ c.shmacBytes ≤ 2 * c.shmacBlocksize

/-- A SHAKE-permute cipher whose config was accepted: the constructor of the config asks for no more. The two limits are four gigabytes. -/
structure PermuteAccepted (E : Env) : Prop where
  accepted : E.cfg.acceptPermute = .ok ()
  permutation : ∃ hash, AffineConfig.new E.cfg.blocksize hash = .ok E.permConfig
  blocksize : E.shmacKdf.blocksize = E.cfg.shmacBlocksize
  salt_lt : E.cfg.saltBytes < 256 ^ 4
  iv_lt : E.cfg.ivBytes < 256 ^ 4

/-- A dual-output cipher whose config was accepted. -/
structure DualAccepted (E : DualEnv) : Prop where
  accepted : ∃ s, s.Drawn E.cfg ∧ E.cfg.acceptDual E.leftKdf.blocksize E.rightKdf.blocksize s = .ok ()
  permutation : ∃ hash, AffineConfig.new E.cfg.innerHeaderBytes hash = .ok E.permConfig
  blocksize : E.shmacKdf.blocksize = E.cfg.shmacBlocksize
  left_lt : E.leftKdf.blocksize < 256 ^ 8
  salt_lt : E.cfg.saltBytes < 256 ^ 4
  iv_lt : E.cfg.ivBytes < 256 ^ 4

/-! ### lemmas -/

theorem ljust_pad {data pad r : Bytes} {n : Nat} (h : Canon.ljust data n pad = .ok r) : ∃ p, pad = [p] := by
  unfold Canon.ljust at h
  split at h
  · exact ⟨_, rfl⟩
  · cases h

theorem keyed_pad {k : KdfConfig} {key x : Bytes} (h : k.keyed key = .ok x) : ∃ p, k.pad = [p] := by
  simp only [KdfConfig.keyed, Canon.encodeKey, bind_eq_ok] at h
  obtain ⟨e, h, _⟩ := h
  split at h
  · cases h
  · simp only [bind_eq_ok, pure, Except.pure, Except.ok.injEq] at h
    obtain ⟨_, _, h⟩ := h
    obtain ⟨_, _, h⟩ := h
    unfold Canon.fullblockLjust at h
    split at h
    · cases h
    · exact ljust_pad h

theorem startSession_pad {κ : Type} {C : Cipher κ} {key : Bytes} {b : SaltAADIV} {d : Direction} {s : Cipher.Session κ} (h : C.startSession key b d = .ok s) :
    (∃ p, C.shmacKdf.pad = [p]) ∧ ∃ summary keys, C.sessionKdfs key summary = .ok keys := by
  simp only [Cipher.startSession, bind_eq_ok] at h
  obtain ⟨_, _, kdf, h1, summary, _, _, _, keys, h2, _⟩ := h
  exact ⟨keyed_pad h1, summary, keys, h2⟩

theorem length_tagOf (E : Env) (h : ¬ TagFits E.cfg) (hB : 0 < E.cfg.shmacBlocksize) (m : Bytes) : (Shmac.tagOf E m).length ≠ E.cfg.shmacBytes := by
  unfold TagFits at h
  unfold Shmac.tagOf Sizes.shmacResultSlice
  by_cases h0 : E.cfg.shmacBytes = 0
  · rw [h0]
    have : Slice.of ⟨some (-((0 : Nat) : Int)), none⟩ (E.shmacKdf.xof.digest m E.cfg.shmacDoubleBlocksize)
        = E.shmacKdf.xof.digest m E.cfg.shmacDoubleBlocksize := by
      simp [Slice.of, sliceBound]
    rw [this, Xof.length_digest]
    unfold Sizes.shmacDoubleBlocksize
    omega
  · rw [slice_neg_none _ _ (by omega), List.length_drop, Xof.length_digest]
    unfold Sizes.shmacDoubleBlocksize
    omega

theorem bytesDecrypt_ok {κ : Type} {C : Cipher κ} {key saltDraw aad data out : Bytes} {now : Int} {ttl : Option Int}
    (h : C.bytesDecrypt key saltDraw now ttl aad data = .ok out) :
    (∃ parts mac, Ciphertext.parse C.cfg data = .ok parts ∧ parts.shmac = Shmac.tagOf C.toEnv mac) ∧
    ∃ b s, C.startSession key b .decryption = .ok s := by
  simp only [Cipher.bytesDecrypt, bind_eq_ok] at h
  obtain ⟨parts, hp, b, _, s, hs, ⟨blocks, s'⟩, _, ⟨r, shmac⟩, hf, _, ht, _⟩ := h
  refine ⟨?_, b, s, hs⟩
  simp only [Shmac.finalize, bind_eq_ok, pure, Except.pure, Except.ok.injEq, Prod.mk.injEq] at hf
  obtain ⟨_, _, mac, _, _, rfl⟩ := hf
  refine ⟨parts, mac, hp, ?_⟩
  simp only [Shmac.testShmac, Shmac.getResult, bind_eq_ok, Except.ok.injEq] at ht
  obtain ⟨_, rfl, ht⟩ := ht
  unfold raiseIf at ht
  split at ht
  · cases ht
  · rename_i hn
    exact Classical.not_not.1 hn

/-! ### the properties -/

/-- **C124** Ciphers with tags of no bytes, or of more bytes than the hash gives, never decrypt anything. -/
theorem C124_never_tag {κ : Type} {C : Cipher κ} (hacc : Accepted C.cfg) (hB : 0 < C.cfg.shmacBlocksize) (h : ¬ TagFits C.cfg) : NeverDecrypts C := by
  intro key saltDraw now ttl aad data out hd
  obtain ⟨⟨parts, mac, hp, ht⟩, _⟩ := bytesDecrypt_ok hd
  have := ((C25_parts hacc data).1 parts hp).2.1
  rw [ht] at this
  exact length_tagOf C.toEnv h hB mac this

/-- **C124** Ciphers with a pad that is not one byte never decrypt, and never encrypt, anything. -/
theorem C124_never_pad {κ : Type} {C : Cipher κ} (h : ¬ ∃ p, C.shmacKdf.pad = [p]) :
    NeverDecrypts C ∧ ∀ key d salt aad data out, C.bytesEncrypt key d salt aad data ≠ .ok out := by
  constructor
  · intro key saltDraw now ttl aad data out hd
    obtain ⟨_, b, s, hs⟩ := bytesDecrypt_ok hd
    exact h (startSession_pad hs).1
  · intro key d salt aad data out hd
    simp only [Cipher.bytesEncrypt, bind_eq_ok] at hd
    obtain ⟨_, _, s, hs, _⟩ := hd
    exact h (startSession_pad hs).1

theorem PermuteAccepted.setup {E : Env} (h : PermuteAccepted E) (hp : ∃ p, E.shmacKdf.pad = [p]) (ht : TagFits E.cfg) : PermuteSetup E :=
  ⟨h.accepted, h.permutation, h.blocksize, hp, ht.1, ht.2, h.salt_lt, h.iv_lt⟩

theorem DualAccepted.setup {E : DualEnv} (h : DualAccepted E) (hp : ∃ p, E.shmacKdf.pad = [p]) (hl : ∃ p, E.leftKdf.pad = [p]) (hr : ∃ p, E.rightKdf.pad = [p])
    (ht : TagFits E.cfg) : DualSetup E :=
  ⟨h.accepted, h.permutation, h.blocksize, hp, hl, hr, h.left_lt, ht.1, ht.2, h.salt_lt, h.iv_lt⟩

/-- **C124** A SHAKE-permute cipher whose config was accepted (with a padding frame of at most 256 bytes, see C20) works, or never decrypts anything. It works exactly
if the pad of its KDF is one byte and its tags fit. -/
theorem C124_permute_partial {E : Env} (h : PermuteAccepted E) (hframe : E.cfg.paddingFrame ≤ 256) :
    ((∃ p, E.shmacKdf.pad = [p]) ∧ TagFits E.cfg → Works (permuteCipher E)) ∧
    (¬ ((∃ p, E.shmacKdf.pad = [p]) ∧ TagFits E.cfg) → NeverDecrypts (permuteCipher E)) := by
  constructor
  · rintro ⟨hp, ht⟩ key hk hk2 d hd salt hs aad ha data
    exact C21_decrypt_encrypt (h.setup hp ht) hframe key hk hk2 d hd salt hs aad ha data
  · intro hn
    by_cases hp : ∃ p, E.shmacKdf.pad = [p]
    · obtain ⟨_, _, _, _, h3, _⟩ := Sizes.acceptPermute_ok.1 h.accepted
      exact C124_never_tag (C := permuteCipher E) (.inl h.accepted) (show 0 < E.cfg.shmacBlocksize by omega) (fun ht => hn ⟨hp, ht⟩)
    · exact (C124_never_pad (C := permuteCipher E) hp).1

/-- **C124** The same for dual-output ciphers, which have two more KDFs. -/
theorem C124_dual_partial {E : DualEnv} (h : DualAccepted E) (hframe : E.cfg.paddingFrame ≤ 256) :
    ((∃ p, E.shmacKdf.pad = [p]) ∧ (∃ p, E.leftKdf.pad = [p]) ∧ (∃ p, E.rightKdf.pad = [p]) ∧ TagFits E.cfg → Works (dualCipher E)) ∧
    (¬ ((∃ p, E.shmacKdf.pad = [p]) ∧ (∃ p, E.leftKdf.pad = [p]) ∧ (∃ p, E.rightKdf.pad = [p]) ∧ TagFits E.cfg) → NeverDecrypts (dualCipher E)) := by
  constructor
  · rintro ⟨hp, hl, hr, ht⟩ key hk hk2 d hd salt hs aad ha data
    exact C22_decrypt_encrypt (h.setup hp hl hr ht) hframe key hk hk2 d hd salt hs aad ha data
  · intro hn key saltDraw now ttl aad data out hd
    obtain ⟨⟨parts, mac, hpt, ht⟩, b, s, hs⟩ := bytesDecrypt_ok hd
    obtain ⟨hp, summary, keys, hkeys⟩ := startSession_pad hs
    have hkeys : (do
        let left ← E.leftKdf.keyed key
        let right ← E.rightKdf.keyed key
        let left ← E.leftKdf.newSessionCopy left summary
        let right ← E.rightKdf.newSessionCopy right summary
        return ({ left, right, started := false } : DualKeys)) = .ok keys := hkeys
    simp only [bind_eq_ok] at hkeys
    obtain ⟨_, hl, _, hr, _⟩ := hkeys
    obtain ⟨s, hs, hacc⟩ := h.accepted
    have hB : 0 < E.cfg.shmacBlocksize := by
      have h1 := (Sizes.acceptDual_ok hs hacc)
      obtain ⟨_, _, g1, g2, _, _, _, _, _, g3, g4, g5⟩ := h1
      unfold Sizes.shmacDoubleBlocksize at *
      omega
    exact C124_never_tag (C := dualCipher E) (.inr ⟨_, _, s, hs, hacc⟩) hB (fun ht => hn ⟨hp, keyed_pad hl, keyed_pad hr, ht⟩) _ _ _ _ _ _ _ hd

/-! ### lost plaintexts -/

/-- The same cipher with tags of one byte. -/
def shortTag (E : Env) : Env := { E with cfg := { E.cfg with shmacBytes := 1 } }

theorem run_shortTag (E : Env) : ∀ (blocks : List Bytes) (s : Cipher.Session Unit), (permuteCipher (shortTag E)).run s blocks = (permuteCipher E).run s blocks
  | [], _ => rfl
  | b :: bs, s => by
    rw [Cipher.run, Cipher.run]
    have : (permuteCipher (shortTag E)).turn s.shmac s.keys b = (permuteCipher E).turn s.shmac s.keys b := rfl
    rw [this]
    simp only [run_shortTag E bs]

/-- **C124** The full claim fails: a SHAKE-permute cipher with tags that do not fit is accepted and encrypts everything, and nothing that it has encrypted can be
decrypted. -/
theorem C124_lost {E : Env} (h : PermuteAccepted E) (hp : ∃ p, E.shmacKdf.pad = [p]) (hframe : E.cfg.paddingFrame ≤ 256) (ht : ¬ TagFits E.cfg) :
    Encrypts (permuteCipher E) ∧ NeverDecrypts (permuteCipher E) := by
  refine ⟨?_, (C124_permute_partial h hframe).2 fun hg => ht hg.2⟩
  intro key hk hk2 d hd salt hs aad ha data
  obtain ⟨_, _, _, _, h3, _⟩ := Sizes.acceptPermute_ok.1 h.accepted
  have hset : PermuteSetup (shortTag E) := by
    refine ⟨h.accepted, h.permutation, h.blocksize, hp, Nat.one_pos, ?_, h.salt_lt, h.iv_lt⟩
    show 1 ≤ 2 * E.cfg.shmacBlocksize
    omega
  obtain ⟨ct, hct, _⟩ := C21_decrypt_encrypt hset hframe key hk hk2 d ⟨hd.salt, hd.iv, hd.sivKey, hd.extra, hd.reading_nonneg, hd.reading_lt⟩ salt hs aad ha data
  simp only [Cipher.bytesEncrypt, bind_eq_ok, run_shortTag] at hct
  obtain ⟨b, hb, s, hs', p, hpad, ⟨bl, s2⟩, hrun, ⟨tag, _⟩, hf, _⟩ := hct
  have hb' : SaltAADIV.new (permuteCipher E).cfg salt aad none d.salt d.iv = .ok b := hb
  have hs'' : (permuteCipher E).startSession key b .encryption = .ok s := hs'
  have hpad' : (permuteCipher E).cfg.padPlaintext d.reading d.sivKey d.extra data = .ok p := hpad
  have hrun' : (permuteCipher E).run s (Text.batch (permuteCipher E).cfg.blocksize p) = .ok (bl, s2) := hrun
  simp only [Shmac.finalize, bind_eq_ok] at hf
  obtain ⟨u, hu, mac, hmac, _⟩ := hf
  unfold Cipher.bytesEncrypt
  rw [hb']
  simp only [bind, Except.bind, hs'', hpad', hrun', Shmac.finalize, hu, hmac, pure, Except.pure]
  exact ⟨_, rfl⟩

/-! ### block ids -/

/-- **C124** If the size of block ids of a config is not within its own limits, or does not fit into one byte, then no block id of that size is ever made or accepted, by
any stream. -/
theorem C124_block_ids_never {E : Env} (h : ¬ (E.cfg.minBlockIdBytes ≤ E.cfg.blockIdBytes ∧ E.cfg.blockIdBytes ≤ E.cfg.maxBlockIdBytes) ∨ 256 ≤ E.cfg.blockIdBytes)
    (s : Shmac) (block aad : Bytes) :
    (∃ e, s.nextBlockId E block 0 aad = .error e) ∧ ∀ blockId : Bytes, blockId.length = E.cfg.blockIdBytes → ∃ e, s.testNextBlockId E blockId block aad = .error e := by
  have key : ∀ size, (size = 0 ∨ size = E.cfg.blockIdBytes) → ∀ x, s.nextBlockId E block size aad ≠ .ok x := by
    intro size hsize x hx
    have hs : (if size = 0 then E.cfg.blockIdBytes else size) = E.cfg.blockIdBytes := by
      split
      · rfl
      · rcases hsize with h | h <;> omega
    simp only [Shmac.nextBlockId, hs, bind_eq_ok, raiseIf] at hx
    obtain ⟨_, h1, _, h2, mac, _, payload, h3, _⟩ := hx
    split at h1
    · cases h1
    split at h2
    · cases h2
    simp only [Shmac.blockIdPayload, bind_eq_ok] at h3
    obtain ⟨b, h3, _⟩ := h3
    rcases h with h | h
    · omega
    · unfold toBytesBE at h3
      split at h3
      · omega
      · cases h3
  constructor
  · cases hx : s.nextBlockId E block 0 aad with
    | error e => exact ⟨e, rfl⟩
    | ok x => exact absurd hx (key 0 (.inl rfl) x)
  · intro blockId hl
    cases hx : s.nextBlockId E block blockId.length aad with
    | error e =>
      refine ⟨e, ?_⟩
      unfold Shmac.testNextBlockId
      rw [hx]
      rfl
    | ok x => exact absurd hx (key _ (.inr hl) x)

/-- **C124** A config with block ids of no bytes is accepted: then the empty block id is right for every block. -/
theorem C124_block_ids_empty {E : Env} (h : E.cfg.blockIdBytes = 0) (hmin : E.cfg.minBlockIdBytes = 0) {s : Shmac} {mac : Bytes} (hs : s.blockIdMac = .ok mac) (block aad : Bytes)
    (hb : block.length < 256 ^ 8) (ha : aad.length < 256 ^ 8) : s.testNextBlockId E [] block aad = .ok () := by
  obtain ⟨x, hx⟩ : ∃ x, Shmac.blockIdPayload mac 0 aad block = .ok x := by
    unfold Shmac.blockIdPayload toBytesBE
    simp only [bind, Except.bind, pure, Except.pure, hb, ha, if_true, show (0 : Nat) < 256 ^ 1 from by decide]
    exact ⟨_, rfl⟩
  have hd : E.blockIdKdf.xof.digest (E.blockIdKdf.factory ++ x) 0 = [] := List.eq_nil_of_length_eq_zero (Xof.length_digest _ _ _)
  unfold Shmac.testNextBlockId Shmac.nextBlockId raiseIf
  simp [h, hmin, hs, hx, hd, bind, Except.bind, pure, Except.pure]

/-! ### examples -/

/-- Slick256 with block ids of no bytes is accepted. -/
example : ({ slick256 0 with blockIdBytes := 0, minBlockIdBytes := 0 } : Sizes).acceptPermute = .ok () := by decide +kernel

/-- So is Slick256 with block ids that are longer than its own limit. -/
example : ({ slick256 0 with blockIdBytes := 33 } : Sizes).acceptPermute = .ok () ∧ (slick256 0).maxBlockIdBytes = 32 := by decide +kernel

theorem sampleSlick_accepted : PermuteAccepted sampleSlick :=
  ⟨sampleSlick_setup.accepted, sampleSlick_setup.permutation, rfl, sampleSlick_setup.salt_lt, sampleSlick_setup.iv_lt⟩

/-- Slick256 with tags of 337 bytes. -/
def longTagSlick : Env := { sampleSlick with cfg := { sampleSlick.cfg with shmacBytes := 337 } }

example : PermuteAccepted longTagSlick ∧ (∃ p, longTagSlick.shmacKdf.pad = [p]) ∧ longTagSlick.cfg.paddingFrame ≤ 256 ∧ ¬ TagFits longTagSlick.cfg :=
  ⟨⟨sampleSlick_setup.accepted, sampleSlick_setup.permutation, rfl, by decide, by decide⟩, ⟨_, rfl⟩, by decide, by
    unfold TagFits; decide⟩

example : PermuteAccepted sampleSlick ∧ (∃ p, sampleSlick.shmacKdf.pad = [p]) ∧ sampleSlick.cfg.paddingFrame ≤ 256 ∧ TagFits sampleSlick.cfg :=
  ⟨sampleSlick_accepted, ⟨_, rfl⟩, by decide, by unfold TagFits; decide⟩

example : DualAccepted sampleChunky ∧ (∃ p, sampleChunky.shmacKdf.pad = [p]) ∧ sampleChunky.cfg.paddingFrame ≤ 256 ∧ TagFits sampleChunky.cfg :=
  ⟨⟨sampleChunky_setup.accepted, sampleChunky_setup.permutation, rfl, sampleChunky_setup.left_lt, sampleChunky_setup.salt_lt, sampleChunky_setup.iv_lt⟩, ⟨_, rfl⟩,
    by decide, by unfold TagFits; decide⟩

end Aiootp.Cipher
