import Verif.Lemmas.Message

/-
Properties C21, C22 (decryption inverts encryption), C23 (nothing is returned before the tag is checked) and C24 (the
tag covers every byte).
-/

namespace Aiootp.Cipher

open Perm

/-! ### the ciphers the properties range over -/

/-- A shake-permute cipher as the library builds it: its configuration was accepted, its permutation was built for the
blocksize (from whatever hash), its hash object has the block size that the configuration names and a one-byte padding
symbol. Beside what the constructor checks, the tag must fit into the digest it is cut from, and salt and iv must not
be 4 GiB or longer. -/
structure PermuteSetup (E : Env) : Prop where
  accepted : E.cfg.acceptPermute = .ok ()
  permutation : ∃ hash, AffineConfig.new E.cfg.blocksize hash = .ok E.permConfig
  blocksize : E.shmacKdf.blocksize = E.cfg.shmacBlocksize
  pad : ∃ p, E.shmacKdf.pad = [p]
  tag_pos : 0 < E.cfg.shmacBytes
  tag_le : E.cfg.shmacBytes ≤ 2 * E.cfg.shmacBlocksize
  salt_lt : E.cfg.saltBytes < 256 ^ 4
  iv_lt : E.cfg.ivBytes < 256 ^ 4

/-- A dual-output cipher as the library builds it. -/
structure DualSetup (E : DualEnv) : Prop where
  accepted : ∃ s, s.Drawn E.cfg ∧ E.cfg.acceptDual E.leftKdf.blocksize E.rightKdf.blocksize s = .ok ()
  permutation : ∃ hash, AffineConfig.new E.cfg.innerHeaderBytes hash = .ok E.permConfig
  blocksize : E.shmacKdf.blocksize = E.cfg.shmacBlocksize
  pad : ∃ p, E.shmacKdf.pad = [p]
  left_pad : ∃ p, E.leftKdf.pad = [p]
  right_pad : ∃ p, E.rightKdf.pad = [p]
  left_lt : E.leftKdf.blocksize < 256 ^ 8
  tag_pos : 0 < E.cfg.shmacBytes
  tag_le : E.cfg.shmacBytes ≤ 2 * E.cfg.shmacBlocksize
  salt_lt : E.cfg.saltBytes < 256 ^ 4
  iv_lt : E.cfg.ivBytes < 256 ^ 4

theorem PermuteSetup.permuteWF {E : Env} (h : PermuteSetup E) : PermuteWF E.cfg := permuteWF_of_accept h.accepted

theorem shmacBlocksize_small {c : Sizes} {k : Nat} (h : c.primerKeyBytes k < 256 ^ 2) : c.shmacBlocksize < 256 ^ 8 := by
  unfold Sizes.primerKeyBytes at h
  have : c.shmacBlocksize ≤ c.shmacBlocksize * (1 + ceilDiv k c.shmacBlocksize) := Nat.le_mul_of_pos_right _ (by omega)
  omega

theorem PermuteSetup.usable {E : Env} (h : PermuteSetup E) : Usable (permuteCipher E) where
  env := by
    obtain ⟨hm, ⟨_, _, _, hp⟩, _, _, h3, _⟩ := Sizes.acceptPermute_ok.1 h.accepted
    refine ⟨h.permutation, hm, ⟨h.pad, ?_, ?_⟩, h.blocksize⟩
    · show 0 < E.shmacKdf.blocksize
      rw [h.blocksize]; omega
    · show E.shmacKdf.blocksize < _
      rw [h.blocksize]; exact shmacBlocksize_small hp
  accepted := .inl h.accepted
  shmac_pos := h.tag_pos
  shmac_le := h.tag_le
  salt_lt := h.salt_lt
  iv_lt := h.iv_lt

theorem DualSetup.wf {E : DualEnv} (h : DualSetup E) : E.cfg.DualWF := by
  obtain ⟨s, hs, hacc⟩ := h.accepted
  obtain ⟨hm, _, g1, g2, _, _, _, _, _, g3, g4, g5⟩ := Sizes.acceptDual_ok hs hacc
  exact ⟨g1, g2, (Sizes.permutationSizes_pos hm).1, g3, g4, g5⟩

theorem DualSetup.sides {E : DualEnv} (h : DualSetup E) : E.leftKdf.WF ∧ E.rightKdf.WF := by
  obtain ⟨s, hs, hacc⟩ := h.accepted
  obtain ⟨_, _, _, _, hb, hlr, hle, _⟩ := Sizes.acceptDual_ok hs hacc
  have := h.left_lt
  exact ⟨⟨h.left_pad, by omega, by omega⟩, ⟨h.right_pad, by omega, by omega⟩⟩

theorem DualSetup.usable {E : DualEnv} (h : DualSetup E) : Usable (dualCipher E) where
  env := by
    obtain ⟨s, hs, hacc⟩ := h.accepted
    obtain ⟨hm, ⟨_, _, _, hp⟩, _⟩ := Sizes.acceptDual_ok hs hacc
    have hwf := h.wf
    have h1 := hwf.block_lt
    unfold Sizes.shmacDoubleBlocksize at h1
    refine ⟨h.permutation, hm, ⟨h.pad, ?_, ?_⟩, h.blocksize⟩
    · show 0 < E.shmacKdf.blocksize
      rw [h.blocksize]; omega
    · show E.shmacKdf.blocksize < _
      rw [h.blocksize]; exact shmacBlocksize_small hp
  accepted := by
    obtain ⟨s, hs, hacc⟩ := h.accepted
    exact .inr ⟨_, _, s, hs, hacc⟩
  shmac_pos := h.tag_pos
  shmac_le := h.tag_le
  salt_lt := h.salt_lt
  iv_lt := h.iv_lt

/-! ### a concrete instance of both -/

/-- A hash function with outputs of every length. -/
def sampleXof : Xof where
  digest := fun m n => (List.range n).map (fun i => UInt8.ofNat (fromBE m % 65521 + 7 * i))
  length_digest := fun m n => by simp

/-- A hash configuration with the block size of `shake_128`. -/
def sampleKdf : KdfConfig where
  xof := sampleXof
  pad := [0x6a]
  offsetAmount := 3
  blocksize := 168
  factory := [1, 2, 3]

/-- The permutation of Slick256 for one value of its hash. -/
def samplePerm32 : AffineConfig where
  size := 32
  max := 2 ^ 256 - 1
  prime := 2 ^ 256 + 297
  multiplicativeKey := 340282366920938463463374607431768223801
  inverseKey := 12747740779883287534254075075467853925099534208895669901415969423700815539986

/-- The permutation of Chunky2048 for one value of its hash. -/
def samplePerm20 : AffineConfig where
  size := 20
  max := 2 ^ 160 - 1
  prime := 2 ^ 160 + 7
  multiplicativeKey := 1208925819614629174718521
  inverseKey := 216693822375770330414608813729469690325268308158

/-- Slick256 with the sample hash function. -/
def sampleSlick : Env where
  cfg := slick256 0
  permConfig := samplePerm32
  shmacKdf := sampleKdf
  blockIdKdf := sampleKdf

/-- Chunky2048 with the sample hash function. Its ratchet keys are split into even and odd bytes. -/
def sampleChunky : DualEnv where
  cfg := chunky2048 0
  permConfig := samplePerm20
  shmacKdf := sampleKdf
  blockIdKdf := sampleKdf
  leftKdf := sampleKdf
  rightKdf := sampleKdf
  leftSlice := fun k => (List.range (k.length / 2)).map (fun i => k.getD (2 * i) 0)
  rightSlice := fun k => (List.range (k.length / 2)).map (fun i => k.getD (2 * i + 1) 0)

theorem sampleSlick_setup : PermuteSetup sampleSlick where
  accepted := slick256_accepted 0 (by decide)
  permutation := ⟨12345, by decide +kernel⟩
  blocksize := rfl
  pad := ⟨_, rfl⟩
  tag_pos := by decide
  tag_le := by decide
  salt_lt := by decide
  iv_lt := by decide

theorem sampleChunky_setup : DualSetup sampleChunky where
  accepted := ⟨_, zeroSample_drawn _, chunky2048_accepted 0 (by decide) _ (zeroSample_drawn _)⟩
  permutation := ⟨12345, by decide +kernel⟩
  blocksize := rfl
  pad := ⟨_, rfl⟩
  left_pad := ⟨_, rfl⟩
  right_pad := ⟨_, rfl⟩
  left_lt := by decide
  tag_pos := by decide
  tag_le := by decide
  salt_lt := by decide
  iv_lt := by decide

def sampleDraws (c : Sizes) : Draws where
  salt := List.replicate c.saltBytes 1
  iv := List.replicate c.ivBytes 2
  reading := 1700000
  sivKey := List.replicate c.sivKeyBytes 3
  extra := List.replicate c.paddingFrame 4

theorem sampleDraws_fit (c : Sizes) (h : c.timestampBytes = 4) : (sampleDraws c).Fit c := by
  refine ⟨by simp [sampleDraws], by simp [sampleDraws], by simp [sampleDraws], by simp [sampleDraws],
    by simp [sampleDraws], ?_⟩
  rw [h]; simp [sampleDraws]

def sampleKey : Bytes := List.replicate 64 9

/-! ### C21, C22 -/

/-- The salts a caller may give to `bytes_encrypt`: none, an empty one, or one of the right size. -/
def SaltAllowed (c : Sizes) (salt : Option Bytes) : Prop :=
  salt = none ∨ salt = some [] ∨ ∃ s, salt = some s ∧ s.length = c.saltBytes

/-- The plaintext comes back from decryption: without a time to live whenever it is decrypted, with one exactly while it
has not expired. -/
def ComesBack {κ : Type} (C : Cipher κ) (key : Bytes) (reading : Int) (aad data ciphertext : Bytes) : Prop :=
  ∀ saltDraw : Bytes, saltDraw.length = C.cfg.saltBytes → ∀ now : Int,
    C.bytesDecrypt key saltDraw now none aad ciphertext = .ok data ∧
    ∀ ttl, C.bytesDecrypt key saltDraw now (some ttl) aad ciphertext
      = if now - reading > ttl then .error (.timestampExpired (now - reading - ttl)) else .ok data

theorem usedSalt_allowed {c : Sizes} {salt : Option Bytes} (h : SaltAllowed c salt) {draw : Bytes}
    (hd : draw.length = c.saltBytes) : (usedSalt salt draw).length = c.saltBytes := by
  rcases h with rfl | rfl | ⟨s, rfl, hs⟩
  · exact hd
  · exact hd
  · rw [usedSalt_given hs hd]; exact hs

theorem round_trip {κ : Type} {C : Cipher κ} (S : Sound C) (u : Usable C) {key : Bytes}
    (hk : 64 ≤ key.length) (hk2 : key.length < 256 ^ 8) {d : Draws} (hd : d.Fit C.cfg) {salt : Option Bytes}
    (hs : SaltAllowed C.cfg salt) {aad : Bytes} (ha : aad.length < 256 ^ 4) (data : Bytes)
    (hroom : C.cfg.sentinelBytes
      ≤ C.cfg.paddingFrame - (C.cfg.timestampBytes + C.cfg.sivKeyBytes + data.length) % C.cfg.paddingFrame) :
    ∃ ciphertext, C.bytesEncrypt key d salt aad data = .ok ciphertext ∧
      ComesBack C key d.reading aad data ciphertext := by
  have hus := usedSalt_allowed hs hd.salt
  obtain ⟨padded, Ps, Xs, m, p, c, perm, keys, hpad, hPs, hX0, hX, henc, hdec⟩ :=
    encrypt_form S u (show minKeyBytes ≤ key.length from hk) hk2 hd hus ha data
  refine ⟨_, henc, ?_⟩
  have hB := u.accepted.blocksize_pos
  have hlen := length_flatten_blocks Xs hX
  have hparse := parse_join u.accepted (u.length_tag m) hus hd.iv
    (by rw [hlen]; exact Nat.mul_pos hB hX0) (by rw [hlen]; exact ⟨_, rfl⟩)
  intro saltDraw hdraw now
  obtain ⟨Qs, m', p', c', perm', keys', _, hrun, hform⟩ :=
    decrypt_form S u (show minKeyBytes ≤ key.length from hk) hk2 hdraw ha hparse
  simp only [batch_of_blocks hB Xs hX] at hrun
  rw [hdec] at hrun
  simp only [Except.ok.injEq, Prod.mk.injEq, Cipher.Session.mk.injEq, Shmac.live, Shmac.mk.injEq,
    Option.some.injEq] at hrun
  obtain ⟨rfl, ⟨_, _, _, rfl, _⟩, _⟩ := hrun
  simp only [if_true, hPs] at hform
  obtain ⟨padded', hpad', h1, h2⟩ := C20_round_trip_partial u.accepted d.reading ⟨hd.reading_nonneg, hd.reading_lt⟩
    d.sivKey d.extra data hd.sivKey hd.extra hroom
  rw [hpad] at hpad'
  cases hpad'
  exact ⟨by rw [hform, h1], fun ttl => by rw [hform, h2]⟩

theorem room_of_small_frame {c : Sizes} (hacc : Accepted c) (hframe : c.paddingFrame ≤ 256) (n : Nat) :
    c.sentinelBytes ≤ c.paddingFrame - (c.timestampBytes + c.sivKeyBytes + n) % c.paddingFrame := by
  have hF := hacc.frame_pos
  have h1 : c.sentinelBytes ≤ 1 := by
    unfold Sizes.sentinelBytes ceilDiv
    omega
  have := Nat.mod_lt (c.timestampBytes + c.sivKeyBytes + n) hF
  omega

/-- C21. Slick256, and every other shake-permute cipher with a padding frame of at most 256 bytes: for every key, salt,
iv, timestamp, siv-key, random padding, aad and plaintext, and whatever the hash functions and the permutation's key
are, encryption succeeds and decryption returns the plaintext. -/
theorem C21_decrypt_encrypt {E : Env} (h : PermuteSetup E) (hframe : E.cfg.paddingFrame ≤ 256)
    (key : Bytes) (hk : 64 ≤ key.length) (hk2 : key.length < 256 ^ 8) (d : Draws) (hd : d.Fit E.cfg)
    (salt : Option Bytes) (hs : SaltAllowed E.cfg salt) (aad : Bytes) (ha : aad.length < 256 ^ 4) (data : Bytes) :
    ∃ ciphertext, (permuteCipher E).bytesEncrypt key d salt aad data = .ok ciphertext ∧
      ComesBack (permuteCipher E) key d.reading aad data ciphertext :=
  round_trip (permuteSound E h.permuteWF) h.usable hk hk2 hd hs ha data
    (room_of_small_frame (.inl h.accepted) hframe _)

/-- C21 for every padding frame, as far as it is true: the padding must be able to hold the sentinel
(`C20_truncated_sentinel`). -/
theorem C21_decrypt_encrypt_large_frame {E : Env} (h : PermuteSetup E)
    (key : Bytes) (hk : 64 ≤ key.length) (hk2 : key.length < 256 ^ 8) (d : Draws) (hd : d.Fit E.cfg)
    (salt : Option Bytes) (hs : SaltAllowed E.cfg salt) (aad : Bytes) (ha : aad.length < 256 ^ 4) (data : Bytes)
    (hroom : E.cfg.sentinelBytes
      ≤ E.cfg.paddingFrame - (E.cfg.timestampBytes + E.cfg.sivKeyBytes + data.length) % E.cfg.paddingFrame) :
    ∃ ciphertext, (permuteCipher E).bytesEncrypt key d salt aad data = .ok ciphertext ∧
      ComesBack (permuteCipher E) key d.reading aad data ciphertext :=
  round_trip (permuteSound E h.permuteWF) h.usable hk hk2 hd hs ha data hroom

example : PermuteSetup sampleSlick ∧ sampleSlick.cfg.paddingFrame ≤ 256 ∧ 64 ≤ sampleKey.length ∧
    (sampleDraws sampleSlick.cfg).Fit sampleSlick.cfg ∧ SaltAllowed sampleSlick.cfg (some [1, 2, 3, 4, 5, 6, 7, 8]) :=
  ⟨sampleSlick_setup, by decide, by decide, sampleDraws_fit _ rfl, .inr (.inr ⟨_, rfl, rfl⟩)⟩

/-- C22. Chunky2048, and every other dual-output cipher with a padding frame of at most 256 bytes. -/
theorem C22_decrypt_encrypt {E : DualEnv} (h : DualSetup E) (hframe : E.cfg.paddingFrame ≤ 256)
    (key : Bytes) (hk : 64 ≤ key.length) (hk2 : key.length < 256 ^ 8) (d : Draws) (hd : d.Fit E.cfg)
    (salt : Option Bytes) (hs : SaltAllowed E.cfg salt) (aad : Bytes) (ha : aad.length < 256 ^ 4) (data : Bytes) :
    ∃ ciphertext, (dualCipher E).bytesEncrypt key d salt aad data = .ok ciphertext ∧
      ComesBack (dualCipher E) key d.reading aad data ciphertext :=
  round_trip (dualSound E h.wf h.sides.1 h.sides.2) h.usable hk hk2 hd hs ha data
    (room_of_small_frame h.usable.accepted hframe _)

/-- C22 for every padding frame, as far as it is true. -/
theorem C22_decrypt_encrypt_large_frame {E : DualEnv} (h : DualSetup E)
    (key : Bytes) (hk : 64 ≤ key.length) (hk2 : key.length < 256 ^ 8) (d : Draws) (hd : d.Fit E.cfg)
    (salt : Option Bytes) (hs : SaltAllowed E.cfg salt) (aad : Bytes) (ha : aad.length < 256 ^ 4) (data : Bytes)
    (hroom : E.cfg.sentinelBytes
      ≤ E.cfg.paddingFrame - (E.cfg.timestampBytes + E.cfg.sivKeyBytes + data.length) % E.cfg.paddingFrame) :
    ∃ ciphertext, (dualCipher E).bytesEncrypt key d salt aad data = .ok ciphertext ∧
      ComesBack (dualCipher E) key d.reading aad data ciphertext :=
  round_trip (dualSound E h.wf h.sides.1 h.sides.2) h.usable hk hk2 hd hs ha data hroom

example : DualSetup sampleChunky ∧ sampleChunky.cfg.paddingFrame ≤ 256 ∧
    (sampleDraws sampleChunky.cfg).Fit sampleChunky.cfg ∧ SaltAllowed sampleChunky.cfg none :=
  ⟨sampleChunky_setup, by decide, sampleDraws_fit _ rfl, .inl rfl⟩

/-! ### C23 -/

/-- What a recipient recomputes from the key, the salt, the aad, the iv and the body of a message: the padded plaintext
and the bytes given to the hash object. -/
def recompute {κ : Type} (C : Cipher κ) (key salt aad iv body : Bytes) : Except Err (Bytes × Bytes) := do
  let session ← C.startSession key ⟨salt, aad, iv, false⟩ .decryption
  let (plaintext, session) ← C.run session (Text.batch C.cfg.blocksize body)
  let hashed ← attr session.shmac.mac
  return (plaintext.flatten, hashed)

/-- Nothing is returned before the tag is checked: whatever the clock and the time to live, `bytes_decrypt` raises
`InvalidCiphertextSize` for what cannot be a ciphertext; otherwise the tag is recomputed from key, salt, aad, iv and
body, a different tag in the ciphertext raises `InvalidSHMAC`, and only for the same tag are timestamp and padding looked
at. -/
def TagChecked {κ : Type} (C : Cipher κ) (key saltDraw aad data : Bytes) : Prop :=
  (∀ e, Ciphertext.parse C.cfg data = .error e →
    ∀ now ttl, C.bytesDecrypt key saltDraw now ttl aad data = .error .ciphertextSize) ∧
  ∀ parts, Ciphertext.parse C.cfg data = .ok parts →
    ∃ padded hashed, recompute C key parts.salt aad parts.iv parts.ciphertext = .ok (padded, hashed) ∧
      ∀ now ttl,
        (parts.shmac ≠ Shmac.tagOf C.toEnv hashed →
          C.bytesDecrypt key saltDraw now ttl aad data = .error .invalidSHMAC) ∧
        (parts.shmac = Shmac.tagOf C.toEnv hashed →
          C.bytesDecrypt key saltDraw now ttl aad data = C.cfg.depadPlaintext now ttl padded)

theorem tag_checked {κ : Type} {C : Cipher κ} (S : Sound C) (u : Usable C) {key : Bytes}
    (hk : 64 ≤ key.length) (hk2 : key.length < 256 ^ 8) {saltDraw : Bytes}
    (hdraw : saltDraw.length = C.cfg.saltBytes) {aad : Bytes} (ha : aad.length < 256 ^ 4) (data : Bytes) :
    TagChecked C key saltDraw aad data := by
  constructor
  · intro e he now ttl
    have := (C25_parts u.accepted data).2 e he
    subst this
    unfold Cipher.bytesDecrypt
    rw [he]; rfl
  · intro parts hp
    obtain ⟨Ps, m, p, c, perm, keys, _, hrun, hform⟩ := decrypt_form S u hk hk2 hdraw ha hp
    refine ⟨Ps.flatten, m, ?_, fun now ttl => ⟨fun hne => ?_, fun he => ?_⟩⟩
    · unfold recompute
      simp only [bind_eq_ok] at hrun
      obtain ⟨s, hs, hr⟩ := hrun
      simp only [hs, hr, bind, Except.bind, Shmac.live, attr, pure, Except.pure]
    · rw [hform, if_neg hne]
    · rw [hform, if_pos he]

/-- C23 for the shake-permute ciphers. -/
theorem C23_permute {E : Env} (h : PermuteSetup E) (key : Bytes) (hk : 64 ≤ key.length)
    (hk2 : key.length < 256 ^ 8) (saltDraw : Bytes) (hdraw : saltDraw.length = E.cfg.saltBytes) (aad : Bytes)
    (ha : aad.length < 256 ^ 4) (data : Bytes) : TagChecked (permuteCipher E) key saltDraw aad data :=
  tag_checked (permuteSound E h.permuteWF) h.usable hk hk2 hdraw ha data

/-- C23 for the dual-output ciphers. -/
theorem C23_dual {E : DualEnv} (h : DualSetup E) (key : Bytes) (hk : 64 ≤ key.length)
    (hk2 : key.length < 256 ^ 8) (saltDraw : Bytes) (hdraw : saltDraw.length = E.cfg.saltBytes) (aad : Bytes)
    (ha : aad.length < 256 ^ 4) (data : Bytes) : TagChecked (dualCipher E) key saltDraw aad data :=
  tag_checked (dualSound E h.wf h.sides.1 h.sides.2) h.usable hk hk2 hdraw ha data

/-- C23, keys: both directions refuse a key that is too short before anything else is computed from it. -/
theorem C23_short_key {κ : Type} (C : Cipher κ) (key : Bytes) (hk : key.length < 64) (b : SaltAADIV) (d : Direction) :
    C.startSession key b d = .error .value := by
  unfold Cipher.startSession testKeyValidity raiseIf
  rw [if_pos (show key.length < minKeyBytes from hk)]
  rfl

/-! ### C24 -/

theorem keyed_inj {k : KdfConfig} (h : k.WF) {key key' x x' : Bytes} (hl : key.length = key'.length)
    (hx : k.keyed key = .ok x) (hx' : k.keyed key' = .ok x') : x.length = x'.length ∧ (x = x' → key = key') := by
  obtain ⟨p, hp⟩ := h.pad
  have form : ∀ key x, k.keyed key = .ok x → ∃ l b r, toBytesLE 8 key.length = .ok l ∧ toBytesLE 8 k.blocksize = .ok b ∧
      Canon.fullblockLjust (key ++ l ++ b ++ k.pad) k.blocksize k.pad = .ok r ∧ x = k.factory ++ r := by
    intro key x hx
    unfold KdfConfig.keyed Canon.encodeKey at hx
    by_cases hk : key.isEmpty = true
    · rw [if_pos hk] at hx; cases hx
    · rw [if_neg hk] at hx
      simp only [bind_eq_ok, pure, Except.pure, Except.ok.injEq] at hx
      obtain ⟨r, ⟨l, hl, b, hb, hr⟩, hx⟩ := hx
      exact ⟨l, b, r, hl, hb, hr, hx.symm⟩
  obtain ⟨l, b, r, hl1, hb, hr, rfl⟩ := form key x hx
  obtain ⟨l', b', r', hl2, hb', hr', rfl⟩ := form key' x' hx'
  rw [hl, hl2] at hl1
  cases hl1
  rw [hb] at hb'
  cases hb'
  obtain ⟨_, q, _, rfl⟩ := Canon.fullblockLjust_ok.1 hr
  obtain ⟨_, q', _, rfl⟩ := Canon.fullblockLjust_ok.1 hr'
  refine ⟨by simp [hl], fun he => ?_⟩
  have he := List.append_cancel_left he
  simp only [List.append_assoc] at he
  exact (List.append_inj he hl).1

/-- The bytes hashed for the tag determine the message (and the key among the keys of one length). -/
theorem hashed_inj {κ : Type} {C : Cipher κ} (S : Sound C) (u : Usable C) {key key' : Bytes} (hk : 64 ≤ key.length)
    (hk2 : key.length < 256 ^ 8) (hkl : key.length = key'.length) {salt salt' aad aad' iv iv' body body' : Bytes}
    (hs : salt.length = C.cfg.saltBytes) (hs' : salt'.length = C.cfg.saltBytes)
    (hi : iv.length = C.cfg.ivBytes) (hi' : iv'.length = C.cfg.ivBytes)
    (ha : aad.length < 256 ^ 4) (ha' : aad'.length < 256 ^ 4)
    (hb : C.cfg.blocksize ∣ body.length) (hb' : C.cfg.blocksize ∣ body'.length) {padded padded' hashed : Bytes}
    (h : recompute C key salt aad iv body = .ok (padded, hashed))
    (h' : recompute C key' salt' aad' iv' body' = .ok (padded', hashed)) :
    key = key' ∧ salt = salt' ∧ aad = aad' ∧ iv = iv' ∧ body = body' := by
  have hB := u.accepted.blocksize_pos
  obtain ⟨sum1, hsum1⟩ := summary_total (salt := salt) (aad := aad) (iv := iv)
    (by rw [hs]; exact u.salt_lt) ha (by rw [hi]; exact u.iv_lt)
  obtain ⟨sum2, hsum2⟩ := summary_total (salt := salt') (aad := aad') (iv := iv')
    (by rw [hs']; exact u.salt_lt) ha' (by rw [hi']; exact u.iv_lt)
  obtain ⟨kdf1, mac1, perm1, keys1, hkdf1, hmac1, hwf1, hps1, hst1, hfd1, _, hd1, _, _⟩ :=
    startSession_ok S u.env (show minKeyBytes ≤ key.length from hk) hk2 hsum1
  obtain ⟨kdf2, mac2, perm2, keys2, hkdf2, hmac2, hwf2, hps2, hst2, hfd2, _, hd2, _, _⟩ :=
    startSession_ok S u.env (show minKeyBytes ≤ key'.length by rw [← hkl]; exact hk) (by omega) hsum2
  unfold recompute at h h'
  rw [hd1] at h
  rw [hd2] at h'
  simp only [bind_eq_ok, pure, Except.pure, Except.ok.injEq, Prod.mk.injEq] at h h'
  obtain ⟨s1, rfl, ⟨r1, t1⟩, hrun1, m1, hm1, _, rfl⟩ := h
  obtain ⟨s2, rfl, ⟨r2, t2⟩, hrun2, m2, hm2, _, rfl⟩ := h'
  have e1 : t1.shmac.mac = some m2 := by
    unfold attr at hm1
    split at hm1
    · rename_i h; cases hm1; exact h
    · cases hm1
  have e2 : t2.shmac.mac = some m2 := by
    unfold attr at hm2
    split at hm2
    · rename_i h; cases hm2; exact h
    · cases hm2
  have hbl1 := batch_blocks_of_dvd hB hb
  have hbl2 := batch_blocks_of_dvd hB hb'
  obtain ⟨w1, hw1, _⟩ := run_mac_grow S _ _ _ _ _ _ _ _ _ hwf1 hps1 hfd1 hfd1 hbl1 hrun1
  obtain ⟨w2, hw2, _⟩ := run_mac_grow S _ _ _ _ _ _ _ _ _ hwf2 hps2 hfd2 hfd2 hbl2 hrun2
  have hcat : mac1 ++ w1 = mac2 ++ w2 := by
    rw [e1] at hw1; rw [e2] at hw2
    exact (Option.some.inj hw1).symm.trans (Option.some.inj hw2)
  unfold KdfConfig.newSessionCopy at hmac1 hmac2
  simp only [bind_eq_ok, pure, Except.pure, Except.ok.injEq] at hmac1 hmac2
  obtain ⟨pad1, hpad1, hmac1⟩ := hmac1
  obtain ⟨pad2, hpad2, hmac2⟩ := hmac2
  obtain ⟨_, q1, _, hpe1⟩ := Canon.fullblockLjust_ok.1 hpad1
  obtain ⟨_, q2, _, hpe2⟩ := Canon.fullblockLjust_ok.1 hpad2
  obtain ⟨hkl2, hkinj⟩ := keyed_inj u.env.kdf hkl hkdf1 hkdf2
  rw [← hmac1, ← hmac2] at hcat
  simp only [List.append_assoc] at hcat
  obtain ⟨hkk, hcat⟩ := List.append_inj hcat hkl2
  rw [hpe1, hpe2] at hcat
  simp only [List.append_assoc] at hcat
  obtain ⟨hitems, _, _, _, _⟩ := Canon.canonicalPack_parse hsum1 hsum2 hcat
  simp only [List.cons.injEq, and_true] at hitems
  obtain ⟨rfl, rfl, rfl⟩ := hitems
  have hkey := hkinj hkk
  subst hkey
  refine ⟨rfl, rfl, rfl, rfl, ?_⟩
  have hmacs : mac1 = mac2 := by
    rw [hsum1] at hsum2; cases hsum2
    rw [hpad1] at hpad2; cases hpad2
    rw [← hmac1, ← hmac2, hkk]
  have := (run_mac_inj S _ _ _ _ _ _ _ _ _ _ _ _ _ _ _ _ _ _ hwf1 hwf2 hps1 hps2 hfd1 hfd2 hfd1 hfd2 hbl1 hbl2
    (hst1.trans hst2.symm) (by rw [hmacs]) hrun1 hrun2 (by rw [e1, e2])).2
  have hf := congrArg List.flatten this
  rwa [Text.batch_flatten _ hB, Text.batch_flatten _ hB] at hf

/-- Two different strings with the same tag: a collision of the hash function that makes the tags. -/
def TagCollision (E : Env) (m m' : Bytes) : Prop := m ≠ m' ∧ Shmac.tagOf E m = Shmac.tagOf E m'

/-- The tag covers every byte: if two ciphertexts are decrypted under one key (or two keys of one length), with
whatever aad, and carry the same tag, then keys, salts, ivs, bodies and aads are the same, or the two strings hashed for
them are a collision. -/
def TagCoversAll {κ : Type} (C : Cipher κ) : Prop :=
  ∀ (key key' saltDraw aad aad' data data' : Bytes) (now now' : Int) (ttl ttl' : Option Int) (out out' : Bytes),
    64 ≤ key.length → key.length < 256 ^ 8 → key.length = key'.length → saltDraw.length = C.cfg.saltBytes →
    aad.length < 256 ^ 4 → aad'.length < 256 ^ 4 →
    C.bytesDecrypt key saltDraw now ttl aad data = .ok out →
    C.bytesDecrypt key' saltDraw now' ttl' aad' data' = .ok out' →
    data.take C.cfg.shmacBytes = data'.take C.cfg.shmacBytes →
    (key = key' ∧ aad = aad' ∧ data = data') ∨
    ∃ parts parts' padded padded' hashed hashed',
      Ciphertext.parse C.cfg data = .ok parts ∧ Ciphertext.parse C.cfg data' = .ok parts' ∧
      recompute C key parts.salt aad parts.iv parts.ciphertext = .ok (padded, hashed) ∧
      recompute C key' parts'.salt aad' parts'.iv parts'.ciphertext = .ok (padded', hashed') ∧
      TagCollision C.toEnv hashed hashed'

theorem tag_covers_all {κ : Type} {C : Cipher κ} (S : Sound C) (u : Usable C) : TagCoversAll C := by
  intro key key' saltDraw aad aad' data data' now now' ttl ttl' out out' hk hk2 hkl hdraw ha ha' hdec hdec' htag
  have get : ∀ (key aad data : Bytes) (now : Int) (ttl : Option Int) (out : Bytes), 64 ≤ key.length →
      key.length < 256 ^ 8 → aad.length < 256 ^ 4 → C.bytesDecrypt key saltDraw now ttl aad data = .ok out →
      ∃ parts padded hashed, Ciphertext.parse C.cfg data = .ok parts ∧
        recompute C key parts.salt aad parts.iv parts.ciphertext = .ok (padded, hashed) ∧
        parts.shmac = Shmac.tagOf C.toEnv hashed := by
    intro key aad data now ttl out hk hk2 ha hdec
    obtain ⟨hbad, hgood⟩ := tag_checked S u hk hk2 hdraw ha data
    cases hp : Ciphertext.parse C.cfg data with
    | error e => rw [hbad e hp] at hdec; cases hdec
    | ok parts =>
      obtain ⟨padded, hashed, hr, hc⟩ := hgood parts hp
      by_cases he : parts.shmac = Shmac.tagOf C.toEnv hashed
      · exact ⟨parts, padded, hashed, rfl, hr, he⟩
      · rw [(hc now ttl).1 he] at hdec; cases hdec
  obtain ⟨parts, padded, hashed, hp, hr, ht⟩ := get key aad data now ttl out hk hk2 ha hdec
  obtain ⟨parts', padded', hashed', hp', hr', ht'⟩ := get key' aad' data' now' ttl' out' (by omega) (by omega) ha' hdec'
  obtain ⟨e, h1, h2, h3, _, h5⟩ := (C25_parts u.accepted data).1 parts hp
  obtain ⟨e', h1', h2', h3', _, h5'⟩ := (C25_parts u.accepted data').1 parts' hp'
  have hsh : parts.shmac = parts'.shmac := by
    have g : data.take C.cfg.shmacBytes = parts.shmac := by
      rw [e]; simp only [List.append_assoc]; exact List.take_left' h1
    have g' : data'.take C.cfg.shmacBytes = parts'.shmac := by
      rw [e']; simp only [List.append_assoc]; exact List.take_left' h1'
    rw [← g, ← g', htag]
  by_cases hh : hashed = hashed'
  · left
    subst hh
    obtain ⟨e1, e2, e3, e4, e5⟩ := hashed_inj S u hk hk2 hkl h2 h2' h3 h3' ha ha' h5 h5' hr hr'
    exact ⟨e1, e3, by rw [e, e', hsh, e2, e4, e5]⟩
  · right
    exact ⟨parts, parts', padded, padded', hashed, hashed', hp, hp', hr, hr', hh, by rw [← ht, ← ht', hsh]⟩

/-- C24 for the shake-permute ciphers. -/
theorem C24_permute {E : Env} (h : PermuteSetup E) : TagCoversAll (permuteCipher E) :=
  tag_covers_all (permuteSound E h.permuteWF) h.usable

/-- C24 for the dual-output ciphers. -/
theorem C24_dual {E : DualEnv} (h : DualSetup E) : TagCoversAll (dualCipher E) :=
  tag_covers_all (dualSound E h.wf h.sides.1 h.sides.2) h.usable

/-- The hypotheses of C24 are met: some ciphertext decrypts. -/
example : ∃ ciphertext out, (permuteCipher sampleSlick).bytesDecrypt sampleKey (List.replicate 8 0) 5 none [] ciphertext
    = .ok out := by
  obtain ⟨ct, _, h⟩ := C21_decrypt_encrypt sampleSlick_setup (by decide) sampleKey (by decide) (by decide)
    (sampleDraws _) (sampleDraws_fit _ rfl) none (.inl rfl) [] (by decide) [1, 2, 3]
  exact ⟨ct, _, (h (List.replicate 8 0) rfl 5).1⟩

end Aiootp.Cipher
