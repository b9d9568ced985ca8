import Verif.Lemmas.Session
import Verif.Lemmas.Text
import Verif.Props.Padding

namespace Aiootp.Cipher

open Perm

/-! ### batching -/

theorem batch_blocks {n : Nat} (hn : 0 < n) : ∀ (k : Nat) (s : Bytes), s.length = n * k →
    ∀ b ∈ Text.batch n s, b.length = n := by
  intro k
  induction k with
  | zero =>
    intro s hs b hb
    have : s = [] := List.eq_nil_of_length_eq_zero (by simpa using hs)
    subst this
    simp [Text.batch_nil] at hb
  | succ k ih =>
    intro s hs b hb
    rw [Nat.mul_succ] at hs
    have hne : s ≠ [] := by rintro rfl; simp at hs; omega
    rw [Text.batch_cons hne hn] at hb
    rcases List.mem_cons.1 hb with rfl | hb
    · rw [List.length_take]; omega
    · exact ih _ (by rw [List.length_drop]; omega) b hb

theorem batch_blocks_of_dvd {n : Nat} (hn : 0 < n) {s : Bytes} (h : n ∣ s.length) :
    ∀ b ∈ Text.batch n s, b.length = n := by
  obtain ⟨k, hk⟩ := h
  exact batch_blocks hn k s hk

theorem batch_of_blocks {n : Nat} (hn : 0 < n) (bs : List Bytes) (h : ∀ b ∈ bs, b.length = n) :
    Text.batch n bs.flatten = bs := by
  induction bs with
  | nil => simp [Text.batch_nil]
  | cons b bs ih =>
    have hb := h b (by simp)
    have hne : b ++ bs.flatten ≠ [] := by
      intro e
      have := congrArg List.length e
      rw [List.length_append, List.length_nil] at this
      omega
    rw [List.flatten_cons, Text.batch_cons hne hn, List.take_left' hb, List.drop_left' hb,
      ih (fun x hx => h x (by simp [hx]))]

theorem length_flatten_blocks {n : Nat} (bs : List Bytes) (h : ∀ b ∈ bs, b.length = n) :
    bs.flatten.length = n * bs.length := by
  induction bs with
  | nil => simp
  | cons b bs ih =>
    rw [List.flatten_cons, List.length_append, h b (by simp), ih (fun x hx => h x (by simp [hx])), List.length_cons,
      Nat.mul_succ, Nat.add_comm]

/-! ### whole messages -/

/-- What is needed of a cipher beside the checks of its configuration. -/
structure Usable {κ : Type} (C : Cipher κ) : Prop where
  env : EnvWF C.toEnv C.configId
  accepted : Accepted C.cfg
  shmac_pos : 0 < C.cfg.shmacBytes
  shmac_le : C.cfg.shmacBytes ≤ 2 * C.cfg.shmacBlocksize
  salt_lt : C.cfg.saltBytes < 256 ^ 4
  iv_lt : C.cfg.ivBytes < 256 ^ 4

theorem Usable.length_tag {κ : Type} {C : Cipher κ} (u : Usable C) (m : Bytes) :
    (Shmac.tagOf C.toEnv m).length = C.cfg.shmacBytes := by
  unfold Shmac.tagOf Sizes.shmacResultSlice
  rw [slice_neg_none _ _ u.shmac_pos, List.length_drop, Xof.length_digest]
  have := u.shmac_le
  unfold Sizes.shmacDoubleBlocksize
  omega

theorem summary_total {salt aad iv : Bytes} (hs : salt.length < 256 ^ 4) (ha : aad.length < 256 ^ 4)
    (hi : iv.length < 256 ^ 4) : ∃ r, Canon.canonicalPack [salt, aad, iv] 1 [0] 4 = .ok r :=
  summary_ok (b := ⟨salt, aad, iv, false⟩) (c := { slick256 0 with saltBytes := salt.length, ivBytes := iv.length })
    rfl rfl hs hi ha

theorem parse_join {c : Sizes} (hacc : Accepted c) {tag salt iv body : Bytes} (ht : tag.length = c.shmacBytes)
    (hs : salt.length = c.saltBytes) (hi : iv.length = c.ivBytes) (hb : 0 < body.length) (hd : c.blocksize ∣ body.length) :
    Ciphertext.parse c (tag ++ salt ++ iv ++ body) = .ok ⟨tag, salt, iv, body⟩ := by
  have hlen : (tag ++ salt ++ iv ++ body).length = c.shmacBytes + c.saltBytes + c.ivBytes + body.length := by
    simp only [List.length_append, ht, hs, hi]
  obtain ⟨parts, hp⟩ := (C25_accepts_exactly hacc (tag ++ salt ++ iv ++ body)).2 (by
    rw [hlen]; exact ⟨by omega, by rw [Nat.add_sub_cancel_left]; exact hd⟩)
  obtain ⟨he, h1, h2, h3, _, _⟩ := (C25_parts hacc _).1 parts hp
  rw [hp]
  simp only [List.append_assoc] at he
  obtain ⟨e1, he⟩ := List.append_inj he (ht.trans h1.symm)
  obtain ⟨e2, he⟩ := List.append_inj he (hs.trans h2.symm)
  obtain ⟨e3, e4⟩ := List.append_inj he (hi.trans h3.symm)
  rw [e1, e2, e3, e4]

/-- The salt that is used. -/
def usedSalt (salt : Option Bytes) (draw : Bytes) : Bytes :=
  match salt with
  | none => draw
  | some [] => draw
  | some (b :: bs) => b :: bs

theorem SaltAADIV.new_fresh {c : Sizes} {salt : Option Bytes} {aad saltDraw ivDraw : Bytes}
    (hs : (usedSalt salt saltDraw).length = c.saltBytes) (hi : ivDraw.length = c.ivBytes) :
    SaltAADIV.new c salt aad none saltDraw ivDraw = .ok ⟨usedSalt salt saltDraw, aad, ivDraw, true⟩ := by
  unfold SaltAADIV.new
  rcases salt with _ | (_ | ⟨b, bs⟩) <;> simp only [usedSalt] at hs ⊢ <;>
    simp only [hs, hi, raiseIf, ne_eq, not_true, if_false, bind, Except.bind, pure, Except.pure]

theorem SaltAADIV.new_given {c : Sizes} {salt : Option Bytes} {aad iv saltDraw ivDraw : Bytes}
    (hs : (usedSalt salt saltDraw).length = c.saltBytes) (hi : iv.length = c.ivBytes) :
    SaltAADIV.new c salt aad (some iv) saltDraw ivDraw = .ok ⟨usedSalt salt saltDraw, aad, iv, false⟩ := by
  unfold SaltAADIV.new
  rcases salt with _ | (_ | ⟨b, bs⟩) <;> simp only [usedSalt] at hs ⊢ <;>
    simp only [hs, hi, raiseIf, ne_eq, not_true, if_false, bind, Except.bind, pure, Except.pure]

theorem usedSalt_given {c : Sizes} {s draw : Bytes} (hs : s.length = c.saltBytes) (hd : draw.length = c.saltBytes) :
    usedSalt (some s) draw = s := by
  cases s with
  | nil =>
    simp only [usedSalt]
    simp only [List.length_nil] at hs
    exact List.eq_nil_of_length_eq_zero (by omega)
  | cons => rfl

/-- The bytes hashed and the plaintext blocks recomputed by a recipient. -/
theorem process_ok {κ : Type} {C : Cipher κ} (S : Sound C) (u : Usable C) {key : Bytes} (hk : minKeyBytes ≤ key.length)
    (hk2 : key.length < 256 ^ 8) {salt aad iv : Bytes} (hs : salt.length = C.cfg.saltBytes)
    (ha : aad.length < 256 ^ 4) (hi : iv.length = C.cfg.ivBytes) (d : Direction) (blocks : List Bytes)
    (hb : ∀ b ∈ blocks, b.length = C.cfg.blocksize) :
    ∃ Ps Xs m p c perm keys, (∀ b ∈ Ps, b.length = C.cfg.blocksize) ∧ (∀ b ∈ Xs, b.length = C.cfg.blocksize) ∧
      Ps.length = blocks.length ∧ Xs.length = blocks.length ∧
      (match d with | .encryption => blocks = Ps | .decryption => blocks = Xs) ∧
      (C.startSession key ⟨salt, aad, iv, true⟩ .encryption >>= fun s => C.run s Ps)
        = .ok (Xs, ⟨.live false .encryption m p c perm, keys⟩) ∧
      (C.startSession key ⟨salt, aad, iv, false⟩ .decryption >>= fun s => C.run s Xs)
        = .ok (Ps, ⟨.live true .decryption m p c perm, keys⟩) := by
  obtain ⟨summary, hsum⟩ := summary_total (salt := salt) (aad := aad) (iv := iv)
    (by rw [hs]; exact u.salt_lt) ha (by rw [hi]; exact u.iv_lt)
  obtain ⟨kdf, mac, perm, keys, _, _, hwf, hps, hst, hfd, he, hd, _, _⟩ := startSession_ok S u.env hk hk2 hsum
  obtain ⟨Ps, Xs, w, p', c', k', h1, h2, h3, h4, _, _, h7, h8, h9⟩ :=
    run_lockstep S d blocks mac _ _ perm keys hwf hps hfd hfd hb
  refine ⟨Ps, Xs, mac ++ w, p', c', perm, k', h1, h2, h3, h4, h7, ?_, ?_⟩
  · rw [he]; exact h8 false
  · rw [hd]; exact h9 true

theorem padPlaintext_blocks {c : Sizes} (hacc : Accepted c) {d : Draws} (hd : d.Fit c) (data : Bytes) :
    ∃ padded, c.padPlaintext d.reading d.sivKey d.extra data = .ok padded ∧ 0 < padded.length ∧
      c.blocksize ∣ padded.length := by
  obtain ⟨padded, hp, hdv, hpos, _⟩ := C20_lengths hacc d.reading ⟨hd.reading_nonneg, hd.reading_lt⟩ d.sivKey d.extra data
    hd.sivKey hd.extra
  exact ⟨padded, hp, hpos, Nat.dvd_trans ⟨_, rfl⟩ hdv⟩

theorem encrypt_form {κ : Type} {C : Cipher κ} (S : Sound C) (u : Usable C) {key : Bytes} (hk : minKeyBytes ≤ key.length)
    (hk2 : key.length < 256 ^ 8) {d : Draws} (hd : d.Fit C.cfg) {salt : Option Bytes}
    (hsalt : (usedSalt salt d.salt).length = C.cfg.saltBytes) {aad : Bytes} (ha : aad.length < 256 ^ 4) (data : Bytes) :
    ∃ padded Ps Xs m p c perm keys,
      C.cfg.padPlaintext d.reading d.sivKey d.extra data = .ok padded ∧ Ps.flatten = padded ∧ 0 < Xs.length ∧
      (∀ b ∈ Xs, b.length = C.cfg.blocksize) ∧
      C.bytesEncrypt key d salt aad data
        = .ok (Shmac.tagOf C.toEnv m ++ usedSalt salt d.salt ++ d.iv ++ Xs.flatten) ∧
      (C.startSession key ⟨usedSalt salt d.salt, aad, d.iv, false⟩ .decryption >>= fun s => C.run s Xs)
        = .ok (Ps, ⟨.live true .decryption m p c perm, keys⟩) := by
  have hB := u.accepted.blocksize_pos
  obtain ⟨padded, hp, hpos, hdv⟩ := padPlaintext_blocks u.accepted hd data
  obtain ⟨Ps, Xs, m, p, c, perm, keys, h1, h2, h3, h4, h5, h6, h7⟩ := process_ok S u hk hk2 hsalt ha hd.iv .encryption
    (Text.batch C.cfg.blocksize padded) (batch_blocks_of_dvd hB hdv)
  simp only at h5
  subst h5
  have hne : 0 < (Text.batch C.cfg.blocksize padded).length := by
    rw [Text.batch_cons (by rintro rfl; simp at hpos) hB]; simp
  refine ⟨padded, _, Xs, m, p, c, perm, keys, hp, Text.batch_flatten _ hB _, by omega, h2, ?_, h7⟩
  unfold Cipher.bytesEncrypt
  rw [SaltAADIV.new_fresh hsalt hd.iv, hp]
  simp only [bind_eq_ok] at h6
  obtain ⟨s, hs, hr⟩ := h6
  simp only [bind, Except.bind, hs, hr, Shmac.finalize_live, pure, Except.pure]

/-- Decryption of anything that parses. -/
theorem decrypt_form {κ : Type} {C : Cipher κ} (S : Sound C) (u : Usable C) {key : Bytes} (hk : minKeyBytes ≤ key.length)
    (hk2 : key.length < 256 ^ 8) {saltDraw aad : Bytes} (hdraw : saltDraw.length = C.cfg.saltBytes)
    (ha : aad.length < 256 ^ 4) {data : Bytes} {parts : Ciphertext} (hp : Ciphertext.parse C.cfg data = .ok parts) :
    ∃ Ps m p c perm keys, (∀ b ∈ Ps, b.length = C.cfg.blocksize) ∧
      (C.startSession key ⟨parts.salt, aad, parts.iv, false⟩ .decryption >>= fun s =>
        C.run s (Text.batch C.cfg.blocksize parts.ciphertext)) = .ok (Ps, ⟨.live true .decryption m p c perm, keys⟩) ∧
      ∀ now ttl, C.bytesDecrypt key saltDraw now ttl aad data
        = if parts.shmac = Shmac.tagOf C.toEnv m then C.cfg.depadPlaintext now ttl Ps.flatten
          else .error .invalidSHMAC := by
  obtain ⟨_, h1, h2, h3, h4, h5⟩ := (C25_parts u.accepted data).1 parts hp
  obtain ⟨Ps, Xs, m, p, c, perm, keys, g1, g2, g3, g4, g5, g6, g7⟩ := process_ok S u hk hk2 h2 ha h3 .decryption
    (Text.batch C.cfg.blocksize parts.ciphertext) (batch_blocks_of_dvd u.accepted.blocksize_pos h5)
  simp only at g5
  subst g5
  refine ⟨Ps, m, p, c, perm, keys, g1, g7, ?_⟩
  intro now ttl
  have hus := usedSalt_given (c := C.cfg) h2 hdraw
  unfold Cipher.bytesDecrypt
  rw [hp]
  have hnew := SaltAADIV.new_given (c := C.cfg) (salt := some parts.salt) (aad := aad) (iv := parts.iv)
    (saltDraw := saltDraw) (ivDraw := []) (by rw [hus]; exact h2) h3
  rw [hus] at hnew
  simp only [bind_eq_ok] at g7
  obtain ⟨s, hs, hr⟩ := g7
  simp only [bind, Except.bind, hnew, hs, hr, Shmac.finalize_live, Shmac.testShmac, Shmac.getResult, raiseIf]
  by_cases hh : parts.shmac = Shmac.tagOf C.toEnv m
  · rw [if_pos hh, if_neg (fun hne => hne hh)]
  · rw [if_neg hh, if_pos hh]

end Aiootp.Cipher
