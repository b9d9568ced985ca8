import Verif.Props.Metadata
import Verif.Props.Cipher

/-!
C122: a ciphertext is not accepted by a cipher with another configuration.
-/

namespace Aiootp.Metadata

open Database (utf8)
open Aiootp.Cipher (Env DualEnv PermuteSetup DualSetup permuteCipher dualCipher recompute)

/-- cipher_kdfs.py:84-102 `prepare_factory`, called at shake_permute_cipher_config.py:333-344 and dual_output_shake_cipher_config.py:411-422: the hash
object for tags begins with the constant of the config. -/
def Seeded (shake : Bytes → Nat → Bytes) (E : Env) (k : Kdf) (configId metadata : Bytes) : Prop :=
  Domains.encodeConstant shake (.str (k.name ++ "_salt")) (2 * E.shmacKdf.blocksize) configId metadata = .ok E.shmacKdf.factory

/-- Two calls of `prepare_factory` have hashed different messages to the same bytes. -/
def SaltsCollide (shake : Bytes → Nat → Bytes) (blocksize : Nat) (k l : Kdf) (configId configId' metadata metadata' : Bytes) : Prop :=
  ∃ x y, (k.saltCall blocksize configId metadata).message = .ok x ∧ (l.saltCall blocksize configId' metadata').message = .ok y ∧
    Collide (shake · (2 * blocksize)) x y

/-- Two ciphers accept the tag of `data`, although they hash different strings for it. -/
def TagsMeet {κ ι : Type} (C : Aiootp.Cipher.Cipher κ) (D : Aiootp.Cipher.Cipher ι) (key key' aad aad' data : Bytes) : Prop :=
  ∃ parts parts' padded padded' hashed hashed',
    Aiootp.Cipher.Ciphertext.parse C.cfg data = .ok parts ∧ Aiootp.Cipher.Ciphertext.parse D.cfg data = .ok parts' ∧
    recompute C key parts.salt aad parts.iv parts.ciphertext = .ok (padded, hashed) ∧
    recompute D key' parts'.salt aad' parts'.iv parts'.ciphertext = .ok (padded', hashed') ∧
    hashed ≠ hashed' ∧ parts.shmac = Aiootp.Cipher.Shmac.tagOf C.toEnv hashed ∧ parts'.shmac = Aiootp.Cipher.Shmac.tagOf D.toEnv hashed'

open Aiootp.Cipher in
/-- What is hashed for the tag begins with what the hash object began with. -/
theorem hashed_prefix {κ : Type} {C : Aiootp.Cipher.Cipher κ} (S : Sound C) (u : Usable C) {key : Bytes} (hk : 64 ≤ key.length) (hk2 : key.length < 256 ^ 8)
    {salt aad iv body : Bytes} (hs : salt.length = C.cfg.saltBytes) (hi : iv.length = C.cfg.ivBytes) (ha : aad.length < 256 ^ 4)
    (hb : C.cfg.blocksize ∣ body.length) {padded hashed : Bytes} (h : recompute C key salt aad iv body = .ok (padded, hashed)) :
    ∃ w, hashed = C.shmacKdf.factory ++ w := by
  have hB := u.accepted.blocksize_pos
  obtain ⟨sum1, hsum1⟩ := summary_total (salt := salt) (aad := aad) (iv := iv) (by rw [hs]; exact u.salt_lt) ha (by rw [hi]; exact u.iv_lt)
  obtain ⟨kdf1, mac1, perm1, keys1, hkdf1, hmac1, hwf1, hps1, hst1, hfd1, _, hd1, _, _⟩ :=
    startSession_ok S u.env (show minKeyBytes ≤ key.length from hk) hk2 hsum1
  unfold recompute at h
  rw [hd1] at h
  simp only [bind_eq_ok, pure, Except.pure, Except.ok.injEq, Prod.mk.injEq] at h
  obtain ⟨s1, rfl, ⟨r1, t1⟩, hrun1, m1, hm1, _, rfl⟩ := h
  have e1 : t1.shmac.mac = some m1 := by
    unfold attr at hm1
    split at hm1
    · rename_i h; cases hm1; exact h
    · cases hm1
  obtain ⟨w1, hw1, _⟩ := run_mac_grow S _ _ _ _ _ _ _ _ _ hwf1 hps1 hfd1 hfd1 (batch_blocks_of_dvd hB hb) hrun1
  rw [e1] at hw1
  have hw1 := Option.some.inj hw1
  unfold KdfConfig.newSessionCopy at hmac1
  simp only [bind_eq_ok, pure, Except.pure, Except.ok.injEq] at hmac1
  obtain ⟨pad1, _, hmac1⟩ := hmac1
  unfold KdfConfig.keyed at hkdf1
  simp only [bind_eq_ok, pure, Except.pure, Except.ok.injEq] at hkdf1
  obtain ⟨ek, _, hkdf1⟩ := hkdf1
  refine ⟨ek ++ (pad1 ++ C.shmacKdf.offset) ++ w1, ?_⟩
  rw [hw1, ← hmac1, ← hkdf1]
  simp only [List.append_assoc]

open Aiootp.Cipher in
/-- What an accepted ciphertext consists of. -/
theorem accepted_parts {κ : Type} {C : Aiootp.Cipher.Cipher κ} (S : Sound C) (u : Usable C) {key saltDraw aad data out : Bytes} {now : Int} {ttl : Option Int}
    (hk : 64 ≤ key.length) (hk2 : key.length < 256 ^ 8) (hdraw : saltDraw.length = C.cfg.saltBytes) (ha : aad.length < 256 ^ 4)
    (hdec : C.bytesDecrypt key saltDraw now ttl aad data = .ok out) :
    ∃ parts padded hashed, Ciphertext.parse C.cfg data = .ok parts ∧ recompute C key parts.salt aad parts.iv parts.ciphertext = .ok (padded, hashed) ∧
      parts.shmac = Shmac.tagOf C.toEnv hashed ∧ ∃ w, hashed = C.shmacKdf.factory ++ w := by
  obtain ⟨hbad, hgood⟩ := tag_checked S u hk hk2 hdraw ha data
  cases hp : Ciphertext.parse C.cfg data with
  | error e => rw [hbad e hp] at hdec; cases hdec
  | ok parts =>
    obtain ⟨padded, hashed, hr, hc⟩ := hgood parts hp
    by_cases he : parts.shmac = Shmac.tagOf C.toEnv hashed
    · obtain ⟨_, _, h2, h3, _, h5⟩ := (C25_parts u.accepted data).1 parts hp
      exact ⟨parts, padded, hashed, rfl, hr, he, hashed_prefix S u hk hk2 h2 h3 ha h5 hr⟩
    · rw [(hc now ttl).1 he] at hdec; cases hdec

open Aiootp.Cipher in
theorem refused_any {κ ι : Type} {C : Aiootp.Cipher.Cipher κ} {D : Aiootp.Cipher.Cipher ι} (S : Sound C) (u : Usable C) (S' : Sound D) (u' : Usable D)
    {shake : Bytes → Nat → Bytes} (hsh : ∀ x n, (shake x n).length = n) {k l : Kdf} {i j m n : Bytes}
    (hC : Seeded shake C.toEnv k i m) (hD : Seeded shake D.toEnv l j n) (hb : C.shmacKdf.blocksize = D.shmacKdf.blocksize)
    {key key' saltDraw saltDraw' aad aad' data out out' : Bytes} {now now' : Int} {ttl ttl' : Option Int}
    (hk : 64 ≤ key.length) (hk2 : key.length < 256 ^ 8) (hk' : 64 ≤ key'.length) (hk2' : key'.length < 256 ^ 8)
    (hdraw : saltDraw.length = C.cfg.saltBytes) (hdraw' : saltDraw'.length = D.cfg.saltBytes) (ha : aad.length < 256 ^ 4) (ha' : aad'.length < 256 ^ 4)
    (hdec : C.bytesDecrypt key saltDraw now ttl aad data = .ok out) (hdec' : D.bytesDecrypt key' saltDraw' now' ttl' aad' data = .ok out') :
    (k.name = l.name ∧ m = n) ∨ SaltsCollide shake C.shmacKdf.blocksize k l i j m n ∨ TagsMeet C D key key' aad aad' data := by
  obtain ⟨parts, padded, hashed, hp, hr, ht, w, hw⟩ := accepted_parts S u hk hk2 hdraw ha hdec
  obtain ⟨parts', padded', hashed', hp', hr', ht', w', hw'⟩ := accepted_parts S' u' hk' hk2' hdraw' ha' hdec'
  by_cases hh : hashed = hashed'
  · have hlen : ∀ {E : Env} {k : Kdf} {i m : Bytes}, Seeded shake E k i m → E.shmacKdf.factory.length = 2 * E.shmacKdf.blocksize := by
      intro E k i m h
      simp only [Seeded, Domains.encodeConstant, bind_eq_ok] at h
      obtain ⟨x, _, h⟩ := h
      split at h
      · cases h
      · injection h with h
        rw [← h, hsh]
    have hf : C.shmacKdf.factory = D.shmacKdf.factory := by
      refine (List.append_inj (s₁ := C.shmacKdf.factory) (t₁ := w) (s₂ := D.shmacKdf.factory) (t₂ := w') ?_ ?_).1
      · rw [← hw, ← hw', hh]
      · rw [hlen hC, hlen hD, hb]
    unfold Seeded at hC hD
    rw [← hf, ← hb] at hD
    rcases C122_kdfs hsh hC hD with ⟨h1, _, _, h4⟩ | ⟨x, y, hx, hy, hc⟩
    · exact .inl ⟨h1, h4⟩
    · exact .inr (.inl ⟨x, y, hx, hy, hc⟩)
  · exact .inr (.inr ⟨parts, parts', padded, padded', hashed, hashed', hp, hp', hr, hr', hh, ht, ht'⟩)

/-- **C122** If a ciphertext is decrypted by two SHAKE-permute ciphers, whatever the keys and the aads, then their configs agree (but for what
`Cipher.Same` leaves out), or `shake_128` has collided when the configs were made, or the tags of two different strings meet. -/
theorem C122_permute_refused_partial {E F : Env} (h : PermuteSetup E) (h' : PermuteSetup F) {V W : Vector} {c d : Cipher} (hc : E.cfg = c.sizes) (hd : F.cfg = d.sizes)
    {shake : Bytes → Nat → Bytes} (hsh : ∀ x n, (shake x n).length = n) {m n : Bytes} (hm : c.permuteMetadata V = .ok m) (hn : d.permuteMetadata W = .ok n)
    (hE : Seeded shake E c.shmacKdf c.configId m) (hF : Seeded shake F d.shmacKdf d.configId n) (hb : E.shmacKdf.blocksize = F.shmacKdf.blocksize)
    {key key' saltDraw saltDraw' aad aad' data out out' : Bytes} {now now' : Int} {ttl ttl' : Option Int}
    (hk : 64 ≤ key.length) (hk2 : key.length < 256 ^ 8) (hk' : 64 ≤ key'.length) (hk2' : key'.length < 256 ^ 8)
    (hdraw : saltDraw.length = c.sizes.saltBytes) (hdraw' : saltDraw'.length = d.sizes.saltBytes) (ha : aad.length < 256 ^ 4) (ha' : aad'.length < 256 ^ 4)
    (hdec : (permuteCipher E).bytesDecrypt key saltDraw now ttl aad data = .ok out)
    (hdec' : (permuteCipher F).bytesDecrypt key' saltDraw' now' ttl' aad' data = .ok out') :
    (c.Same d ∧ c.shmacKdf.name = d.shmacKdf.name) ∨ SaltsCollide shake E.shmacKdf.blocksize c.shmacKdf d.shmacKdf c.configId d.configId m n ∨
      TagsMeet (permuteCipher E) (permuteCipher F) key key' aad aad' data := by
  rcases refused_any (C := permuteCipher E) (D := permuteCipher F) (Aiootp.Cipher.permuteSound E h.permuteWF) h.usable
    (Aiootp.Cipher.permuteSound F h'.permuteWF) h'.usable hsh hE hF hb hk hk2 hk' hk2'
    (by rw [hdraw, ← hc]; rfl) (by rw [hdraw', ← hd]; rfl) ha ha' hdec hdec' with ⟨h1, rfl⟩ | h1
  · exact .inl ⟨C122_permute_partial hm hn, h1⟩
  · exact .inr h1

/-- **C122** The same for dual-output ciphers. -/
theorem C122_dual_refused_partial {E F : DualEnv} (h : DualSetup E) (h' : DualSetup F) {V W : Vector} {c d : Cipher} {l r l' r' : Kdf} (hc : E.cfg = c.sizes) (hd : F.cfg = d.sizes)
    {shake : Bytes → Nat → Bytes} (hsh : ∀ x n, (shake x n).length = n) {m n : Bytes} (hm : c.dualMetadata V l r = .ok m) (hn : d.dualMetadata W l' r' = .ok n)
    (hE : Seeded shake E.toEnv c.shmacKdf c.configId m) (hF : Seeded shake F.toEnv d.shmacKdf d.configId n) (hb : E.shmacKdf.blocksize = F.shmacKdf.blocksize)
    {key key' saltDraw saltDraw' aad aad' data out out' : Bytes} {now now' : Int} {ttl ttl' : Option Int}
    (hk : 64 ≤ key.length) (hk2 : key.length < 256 ^ 8) (hk' : 64 ≤ key'.length) (hk2' : key'.length < 256 ^ 8)
    (hdraw : saltDraw.length = c.sizes.saltBytes) (hdraw' : saltDraw'.length = d.sizes.saltBytes) (ha : aad.length < 256 ^ 4) (ha' : aad'.length < 256 ^ 4)
    (hdec : (dualCipher E).bytesDecrypt key saltDraw now ttl aad data = .ok out)
    (hdec' : (dualCipher F).bytesDecrypt key' saltDraw' now' ttl' aad' data = .ok out') :
    (c.Same d ∧ l.Same l' ∧ r.Same r' ∧ c.shmacKdf.name = d.shmacKdf.name) ∨ SaltsCollide shake E.shmacKdf.blocksize c.shmacKdf d.shmacKdf c.configId d.configId m n ∨
      TagsMeet (dualCipher E) (dualCipher F) key key' aad aad' data := by
  rcases refused_any (C := dualCipher E) (D := dualCipher F) (Aiootp.Cipher.dualSound E h.wf h.sides.1 h.sides.2) h.usable
    (Aiootp.Cipher.dualSound F h'.wf h'.sides.1 h'.sides.2) h'.usable hsh hE hF hb hk hk2 hk' hk2'
    (by rw [hdraw, ← hc]; rfl) (by rw [hdraw', ← hd]; rfl) ha ha' hdec hdec' with ⟨h1, rfl⟩ | h1
  · obtain ⟨e1, e2, e3⟩ := C122_dual_partial hm hn
    exact .inl ⟨e1, e2, e3, h1⟩
  · exact .inr h1

/-! ### an example: with a hash function that collides, another config accepts the ciphertext -/

/-- A hash function that gives zeros. -/
def zeroShake (_ : Bytes) (n : Nat) : Bytes := List.replicate n 0

/-- Slick256 whose hash object for tags begins with zeros. -/
def seededSlick : Env := { Aiootp.Cipher.sampleSlick with shmacKdf := { Aiootp.Cipher.sampleKdf with factory := List.replicate 336 0 } }

theorem seededSlick_setup : PermuteSetup seededSlick where
  accepted := Aiootp.Cipher.slick256_accepted 0 (by decide)
  permutation := ⟨12345, by decide +kernel⟩
  blocksize := rfl
  pad := ⟨_, rfl⟩
  tag_pos := by decide
  tag_le := by decide
  salt_lt := by decide
  iv_lt := by decide

theorem seededSlick_seeded {k : Kdf} {i m : Bytes} (hk : (utf8 (k.name ++ "_salt")).length < 256 ^ 8) (hi : i.length < 256 ^ 8) (hm : m.length < 256 ^ 8) :
    Seeded zeroShake seededSlick k i m := by
  obtain ⟨x, hx, _⟩ := Domains.C92_returns (shake := zeroShake) (fun _ n => List.length_replicate) (.str (k.name ++ "_salt")) (size := 336) (domain := i) (aad := m) 0
    (by decide) (by decide) hk hi hm
  have e : x = List.replicate 336 0 := by
    simp only [Domains.encodeConstant, bind_eq_ok] at hx
    obtain ⟨y, _, hx⟩ := hx
    simp only [show (336 : Nat) ≠ 0 from by decide, if_false] at hx
    injection hx with hx
    exact hx.symm
  subst e
  exact hx

/-- The values of `seededSlick`. -/
def firstPermute : Cipher := { samplePermute with sizes := Aiootp.Cipher.slick256 0 }

/-- The same values under another name. -/
def renamedPermute : Cipher := { firstPermute with name := "Slick257" }

theorem metadata_short (c : Cipher) (h : ((c.permuteMetadata fun _ n => List.replicate n 7).toOption.any fun x => decide (x.length < 256 ^ 8)) = true) :
    ∃ m, c.permuteMetadata (fun _ n => List.replicate n 7) = .ok m ∧ m.length < 256 ^ 8 := by
  cases hm : c.permuteMetadata fun _ n => List.replicate n 7 with
  | error e => rw [hm] at h; cases h
  | ok m =>
    rw [hm] at h
    exact ⟨m, rfl, of_decide_eq_true h⟩

example : ∃ m n data, firstPermute.permuteMetadata (fun _ n => List.replicate n 7) = .ok m ∧ renamedPermute.permuteMetadata (fun _ n => List.replicate n 7) = .ok n ∧
    Seeded zeroShake seededSlick firstPermute.shmacKdf firstPermute.configId m ∧ Seeded zeroShake seededSlick renamedPermute.shmacKdf renamedPermute.configId n ∧
    seededSlick.cfg = firstPermute.sizes ∧ seededSlick.cfg = renamedPermute.sizes ∧ ¬ firstPermute.Same renamedPermute ∧
    (permuteCipher seededSlick).bytesDecrypt Aiootp.Cipher.sampleKey (List.replicate 8 0) 5 none [3] data = .ok [1, 2] := by
  obtain ⟨m, hm, lm⟩ := metadata_short firstPermute (by decide +kernel)
  obtain ⟨n, hn, ln⟩ := metadata_short renamedPermute (by decide +kernel)
  obtain ⟨data, _, hd⟩ := Aiootp.Cipher.C21_decrypt_encrypt seededSlick_setup (by decide) Aiootp.Cipher.sampleKey (by decide) (by decide)
    (Aiootp.Cipher.sampleDraws seededSlick.cfg) (Aiootp.Cipher.sampleDraws_fit _ rfl) none (.inl rfl) [3] (by decide) [1, 2]
  refine ⟨m, n, data, hm, hn, seededSlick_seeded (by decide +kernel) (by decide) lm, seededSlick_seeded (by decide +kernel) (by decide) ln, rfl, rfl, ?_,
    (hd (List.replicate 8 0) rfl 5).1⟩
  intro h
  have := h.name
  simp [renamedPermute, firstPermute, samplePermute] at this

end Aiootp.Metadata
