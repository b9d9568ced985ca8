import Verif.Props.Cipher

/-
Property C67: no two blocks are enciphered with keys from the same hash input.
-/

namespace Aiootp.Cipher

open Perm

variable {κ : Type}

/-- An encryption with this key, salt, aad and iv has turned the blocks `plain` into the blocks `out`, and is now in the
state `t`. -/
def Enciphered (C : Cipher κ) (key salt aad iv : Bytes) (plain out : List Bytes) (t : Cipher.Session κ) : Prop :=
  (C.startSession key ⟨salt, aad, iv, true⟩ .encryption >>= fun s => C.run s plain) = .ok (out, t)

/-- Arguments of the sizes that a key bundle accepts. -/
structure Args (c : Sizes) (key salt aad iv : Bytes) (plain : List Bytes) : Prop where
  key_ge : 64 ≤ key.length
  key_lt : key.length < 256 ^ 8
  salt : salt.length = c.saltBytes
  aad : aad.length < 256 ^ 4
  iv : iv.length = c.ivBytes
  plain : ∀ b ∈ plain, b.length = c.blocksize

/-! ### what is hashed determines the history -/

theorem enciphered_inj {C : Cipher κ} (S : Sound C) (u : Usable C) {key key' salt salt' aad aad' iv iv' : Bytes}
    {plain plain' out out' : List Bytes} {t t' : Cipher.Session κ} (ha : Args C.cfg key salt aad iv plain)
    (ha' : Args C.cfg key' salt' aad' iv' plain') (hkl : key.length = key'.length)
    (h : Enciphered C key salt aad iv plain out t) (h' : Enciphered C key' salt' aad' iv' plain' out' t')
    (hm : t.shmac.mac = t'.shmac.mac) :
    key = key' ∧ salt = salt' ∧ aad = aad' ∧ iv = iv' ∧ plain = plain' := by
  have hB := u.accepted.blocksize_pos
  have go : ∀ {key salt aad iv : Bytes} {plain out : List Bytes} {t : Cipher.Session κ},
      Args C.cfg key salt aad iv plain → Enciphered C key salt aad iv plain out t →
      ∃ m Xs, t.shmac.mac = some m ∧ C.cfg.blocksize ∣ Xs.flatten.length ∧
        recompute C key salt aad iv (List.flatten Xs) = .ok (plain.flatten, m) ∧
        (C.startSession key ⟨salt, aad, iv, false⟩ .decryption >>= fun s => C.run s (Text.batch C.cfg.blocksize Xs.flatten)) = .ok (plain, ⟨{t.shmac with mode := some .decryption, ivGiven := true}, t.keys⟩) := by
    intro key salt aad iv plain out t a h
    obtain ⟨Ps, Xs, m, p, c, perm, keys, h1, h2, h3, h4, h5, h6, h7⟩ := process_ok S u (show minKeyBytes ≤ key.length from a.key_ge) a.key_lt a.salt a.aad a.iv .encryption plain a.plain
    simp only at h5
    subst h5
    unfold Enciphered at h
    rw [h6] at h
    cases h
    refine ⟨m, out, rfl, by rw [length_flatten_blocks out h2]; exact ⟨_, rfl⟩, ?_, ?_⟩
    · unfold recompute
      rw [batch_of_blocks hB out h2]
      simp only [bind_eq_ok] at h7
      obtain ⟨s, hs, hr⟩ := h7
      simp only [hs, hr, bind, Except.bind, Shmac.live, attr, pure, Except.pure]
    · rw [batch_of_blocks hB out h2, h7]; rfl
  obtain ⟨m, Xs, e1, d1, r1, q1⟩ := go ha h
  obtain ⟨m', Xs', e2, d2, r2, q2⟩ := go ha' h'
  rw [e1, e2] at hm
  cases hm
  obtain ⟨rfl, rfl, rfl, rfl, hx⟩ := hashed_inj S u ha.key_ge ha.key_lt hkl ha.salt ha'.salt ha.iv ha'.iv ha.aad ha'.aad d1 d2 r1 r2
  rw [hx, q2] at q1
  simp only [Except.ok.injEq, Prod.mk.injEq] at q1
  exact ⟨rfl, rfl, rfl, rfl, q1.1.symm⟩

theorem run_snoc (C : Cipher κ) (x : Bytes) : ∀ (xs : List Bytes) (s : Cipher.Session κ) (out : List Bytes) (t : Cipher.Session κ),
    C.run s (xs ++ [x]) = .ok (out, t) ↔
      ∃ out' s' y, C.run s xs = .ok (out', s') ∧ C.turn s'.shmac s'.keys x = .ok (y, t.shmac, t.keys) ∧ out = out' ++ [y] := by
  intro xs
  induction xs with
  | nil =>
    intro s out t
    simp only [List.nil_append, Cipher.run, bind_eq_ok, pure, Except.pure, Except.ok.injEq, Prod.mk.injEq]
    constructor
    · rintro ⟨⟨y, m, k⟩, h1, ⟨o, t'⟩, ⟨rfl, rfl⟩, rfl, rfl⟩
      exact ⟨_, _, y, ⟨rfl, rfl⟩, h1, rfl⟩
    · rintro ⟨_, _, y, ⟨rfl, rfl⟩, h1, rfl⟩
      exact ⟨_, h1, ([], t), rfl, rfl, rfl⟩
  | cons b bs ih =>
    intro s out t
    simp only [List.cons_append, Cipher.run, bind_eq_ok, pure, Except.pure, Except.ok.injEq, Prod.mk.injEq]
    constructor
    · rintro ⟨⟨y, m, k⟩, h1, ⟨o, t'⟩, h2, rfl, rfl⟩
      obtain ⟨o', s', z, h3, h4, rfl⟩ := (ih _ _ _).1 h2
      exact ⟨_, s', z, ⟨_, h1, _, h3, rfl, rfl⟩, h4, rfl⟩
    · rintro ⟨_, _, z, ⟨⟨y, m, k⟩, h1, ⟨o, t'⟩, h2, rfl, rfl⟩, h4, rfl⟩
      exact ⟨_, h1, (o ++ [z], t), (ih _ _ _).2 ⟨_, _, _, h2, h4, rfl⟩, rfl, rfl⟩

theorem enciphered_snoc {C : Cipher κ} {key salt aad iv x : Bytes} {plain out : List Bytes} {t : Cipher.Session κ}
    (h : Enciphered C key salt aad iv (plain ++ [x]) out t) :
    ∃ out' s' y, Enciphered C key salt aad iv plain out' s' ∧ C.turn s'.shmac s'.keys x = .ok (y, t.shmac, t.keys) ∧ out = out' ++ [y] := by
  unfold Enciphered at h ⊢
  simp only [bind_eq_ok] at h ⊢
  obtain ⟨s, hs, hr⟩ := h
  obtain ⟨o, s', y, h1, h2, h3⟩ := (run_snoc C x plain s out t).1 hr
  exact ⟨o, s', y, ⟨s, hs, h1⟩, h2, h3⟩

/-! ### the shake-permute ciphers -/

/-- The state of a session after `plain`: what was hashed, the digest of it, and the permutation of the session. -/
theorem enciphered_live {C : Cipher κ} (S : Sound C) (u : Usable C) {key salt aad iv : Bytes} {plain out : List Bytes}
    {t : Cipher.Session κ} (a : Args C.cfg key salt aad iv plain) (h : Enciphered C key salt aad iv plain out t) :
    ∃ m p c perm, t.shmac = .live false .encryption m p c perm ∧ perm.WF ∧ perm.size = C.configId ∧
      p.length = C.cfg.shmacBlocksize ∧ c.length = C.cfg.shmacBlocksize ∧
      c = (if plain = [] then firstDigest C.toEnv C.configId m else C.shmacKdf.xof.digest m C.cfg.shmacBlocksize) := by
  obtain ⟨summary, hsum⟩ := summary_total (salt := salt) (aad := aad) (iv := iv)
    (by rw [a.salt]; exact u.salt_lt) a.aad (by rw [a.iv]; exact u.iv_lt)
  obtain ⟨kdf, mac, perm, keys, _, _, hwf, hps, hst, hfd, he, hd, _, _⟩ := startSession_ok S u.env (show minKeyBytes ≤ key.length from a.key_ge) a.key_lt hsum
  unfold Enciphered at h
  rw [he] at h
  have hr : C.run ⟨.live false .encryption mac (firstDigest C.toEnv C.configId mac) (firstDigest C.toEnv C.configId mac) perm, keys⟩ plain = .ok (out, t) := h
  have gen : ∀ (bs : List Bytes) (m p c : Bytes) (k : κ) (out : List Bytes), p.length = C.cfg.shmacBlocksize → c.length = C.cfg.shmacBlocksize →
      (∀ b ∈ bs, b.length = C.cfg.blocksize) → C.run ⟨.live false .encryption m p c perm, k⟩ bs = .ok (out, t) →
      ∃ m' p' c', t.shmac = .live false .encryption m' p' c' perm ∧ p'.length = C.cfg.shmacBlocksize ∧ c'.length = C.cfg.shmacBlocksize ∧
        (bs = [] → m' = m ∧ c' = c) ∧ (bs ≠ [] → c' = C.shmacKdf.xof.digest m' C.cfg.shmacBlocksize) := by
    intro bs
    induction bs with
    | nil =>
      intro m p c k out hp hc _ hr
      cases hr
      exact ⟨m, p, c, rfl, hp, hc, fun _ => ⟨rfl, rfl⟩, fun h => absurd rfl h⟩
    | cons b bs ih =>
      intro m p c k out hp hc hb hr
      obtain ⟨P, X, w, k', _, _, _, _, _, hd, henc, _⟩ := S.step .encryption m p c perm k b hwf hps hp hc (hb b (by simp))
      simp only at hd
      subst hd
      simp only [Cipher.run, henc, bind_eq_ok] at hr
      obtain ⟨⟨_, _, _⟩, he, ⟨r2, s2⟩, hrun, he2⟩ := hr
      cases he; cases he2
      obtain ⟨m', p', c', h1, h2, h3, h4, h5⟩ := ih _ _ _ _ _ hc (Xof.length_digest ..) (fun y hy => hb y (by simp [hy])) hrun
      refine ⟨m', p', c', h1, h2, h3, fun h => absurd h (by simp), fun _ => ?_⟩
      by_cases hn : bs = []
      · obtain ⟨rfl, rfl⟩ := h4 hn; rfl
      · exact h5 hn
  obtain ⟨m', p', c', h1, h2, h3, h4, h5⟩ := gen plain mac _ _ keys out hfd hfd a.plain hr
  refine ⟨m', p', c', perm, h1, hwf, hps, h2, h3, ?_⟩
  by_cases hn : plain = []
  · obtain ⟨rfl, rfl⟩ := h4 hn
    rw [if_pos hn]
  · rw [if_neg hn, h5 hn]

/-- The key of the next block of a shake-permute cipher, cut from the digest of what was hashed so far. -/
def permuteBlockKey (E : Env) (first : Bool) (hashed : Bytes) : Bytes :=
  if first then (E.shmacKdf.xof.digest hashed (E.cfg.primerKeyBytes (5 * E.cfg.blocksize))).take E.cfg.shmacBlocksize
  else E.shmacKdf.xof.digest hashed E.cfg.shmacBlocksize

/-- C67, shake-permute ciphers, where the keys come from: every further block `x` becomes a block `y` which is `x` masked
with the first part of a key, permuted, and masked with the second part; the key is a digest of the bytes hashed so
far. -/
theorem C67_permute_key {E : Env} (h : PermuteSetup E) {key salt aad iv x : Bytes} {plain out : List Bytes}
    {t : Cipher.Session Unit} (a : Args E.cfg key salt aad iv (plain ++ [x]))
    (he : Enciphered (permuteCipher E) key salt aad iv (plain ++ [x]) out t) :
    ∃ out' s' y hashed, Enciphered (permuteCipher E) key salt aad iv plain out' s' ∧ out = out' ++ [y] ∧
      s'.shmac.mac = some hashed ∧
      let K := permuteBlockKey E plain.isEmpty hashed
      s'.shmac.perm.uncappedPermute (fromBE (K.take E.cfg.blocksize) ^^^ fromBE x)
        = some (fromBE ((K.drop E.cfg.blocksize).take E.cfg.blocksize) ^^^ fromBE y) := by
  obtain ⟨out', s', y, h1, h2, h3⟩ := enciphered_snoc he
  have a' : Args E.cfg key salt aad iv plain := { a with plain := fun b hb => a.plain b (by simp [hb]) }
  obtain ⟨m, p, c, perm, e1, hwf, hsz, hp, hc, hcd⟩ := enciphered_live (permuteSound E h.permuteWF) h.usable a' h1
  refine ⟨out', s', y, m, h1, h3, by rw [e1]; rfl, ?_⟩
  have hK : permuteBlockKey E plain.isEmpty m = c := by
    rw [hcd]
    unfold permuteBlockKey firstDigest
    cases plain <;> rfl
  simp only [hK]
  have hc : c.length = E.cfg.shmacBlocksize := hc
  have hsz : perm.size = E.cfg.blocksize := hsz
  have hx : x.length = E.cfg.blocksize := a.plain x (by simp)
  have hfits := h.permuteWF.fits
  have hin : fromBE (E.cfg.inKeySlice.of c) < 256 ^ E.cfg.blocksize := by
    apply fromBE_lt_of_length
    rw [PermuteWF.in_eq, List.length_take]; omega
  have hout : fromBE (E.cfg.outKeySlice.of c) < 256 ^ E.cfg.blocksize := by
    apply fromBE_lt_of_length
    rw [PermuteWF.out_eq, List.length_take, List.length_drop]; omega
  obtain ⟨z, hzlt, hz, _⟩ := Chain.uncapped_total hwf (x := fromBE (E.cfg.inKeySlice.of c) ^^^ fromBE x)
    (by rw [hsz]; exact xor_lt hin (fromBE_lt_of_length hx))
  rw [hsz] at hzlt
  have hX : fromBE (E.cfg.outKeySlice.of c) ^^^ z < 256 ^ E.cfg.blocksize := xor_lt hout hzlt
  have hturn := permuteTurn_encryption (g := false) (m := m) (p := p) hz hX
  have h2 : permuteTurn E s'.shmac () x = .ok (y, t.shmac, t.keys) := h2
  rw [e1, hturn] at h2
  simp only [Except.ok.injEq, Prod.mk.injEq] at h2
  obtain ⟨hy, _⟩ := h2
  rw [e1, ← PermuteWF.in_eq, ← PermuteWF.out_eq, ← hy, fromBE_beDigits_of_lt hX, xor_cancel_left]
  exact hz

/-- C67, shake-permute ciphers. Two blocks whose keys are digests of the same bytes are the next blocks after the same
plaintext blocks, in encryptions with the same key, salt, aad and iv. -/
theorem C67_permute_distinct {E : Env} (h : PermuteSetup E) {key key' salt salt' aad aad' iv iv' : Bytes}
    {plain plain' out out' : List Bytes} {t t' : Cipher.Session Unit} (a : Args E.cfg key salt aad iv plain)
    (a' : Args E.cfg key' salt' aad' iv' plain') (hkl : key.length = key'.length)
    (he : Enciphered (permuteCipher E) key salt aad iv plain out t)
    (he' : Enciphered (permuteCipher E) key' salt' aad' iv' plain' out' t')
    (hm : t.shmac.mac = t'.shmac.mac) :
    key = key' ∧ salt = salt' ∧ aad = aad' ∧ iv = iv' ∧ plain = plain' :=
  enciphered_inj (permuteSound E h.permuteWF) h.usable a a' hkl he he' hm

/-! ### the dual-output ciphers -/

theorem dualTurn_sides {E : DualEnv} {m p c : Bytes} {perm : Chain} {k : DualKeys} {x y : Bytes} {s : Shmac} {k' : DualKeys}
    (hp : p.length = E.cfg.shmacBlocksize) (hc : c.length = E.cfg.shmacBlocksize)
    (h : dualTurn E (.live false .encryption m p c perm) k x = .ok (y, s, k')) :
    ∃ r, r.length = 2 * E.cfg.shmacBlocksize ∧ k'.left = k.left ++ E.leftSlice r ∧ k'.right = k.right ++ E.rightSlice r ∧ k'.started = true := by
  unfold dualTurn at h
  cases hs : k.started with
  | false =>
    rw [hs] at h
    simp only [Shmac.live, uniqueCipher, attr, bind_eq_ok, pure, Except.pure, Except.ok.injEq, Prod.mk.injEq] at h
    obtain ⟨_, _, _, _, _, _, _, _, _, _, _, _, _, _, rfl⟩ := h
    refine ⟨_, ?_, rfl, rfl, rfl⟩
    rw [Xof.length_digest]; rfl
  | true =>
    rw [hs] at h
    simp only [Shmac.live, ratchetKey, attr, bind_eq_ok, pure, Except.pure, Except.ok.injEq, Prod.mk.injEq] at h
    obtain ⟨_, ⟨_, rfl, _, rfl, rfl⟩, ⟨_, _⟩, _, _, _, rfl⟩ := h
    exact ⟨c ++ p, by rw [List.length_append, hc, hp]; omega, rfl, rfl, hs⟩

theorem dual_run_sides {E : DualEnv} (h : DualSetup E) {n : Nat} (hn : ∀ r : Bytes, r.length = 2 * E.cfg.shmacBlocksize → (E.leftSlice r).length = n ∧ (E.rightSlice r).length = n)
    {perm : Chain} (hwf : perm.WF) (hps : perm.size = E.cfg.innerHeaderBytes) {t : Cipher.Session DualKeys} :
    ∀ (bs : List Bytes) (m p c : Bytes) (k : DualKeys) (out : List Bytes), p.length = E.cfg.shmacBlocksize → c.length = E.cfg.shmacBlocksize →
      (∀ b ∈ bs, b.length = E.cfg.blocksize) → (dualCipher E).run ⟨.live false .encryption m p c perm, k⟩ bs = .ok (out, t) →
      ∃ w v, t.keys.left = k.left ++ w ∧ w.length = bs.length * n ∧ t.keys.right = k.right ++ v ∧ v.length = bs.length * n := by
  intro bs
  induction bs with
  | nil =>
    intro m p c k out hp hc _ hr
    cases hr
    exact ⟨[], [], by simp, by simp, by simp, by simp⟩
  | cons b bs ih =>
    intro m p c k out hp hc hb hr
    obtain ⟨P, X, w, k', _, _, _, _, _, hd, henc, _⟩ := (dualSound E h.wf h.sides.1 h.sides.2).step .encryption m p c perm k b hwf hps hp hc (hb b (by simp))
    simp only at hd
    subst hd
    have hturn : dualTurn E (.live false .encryption m p c perm) k b = _ := henc false
    obtain ⟨r, hr1, hr2, hr3, _⟩ := dualTurn_sides hp hc hturn
    simp only [Cipher.run, henc, bind_eq_ok] at hr
    obtain ⟨⟨_, _, _⟩, he, ⟨r2, s2⟩, hrun, he2⟩ := hr
    cases he; cases he2
    obtain ⟨w2, v2, h1, h2, h3, h4⟩ := ih _ _ _ _ _ hc (Xof.length_digest ..) (fun y hy => hb y (by simp [hy])) hrun
    refine ⟨E.leftSlice r ++ w2, E.rightSlice r ++ v2, by rw [h1, hr2, List.append_assoc], ?_, by rw [h3, hr3, List.append_assoc], ?_⟩
    · rw [List.length_append, (hn r hr1).1, h2, List.length_cons, Nat.succ_mul, Nat.add_comm]
    · rw [List.length_append, (hn r hr1).2, h4, List.length_cons, Nat.succ_mul, Nat.add_comm]

/-- The keys of a block of a dual-output cipher, from what the two hash objects have absorbed. -/
def dualBlockKey (E : DualEnv) (left right : Bytes) : Bytes :=
  E.leftKdf.xof.digest left E.cfg.shmacBlocksize ++ E.rightKdf.xof.digest right E.cfg.shmacBlocksize

/-- C67, dual-output ciphers, where the keys come from: the last block is masked with the middle part of the digests of
what the left and right hash objects have absorbed. Of the first block this is the part behind the inner header. -/
theorem C67_dual_key {E : DualEnv} (h : DualSetup E) {key salt aad iv x : Bytes} {plain out : List Bytes}
    {t : Cipher.Session DualKeys} (a : Args E.cfg key salt aad iv (plain ++ [x]))
    (he : Enciphered (dualCipher E) key salt aad iv (plain ++ [x]) out t) :
    ∃ out' y, out = out' ++ [y] ∧
      let K := dualBlockKey E t.keys.left t.keys.right
      if plain = [] then
        fromBE (y.drop E.cfg.innerHeaderBytes) = fromBE (E.cfg.firstKeySlice.of K) ^^^ fromBE (x.drop E.cfg.innerHeaderBytes)
      else fromBE y = fromBE (E.cfg.embeddedCiphertextSlice.of K) ^^^ fromBE x := by
  obtain ⟨out', s', y, h1, h2, h3⟩ := enciphered_snoc he
  have a' : Args E.cfg key salt aad iv plain := { a with plain := fun b hb => a.plain b (by simp [hb]) }
  obtain ⟨m, p, c, perm, e1, hwf, hsz, hp, hc, hcd⟩ := enciphered_live (dualSound E h.wf h.sides.1 h.sides.2) h.usable a' h1
  refine ⟨out', y, h3, ?_⟩
  have h2 : dualTurn E s'.shmac s'.keys x = .ok (y, t.shmac, t.keys) := h2
  rw [e1] at h2
  have hstart : s'.keys.started = !plain.isEmpty := by
    have hS := dualSound E h.wf h.sides.1 h.sides.2
    obtain ⟨summary, hsum⟩ := summary_total (salt := salt) (aad := aad) (iv := iv)
      (by rw [a.salt]; exact h.salt_lt) a.aad (by rw [a.iv]; exact h.iv_lt)
    obtain ⟨kdf, mac, perm0, keys0, _, _, hwf0, hps0, hst0, hfd0, he0, _, _, _⟩ :=
      startSession_ok (dualSound E h.wf h.sides.1 h.sides.2) h.usable.env (show minKeyBytes ≤ key.length from a.key_ge) a.key_lt hsum
    unfold Enciphered at h1
    rw [he0] at h1
    have hr : (dualCipher E).run ⟨_, keys0⟩ plain = .ok (out', s') := h1
    cases plain with
    | nil => cases hr; exact hst0
    | cons b bs =>
      simp only [Cipher.run, bind_eq_ok] at hr
      have : ∀ (bs : List Bytes) (s : Cipher.Session DualKeys) (o : List Bytes), bs ≠ [] → (dualCipher E).run s bs = .ok (o, s') → s'.keys.started = true := by
        intro bs s o hne hrun
        obtain ⟨xs, z, rfl⟩ : ∃ xs z, bs = xs ++ [z] := ⟨bs.dropLast, bs.getLast hne, (List.dropLast_append_getLast hne).symm⟩
        obtain ⟨_, s1, q, _, hq, _⟩ := (run_snoc (dualCipher E) z xs s o s').1 hrun
        have hq : dualTurn E s1.shmac s1.keys z = _ := hq
        unfold dualTurn at hq
        split at hq
        · cases hq
        · simp only [uniqueCipher, bind_eq_ok, pure, Except.pure, Except.ok.injEq, Prod.mk.injEq] at hq
          obtain ⟨_, _, _, _, _, _, _, _, _, _, _, _, _, _, hk⟩ := hq
          rw [← hk]
        · simp only [uniqueDecipher, bind_eq_ok, pure, Except.pure, Except.ok.injEq, Prod.mk.injEq] at hq
          obtain ⟨_, _, _, _, _, _, _, _, _, _, _, _, _, _, hk⟩ := hq
          rw [← hk]
        · rename_i hs _
          simp only [bind_eq_ok, pure, Except.pure, Except.ok.injEq, Prod.mk.injEq] at hq
          obtain ⟨_, _, _, _, _, _, hk⟩ := hq
          rw [← hk]; exact hs
        · rename_i hs _
          simp only [bind_eq_ok, pure, Except.pure, Except.ok.injEq, Prod.mk.injEq] at hq
          obtain ⟨_, _, _, _, _, _, hk⟩ := hq
          rw [← hk]; exact hs
      exact this (b :: bs) _ _ (by simp) h1
  cases plain with
  | nil =>
    simp only [if_true]
    unfold dualTurn at h2
    rw [hstart] at h2
    simp only [List.isEmpty_nil, Bool.not_true, Shmac.live, uniqueCipher, attr, bind_eq_ok, pure, Except.pure, Except.ok.injEq, Prod.mk.injEq] at h2
    obtain ⟨masked, _, mh, hmh, _, _, _, _, content, hcontent, _, _, hy, _, hk⟩ := h2
    obtain ⟨_, rfl⟩ := toBytesBE_ok.1 hmh
    rw [← hk, ← hy, List.drop_left' (length_beDigits ..)]
    unfold Sizes.toBytesSigned at hcontent
    split at hcontent
    · cases hcontent
    · obtain ⟨hlt, rfl⟩ := toBytesBE_ok.1 hcontent
      rw [fromBE_beDigits_of_lt hlt, Sizes.first_content_eq]
      rfl
  | cons b bs =>
    rw [if_neg (by simp)]
    unfold dualTurn at h2
    rw [hstart] at h2
    simp only [List.isEmpty_cons, Bool.not_false, Shmac.live, ratchetKey, dualEncipher, attr, bind_eq_ok, pure, Except.pure, Except.ok.injEq, Prod.mk.injEq] at h2
    obtain ⟨_, ⟨_, rfl, _, rfl, rfl⟩, ⟨_, _⟩, ⟨z, hz, _, _, rfl, rfl⟩, rfl, _, hk⟩ := h2
    obtain ⟨hlt, rfl⟩ := toBytesBE_ok.1 hz
    rw [← hk, fromBE_beDigits_of_lt hlt]
    rfl

/-- What a hash object of a session has absorbed determines the session, and how much was absorbed since its start. -/
theorem side_inj {k : KdfConfig} (hwf : k.WF) {key key' salt salt' aad aad' iv iv' sum1 sum2 kdf1 kdf2 l1 l2 w1 w2 : Bytes}
    (hkl : key.length = key'.length) (hsum1 : Canon.canonicalPack [salt, aad, iv] 1 [0] 4 = .ok sum1)
    (hsum2 : Canon.canonicalPack [salt', aad', iv'] 1 [0] 4 = .ok sum2) (hk1 : k.keyed key = .ok kdf1) (hk2 : k.keyed key' = .ok kdf2)
    (hl1 : k.newSessionCopy kdf1 sum1 = .ok l1) (hl2 : k.newSessionCopy kdf2 sum2 = .ok l2) (hm : l1 ++ w1 = l2 ++ w2) :
    key = key' ∧ salt = salt' ∧ aad = aad' ∧ iv = iv' ∧ w1.length = w2.length := by
  unfold KdfConfig.newSessionCopy at hl1 hl2
  simp only [bind_eq_ok, pure, Except.pure, Except.ok.injEq] at hl1 hl2
  obtain ⟨pad1, hpad1, rfl⟩ := hl1
  obtain ⟨pad2, hpad2, rfl⟩ := hl2
  obtain ⟨_, x1, _, hpe1⟩ := Canon.fullblockLjust_ok.1 hpad1
  obtain ⟨_, x2, _, hpe2⟩ := Canon.fullblockLjust_ok.1 hpad2
  obtain ⟨hkl2, hkinj⟩ := keyed_inj hwf hkl hk1 hk2
  simp only [List.append_assoc] at hm
  obtain ⟨hkk, hcat⟩ := List.append_inj hm hkl2
  have hcat0 := hcat
  rw [hpe1, hpe2] at hcat
  simp only [List.append_assoc] at hcat
  obtain ⟨hitems, _, _, _, _⟩ := Canon.canonicalPack_parse hsum1 hsum2 hcat
  simp only [List.cons.injEq, and_true] at hitems
  obtain ⟨rfl, rfl, rfl⟩ := hitems
  refine ⟨hkinj hkk, rfl, rfl, rfl, ?_⟩
  rw [hsum1] at hsum2; cases hsum2
  rw [hpad1] at hpad2; cases hpad2
  have hw := congrArg List.length (List.append_cancel_left hcat0)
  simpa only [List.length_append, Nat.add_left_cancel_iff] using hw

/-- C67, dual-output ciphers. If each ratchet key gives at least one byte to both hash objects then two blocks whose left
keys, or whose right keys, are digests of the same bytes are at the same position of encryptions with the same key, salt,
aad and iv. -/
theorem C67_dual_distinct {E : DualEnv} (h : DualSetup E) {n : Nat} (hn0 : 0 < n)
    (hn : ∀ r : Bytes, r.length = 2 * E.cfg.shmacBlocksize → (E.leftSlice r).length = n ∧ (E.rightSlice r).length = n)
    {key key' salt salt' aad aad' iv iv' : Bytes} {plain plain' out out' : List Bytes} {t t' : Cipher.Session DualKeys}
    (a : Args E.cfg key salt aad iv plain) (a' : Args E.cfg key' salt' aad' iv' plain') (hkl : key.length = key'.length)
    (he : Enciphered (dualCipher E) key salt aad iv plain out t)
    (he' : Enciphered (dualCipher E) key' salt' aad' iv' plain' out' t')
    (hm : t.keys.left = t'.keys.left ∨ t.keys.right = t'.keys.right) :
    key = key' ∧ salt = salt' ∧ aad = aad' ∧ iv = iv' ∧ plain.length = plain'.length := by
  have go : ∀ {key salt aad iv : Bytes} {plain out : List Bytes} {t : Cipher.Session DualKeys},
      Args E.cfg key salt aad iv plain → Enciphered (dualCipher E) key salt aad iv plain out t →
      ∃ summary, Canon.canonicalPack [salt, aad, iv] 1 [0] 4 = .ok summary ∧
        (∃ kdf l w, E.leftKdf.keyed key = .ok kdf ∧ E.leftKdf.newSessionCopy kdf summary = .ok l ∧ t.keys.left = l ++ w ∧ w.length = plain.length * n) ∧
        (∃ kdf l w, E.rightKdf.keyed key = .ok kdf ∧ E.rightKdf.newSessionCopy kdf summary = .ok l ∧ t.keys.right = l ++ w ∧ w.length = plain.length * n) := by
    intro key salt aad iv plain out t a he
    obtain ⟨summary, hsum⟩ := summary_total (salt := salt) (aad := aad) (iv := iv)
      (by rw [a.salt]; exact h.salt_lt) a.aad (by rw [a.iv]; exact h.iv_lt)
    obtain ⟨kdf, mac, perm, keys, _, _, hwf, hps, hst, hfd, hs, _, _, _⟩ :=
      startSession_ok (dualSound E h.wf h.sides.1 h.sides.2) h.usable.env (show minKeyBytes ≤ key.length from a.key_ge) a.key_lt hsum
    unfold Enciphered at he
    have hs' := hs
    rw [hs] at he
    have hr : (dualCipher E).run ⟨_, keys⟩ plain = .ok (out, t) := he
    obtain ⟨w, v, h1, h2, h3, h4⟩ := dual_run_sides h hn hwf hps plain _ _ _ _ _ hfd hfd a.plain hr
    unfold Cipher.startSession SaltAADIV.summary at hs'
    simp only [hsum, bind_eq_ok, pure, Except.pure, Except.ok.injEq] at hs'
    obtain ⟨_, _, _, _, s2, rfl, _, _, ks, hks, _, _, _, _, hfin⟩ := hs'
    have hkeys : ks = keys := by cases hfin; rfl
    subst hkeys
    simp only [dualCipher, bind_eq_ok, pure, Except.pure, Except.ok.injEq] at hks
    obtain ⟨kd, hkd, kr, hkr, l, hl, r, hrs, rfl⟩ := hks
    exact ⟨_, hsum, ⟨kd, l, w, hkd, hl, h1, h2⟩, ⟨kr, r, v, hkr, hrs, h3, h4⟩⟩
  obtain ⟨sum1, hsum1, ⟨kdf1, l1, w1, hk1, hl1, e1, q1⟩, ⟨kr1, r1, v1, hkr1, hr1, er1, qr1⟩⟩ := go a he
  obtain ⟨sum2, hsum2, ⟨kdf2, l2, w2, hk2, hl2, e2, q2⟩, ⟨kr2, r2, v2, hkr2, hr2, er2, qr2⟩⟩ := go a' he'
  rcases hm with hm | hm
  · rw [e1, e2] at hm
    obtain ⟨g1, g2, g3, g4, g5⟩ := side_inj h.sides.1 hkl hsum1 hsum2 hk1 hk2 hl1 hl2 hm
    rw [q1, q2] at g5
    exact ⟨g1, g2, g3, g4, Nat.eq_of_mul_eq_mul_right hn0 g5⟩
  · rw [er1, er2] at hm
    obtain ⟨g1, g2, g3, g4, g5⟩ := side_inj h.sides.2 hkl hsum1 hsum2 hkr1 hkr2 hr1 hr2 hm
    rw [qr1, qr2] at g5
    exact ⟨g1, g2, g3, g4, Nat.eq_of_mul_eq_mul_right hn0 g5⟩

/-- C67, dual-output ciphers, messages: what was hashed for the tag and for the keys of the following blocks determines
all the blocks before. -/
theorem C67_dual_ratchet {E : DualEnv} (h : DualSetup E) {key key' salt salt' aad aad' iv iv' : Bytes}
    {plain plain' out out' : List Bytes} {t t' : Cipher.Session DualKeys} (a : Args E.cfg key salt aad iv plain)
    (a' : Args E.cfg key' salt' aad' iv' plain') (hkl : key.length = key'.length)
    (he : Enciphered (dualCipher E) key salt aad iv plain out t)
    (he' : Enciphered (dualCipher E) key' salt' aad' iv' plain' out' t')
    (hm : t.shmac.mac = t'.shmac.mac) :
    key = key' ∧ salt = salt' ∧ aad = aad' ∧ iv = iv' ∧ plain = plain' :=
  enciphered_inj (dualSound E h.wf h.sides.1 h.sides.2) h.usable a a' hkl he he' hm

/-! ### the hypotheses are met -/

theorem sampleArgs (c : Sizes) (plain : List Bytes) (h : ∀ b ∈ plain, b.length = c.blocksize) :
    Args c sampleKey (List.replicate c.saltBytes 1) [7] (List.replicate c.ivBytes 2) plain :=
  ⟨by decide, by decide, by simp, by decide, by simp, h⟩

example : ∃ out t, Enciphered (permuteCipher sampleSlick) sampleKey (List.replicate 8 1) [7] (List.replicate 8 2)
    [List.replicate 32 5, List.replicate 32 6] out t := by
  obtain ⟨Ps, Xs, m, p, c, perm, keys, _, _, _, _, h5, h6, _⟩ := process_ok (permuteSound sampleSlick sampleSlick_setup.permuteWF)
    sampleSlick_setup.usable (key := sampleKey) (by decide) (by decide) (salt := List.replicate 8 1) (aad := [7])
    (iv := List.replicate 8 2) rfl (by decide) rfl .encryption [List.replicate 32 5, List.replicate 32 6] (by decide)
  simp only at h5
  subst h5
  exact ⟨_, _, h6⟩

example : ∀ r : Bytes, r.length = 2 * sampleChunky.cfg.shmacBlocksize →
    (sampleChunky.leftSlice r).length = 168 ∧ (sampleChunky.rightSlice r).length = 168 := by
  intro r hr
  have hr : r.length = 336 := hr
  simp [sampleChunky, hr]

example : ∃ out t, Enciphered (dualCipher sampleChunky) sampleKey (List.replicate 8 1) [7] (List.replicate 8 2)
    [List.replicate 256 5, List.replicate 256 6] out t := by
  obtain ⟨Ps, Xs, m, p, c, perm, keys, _, _, _, _, h5, h6, _⟩ := process_ok
    (dualSound sampleChunky sampleChunky_setup.wf sampleChunky_setup.sides.1 sampleChunky_setup.sides.2)
    sampleChunky_setup.usable (key := sampleKey) (by decide) (by decide) (salt := List.replicate 8 1) (aad := [7])
    (iv := List.replicate 8 2) rfl (by decide) rfl .encryption [List.replicate 256 5, List.replicate 256 6] (by
      intro b hb
      simp only [List.mem_cons, List.not_mem_nil, or_false] at hb
      rcases hb with rfl | rfl <;> exact List.length_replicate)
  simp only at h5
  subst h5
  exact ⟨_, _, h6⟩

end Aiootp.Cipher
