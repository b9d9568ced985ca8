import Verif.Lemmas.Cipher
import Verif.Props.Perm

namespace Aiootp.Cipher

open Perm

/-- What is needed of the configuration of a stream-hmac. -/
structure EnvWF (E : Env) (configId : Nat) : Prop where
  perm : ∃ hash, AffineConfig.new configId hash = .ok E.permConfig
  id_ok : configId ∈ Sizes.permutationSizes
  kdf : E.shmacKdf.WF
  block : E.shmacKdf.blocksize = E.cfg.shmacBlocksize

theorem EnvWF.sb_pos {E : Env} {i : Nat} (h : EnvWF E i) : 0 < E.cfg.shmacBlocksize := h.block ▸ h.kdf.pos

theorem Shmac.new_ok {E : Env} {i : Nat} (h : EnvWF E i) (mac : Bytes) :
    ∃ digest perm, digest.length = E.cfg.shmacBlocksize ∧ perm.WF ∧ perm.size = i ∧
      digest = (E.shmacKdf.xof.digest mac (E.cfg.primerKeyBytes (5 * i))).take E.cfg.shmacBlocksize ∧
      ∀ g, Shmac.new E i mac g = .ok
        { ivGiven := g, mode := none, finalized := false, mac := some mac
          previous := some digest, current := some digest, result := none, perm } := by
  obtain ⟨hash, hash_ok⟩ := h.perm
  obtain ⟨hwf, hsize, hpos⟩ := AffineConfig.new_wf hash_ok
  have hsb := h.sb_pos
  have hge := ceilDiv_mul_ge (5 * i) E.cfg.shmacBlocksize hsb
  have hlen : (E.shmacKdf.xof.digest mac (E.cfg.primerKeyBytes (5 * i))).length
      = E.cfg.shmacBlocksize + E.cfg.shmacBlocksize * ceilDiv (5 * i) E.cfg.shmacBlocksize := by
    rw [Xof.length_digest, Sizes.primerKeyBytes, Nat.mul_add, Nat.mul_one]
  have hk : ((Sizes.permutationKeySlice (5 * i)).of
      (E.shmacKdf.xof.digest mac (E.cfg.primerKeyBytes (5 * i)))).length = 5 * E.permConfig.size := by
    unfold Sizes.permutationKeySlice
    rw [slice_neg_none _ _ (by omega), List.length_drop, hsize]
    omega
  obtain ⟨perm, hperm⟩ := (C13_chain_accepts (fast := true)).2 hk
  obtain ⟨hpwf, hps⟩ := Chain.new_wf hwf (by omega) hperm
  have hf : E.cfg.firstDigestSlice.of (E.shmacKdf.xof.digest mac (E.cfg.primerKeyBytes (5 * i)))
      = (E.shmacKdf.xof.digest mac (E.cfg.primerKeyBytes (5 * i))).take E.cfg.shmacBlocksize := by
    unfold Sizes.firstDigestSlice; rw [slice_zero_nat]
  refine ⟨_, perm, ?_, hpwf, hps.trans hsize, rfl, ?_⟩
  · rw [List.length_take]; omega
  · intro g
    unfold Shmac.new
    rw [Sizes.permutationKeySize_ok.2 ⟨h.id_ok, rfl⟩]
    simp only [bind, Except.bind, pure, Except.pure, hperm, hf]

/-- The state at the start of a session in which `mac` has been absorbed. -/
def firstDigest (E : Env) (i : Nat) (mac : Bytes) : Bytes :=
  (E.shmacKdf.xof.digest mac (E.cfg.primerKeyBytes (5 * i))).take E.cfg.shmacBlocksize

theorem summary_ok {b : SaltAADIV} {c : Sizes} (hs : b.salt.length = c.saltBytes) (hi : b.iv.length = c.ivBytes)
    (hsc : c.saltBytes < 256 ^ 4) (hic : c.ivBytes < 256 ^ 4) (ha : b.aad.length < 256 ^ 4) :
    ∃ r, b.summary = .ok r := by
  have h4 : ∀ n : Nat, (beDigits 4 n).length = 4 := fun n => length_beDigits 4 n
  unfold SaltAADIV.summary
  refine ⟨_, Canon.canonicalPack_ok.2 ⟨by decide, by decide, 0, _, rfl, Canon.encodeItems_ok.2 ⟨by decide, by simp, _,
    Canon.encodeBody_cons_ok.2 ⟨by rw [h4]; decide, _, Canon.encodeBody_cons_ok.2 ⟨by decide, _,
      Canon.encodeBody_cons_ok.2 ⟨by omega, _, Canon.encodeBody_cons_ok.2 ⟨ha, _,
        Canon.encodeBody_cons_ok.2 ⟨by omega, _, rfl, rfl⟩, rfl⟩, rfl⟩, rfl⟩, rfl⟩, rfl⟩, rfl⟩⟩

theorem startSession_ok {κ : Type} {C : Cipher κ} (S : Sound C) (h : EnvWF C.toEnv C.configId) {key : Bytes}
    (hk : minKeyBytes ≤ key.length) (hk2 : key.length < 256 ^ 8) {salt aad iv summary : Bytes}
    (hsum : Canon.canonicalPack [salt, aad, iv] 1 [0] 4 = .ok summary) :
    ∃ kdf mac perm keys, C.shmacKdf.keyed key = .ok kdf ∧ C.shmacKdf.newSessionCopy kdf summary = .ok mac ∧
      perm.WF ∧ perm.size = C.configId ∧ S.started keys = S.fresh ∧
      (firstDigest C.toEnv C.configId mac).length = C.cfg.shmacBlocksize ∧
      C.startSession key ⟨salt, aad, iv, true⟩ .encryption = .ok ⟨.live false .encryption mac
        (firstDigest C.toEnv C.configId mac) (firstDigest C.toEnv C.configId mac) perm, keys⟩ ∧
      C.startSession key ⟨salt, aad, iv, false⟩ .decryption = .ok ⟨.live true .decryption mac
        (firstDigest C.toEnv C.configId mac) (firstDigest C.toEnv C.configId mac) perm, keys⟩ ∧
      C.startSession key ⟨salt, aad, iv, true⟩ .decryption = .error .shmacMisuse ∧
      C.startSession key ⟨salt, aad, iv, false⟩ .encryption = .error .shmacMisuse := by
  have hne : key ≠ [] := by rintro rfl; simp [minKeyBytes] at hk
  obtain ⟨kdf, hkdf⟩ := h.kdf.keyed_ok hne hk2
  obtain ⟨mac, hmac⟩ := h.kdf.session_ok kdf summary
  obtain ⟨keys, hkeys⟩ := S.session_ok key summary hne hk2
  obtain ⟨digest, perm, hd, hwf, hps, he, hnew⟩ := Shmac.new_ok h mac
  have hv : testKeyValidity key = .ok () := raiseIf_ok.2 (by omega)
  have hf : firstDigest C.toEnv C.configId mac = digest := he.symm
  refine ⟨kdf, mac, perm, keys, hkdf, hmac, hwf, hps, S.session _ _ _ hkeys, by rw [hf]; exact hd, ?_, ?_, ?_, ?_⟩ <;>
  · unfold Cipher.startSession SaltAADIV.summary
    rw [hv, hkdf]
    simp only [hsum]
    simp only [bind, Except.bind, hmac, hkeys, hnew, Shmac.forEncryption, Shmac.forDecryption, raiseIf,
      Option.isSome, Bool.not_true, Bool.not_false, Bool.false_eq_true, Bool.true_eq_false, if_true, if_false, pure, Except.pure, hf]
    try rfl

/-! ### running over all blocks -/

theorem run_lockstep {κ : Type} {C : Cipher κ} (S : Sound C) (d : Direction) (blocks : List Bytes) :
    ∀ (m p c : Bytes) (perm : Chain) (k : κ), perm.WF → perm.size = C.configId →
    p.length = C.cfg.shmacBlocksize → c.length = C.cfg.shmacBlocksize →
    (∀ b ∈ blocks, b.length = C.cfg.blocksize) →
    ∃ Ps Xs w p' c' k', (∀ b ∈ Ps, b.length = C.cfg.blocksize) ∧ (∀ b ∈ Xs, b.length = C.cfg.blocksize) ∧
      Ps.length = blocks.length ∧ Xs.length = blocks.length ∧
      p'.length = C.cfg.shmacBlocksize ∧ c'.length = C.cfg.shmacBlocksize ∧
      (match d with | .encryption => blocks = Ps | .decryption => blocks = Xs) ∧
      (∀ g, C.run ⟨.live g .encryption m p c perm, k⟩ Ps = .ok (Xs, ⟨.live g .encryption (m ++ w) p' c' perm, k'⟩)) ∧
      (∀ g, C.run ⟨.live g .decryption m p c perm, k⟩ Xs = .ok (Ps, ⟨.live g .decryption (m ++ w) p' c' perm, k'⟩)) := by
  induction blocks with
  | nil =>
    intro m p c perm k hwf hps hp hc _
    refine ⟨[], [], [], p, c, k, by simp, by simp, rfl, rfl, hp, hc, by cases d <;> rfl, fun g => ?_, fun g => ?_⟩ <;>
      simp [Cipher.run]
  | cons b bs ih =>
    intro m p c perm k hwf hps hp hc hb
    obtain ⟨P, X, w, k', hP, hX, _, _, _, hd, he, hdec⟩ := S.step d m p c perm k b hwf hps hp hc (hb b (by simp))
    obtain ⟨Ps, Xs, w2, p2, c2, k2, h1, h2, h3, h4, h5, h6, h7, h8, h9⟩ := ih (m ++ w) c
      (C.shmacKdf.xof.digest (m ++ w) C.cfg.shmacBlocksize) perm k' hwf hps hc (Xof.length_digest ..)
      (fun x hx => hb x (by simp [hx]))
    refine ⟨P :: Ps, X :: Xs, w ++ w2, p2, c2, k2, ?_, ?_, by simp [h3], by simp [h4], h5, h6, ?_, fun g => ?_, fun g => ?_⟩
    · intro x hx; rcases List.mem_cons.1 hx with rfl | hx
      · exact hP
      · exact h1 x hx
    · intro x hx; rcases List.mem_cons.1 hx with rfl | hx
      · exact hX
      · exact h2 x hx
    · cases d <;> simp only at hd h7 ⊢ <;> rw [hd, h7]
    · simp only [Cipher.run, he, bind, Except.bind, h8, pure, Except.pure, List.append_assoc]
    · simp only [Cipher.run, hdec, bind, Except.bind, h9, pure, Except.pure, List.append_assoc]

/-- What a decrypting run absorbs begins with what was absorbed before. -/
theorem run_mac_grow {κ : Type} {C : Cipher κ} (S : Sound C) : ∀ (xs : List Bytes) (g : Bool) (m p c : Bytes) (q : Chain) (k : κ) (r : List Bytes) (s : Cipher.Session κ),
    q.WF → q.size = C.configId → p.length = C.cfg.shmacBlocksize → c.length = C.cfg.shmacBlocksize →
    (∀ b ∈ xs, b.length = C.cfg.blocksize) →
    C.run ⟨.live g .decryption m p c q, k⟩ xs = .ok (r, s) →
    ∃ w, s.shmac.mac = some (m ++ w) ∧ (xs ≠ [] → ∃ v u, w = v ++ u ∧ v.length = S.width (S.started k)) := by
  intro xs
  induction xs with
  | nil =>
    intro g m p c q k r s _ _ _ _ _ hrun
    cases hrun
    exact ⟨[], by simp [Shmac.live], fun h => absurd rfl h⟩
  | cons x xs ih =>
    intro g m p c q k r s hq hqs hp hc hb hrun
    obtain ⟨P, X, w, k', hP, hX, hw, _, _, hd, _, hdec⟩ := S.step .decryption m p c q k x hq hqs hp hc (hb x (by simp))
    simp only at hd
    subst hd
    simp only [Cipher.run, hdec, bind_eq_ok] at hrun
    obtain ⟨⟨_, _, _⟩, he, ⟨r2, s2⟩, hrun, he2⟩ := hrun
    cases he; cases he2
    obtain ⟨w2, hw2, _⟩ := ih _ _ _ _ _ _ _ _ hq hqs hc (Xof.length_digest ..) (fun y hy => hb y (by simp [hy])) hrun
    exact ⟨w ++ w2, by rw [hw2, List.append_assoc], fun _ => ⟨w, w2, rfl, hw⟩⟩

/-- What a decrypting run absorbs determines what was absorbed before and the blocks. -/
theorem run_mac_inj {κ : Type} {C : Cipher κ} (S : Sound C) : ∀ (xs ys : List Bytes)
    (g1 g2 : Bool) (m1 m2 p1 p2 c1 c2 : Bytes) (q1 q2 : Chain) (k1 k2 : κ) (r1 r2 : List Bytes)
    (s1 s2 : Cipher.Session κ),
    q1.WF → q2.WF → q1.size = C.configId → q2.size = C.configId →
    p1.length = C.cfg.shmacBlocksize → p2.length = C.cfg.shmacBlocksize →
    c1.length = C.cfg.shmacBlocksize → c2.length = C.cfg.shmacBlocksize →
    (∀ b ∈ xs, b.length = C.cfg.blocksize) → (∀ b ∈ ys, b.length = C.cfg.blocksize) →
    S.started k1 = S.started k2 → m1.length = m2.length →
    C.run ⟨.live g1 .decryption m1 p1 c1 q1, k1⟩ xs = .ok (r1, s1) →
    C.run ⟨.live g2 .decryption m2 p2 c2 q2, k2⟩ ys = .ok (r2, s2) →
    s1.shmac.mac = s2.shmac.mac → m1 = m2 ∧ xs = ys := by
  intro xs
  induction xs with
  | nil =>
    intro ys g1 g2 m1 m2 p1 p2 c1 c2 q1 q2 k1 k2 r1 r2 s1 s2 hq1 hq2 hz1 hz2 hp1 hp2 hc1 hc2 hb1 hb2 hst hl hr1 hr2 hm
    cases hr1
    cases ys with
    | nil =>
      cases hr2
      simp only [Shmac.live, Option.some.injEq] at hm
      exact ⟨hm, rfl⟩
    | cons y ys =>
      obtain ⟨w, hw, hne⟩ := run_mac_grow S _ _ _ _ _ _ _ _ _ hq2 hz2 hp2 hc2 hb2 hr2
      obtain ⟨v, u, rfl, hv⟩ := hne (by simp)
      rw [hw] at hm
      simp only [Shmac.live, Option.some.injEq] at hm
      have := congrArg List.length hm
      have hpos := S.width_pos (S.started k2)
      simp only [List.length_append] at this
      omega
  | cons x xs ih =>
    intro ys g1 g2 m1 m2 p1 p2 c1 c2 q1 q2 k1 k2 r1 r2 s1 s2 hq1 hq2 hz1 hz2 hp1 hp2 hc1 hc2 hb1 hb2 hst hl hr1 hr2 hm
    cases ys with
    | nil =>
      cases hr2
      obtain ⟨w, hw, hne⟩ := run_mac_grow S _ _ _ _ _ _ _ _ _ hq1 hz1 hp1 hc1 hb1 hr1
      obtain ⟨v, u, rfl, hv⟩ := hne (by simp)
      rw [hw] at hm
      simp only [Shmac.live, Option.some.injEq] at hm
      have := congrArg List.length hm
      have hpos := S.width_pos (S.started k1)
      simp only [List.length_append] at this
      omega
    | cons y ys =>
      obtain ⟨P, X, w, k', hP, hX, hw, hxw, hk', hd, _, hdec⟩ :=
        S.step .decryption m1 p1 c1 q1 k1 x hq1 hz1 hp1 hc1 (hb1 x (by simp))
      obtain ⟨Q, Y, v, l', hQ, hY, hv, hyv, hl', hd2, _, hdec2⟩ :=
        S.step .decryption m2 p2 c2 q2 k2 y hq2 hz2 hp2 hc2 (hb2 y (by simp))
      simp only at hd hd2
      subst hd; subst hd2
      simp only [Cipher.run, hdec, hdec2, bind_eq_ok] at hr1 hr2
      obtain ⟨⟨_, _, _⟩, he, ⟨_, _⟩, hr1, he1⟩ := hr1
      cases he; cases he1
      obtain ⟨⟨_, _, _⟩, he, ⟨_, _⟩, hr2, he2⟩ := hr2
      cases he; cases he2
      obtain ⟨hmm, hxy⟩ := ih ys _ _ _ _ _ _ _ _ _ _ _ _ _ _ _ _ hq1 hq2 hz1 hz2 hc1 hc2 (Xof.length_digest ..)
        (Xof.length_digest ..) (fun b hb => hb1 b (by simp [hb])) (fun b hb => hb2 b (by simp [hb]))
        (hk'.trans hl'.symm) (by rw [List.length_append, List.length_append, hw, hv, hl, hst]) hr1 hr2 hm
      obtain ⟨hm', hwv⟩ := List.append_inj hmm hl
      refine ⟨hm', ?_⟩
      rw [hxy, ← hxw, ← hyv, hwv, hst]

end Aiootp.Cipher
