import Verif.Lemmas.SecrecyGame

/-
The encryptions of the model are these computations.
-/

namespace Aiootp.Perm

deriving instance Inhabited for AffineConfig
deriving instance Inhabited for Affine
deriving instance Inhabited for Chain

end Aiootp.Perm

namespace Aiootp.Secrecy

open Oracle Cipher Perm

variable {K : Nat} {κ : Type}

theorem length_piece {i n : Nat} (h : i + n ≤ K) (a : Digest K) : (piece i n a.1).length = n := by
  have := a.2
  unfold piece; rw [List.length_take, List.length_drop]; omega

theorem piece_take {i n k : Nat} (h : i + n ≤ k) (b : Bytes) : piece i n (b.take k) = piece i n b := by
  unfold piece
  rw [List.drop_take, List.take_take, Nat.min_eq_left (by omega)]

/-- The permutation that a session gets if `a` is the digest that it starts with. -/
def permFrom (E : Env) (i : Nat) (a : Bytes) : Chain :=
  match Chain.new true E.permConfig (piece (E.cfg.primerKeyBytes (5 * i) - 5 * i) (5 * i) a) with
  | .ok c => c
  | .error _ => default

theorem primer_ge {E : Env} {i : Nat} (h : EnvWF E i) : E.cfg.shmacBlocksize + 5 * i ≤ E.cfg.primerKeyBytes (5 * i) ∧ 2 * E.cfg.shmacBlocksize ≤ E.cfg.primerKeyBytes (5 * i) := by
  have hsb := h.sb_pos
  have hge := ceilDiv_mul_ge (5 * i) E.cfg.shmacBlocksize hsb
  obtain ⟨hash, hash_ok⟩ := h.perm
  obtain ⟨_, _, hpos⟩ := AffineConfig.new_wf hash_ok
  have h1 : 0 < ceilDiv (5 * i) E.cfg.shmacBlocksize := by
    rcases Nat.eq_zero_or_pos (ceilDiv (5 * i) E.cfg.shmacBlocksize) with h0 | h0
    · rw [h0] at hge; omega
    · exact h0
  rw [Sizes.primerKeyBytes, Nat.mul_add, Nat.mul_one]
  refine ⟨by omega, ?_⟩
  have : E.cfg.shmacBlocksize * 1 ≤ E.cfg.shmacBlocksize * ceilDiv (5 * i) E.cfg.shmacBlocksize := Nat.mul_le_mul_left _ h1
  omega

theorem permFrom_ok {E : Env} {i : Nat} (h : EnvWF E i) {K : Nat} (hK : E.cfg.primerKeyBytes (5 * i) ≤ K) (a : Digest K) :
    Chain.new true E.permConfig (piece (E.cfg.primerKeyBytes (5 * i) - 5 * i) (5 * i) a.1) = .ok (permFrom E i a.1) ∧
      (permFrom E i a.1).WF ∧ (permFrom E i a.1).size = i := by
  obtain ⟨hash, hash_ok⟩ := h.perm
  obtain ⟨hwf, hsize, hpos⟩ := AffineConfig.new_wf hash_ok
  have := (primer_ge h).1
  have hk : (piece (E.cfg.primerKeyBytes (5 * i) - 5 * i) (5 * i) a.1).length = 5 * E.permConfig.size := by
    rw [length_piece (by omega), hsize]
  obtain ⟨perm, hperm⟩ := (C13_chain_accepts (fast := true)).2 hk
  have he : permFrom E i a.1 = perm := by unfold permFrom; rw [hperm]
  obtain ⟨hpwf, hps⟩ := Chain.new_wf hwf (by omega) hperm
  rw [he]
  exact ⟨hperm, hpwf, hps.trans hsize⟩

section
variable {D : Finset Bytes} {T : Hash D K} {known : Xof} {C : Cipher.Cipher κ} (hx : C.shmacKdf.xof = T.xof known) (hK : C.cfg.primerKeyBytes (5 * C.configId) ≤ K)
include hx hK

theorem shmac_new (h : EnvWF C.toEnv C.configId) {mac : Bytes} (hD : mac ∈ D) (g : Bool) :
    Shmac.new C.toEnv C.configId mac g = .ok
      { ivGiven := g, mode := none, finalized := false, mac := some mac
        previous := some ((Tree.ext T mac).1.take C.cfg.shmacBlocksize), current := some ((Tree.ext T mac).1.take C.cfg.shmacBlocksize), result := none
        perm := permFrom C.toEnv C.configId (Tree.ext T mac).1 } := by
  obtain ⟨p1, p2⟩ := primer_ge h
  obtain ⟨hash, hash_ok⟩ := h.perm
  obtain ⟨_, _, hpos⟩ := AffineConfig.new_wf hash_ok
  obtain ⟨hperm, _, _⟩ := permFrom_ok h hK (Tree.ext T mac)
  have hd : C.shmacKdf.xof.digest mac (C.cfg.primerKeyBytes (5 * C.configId)) = (Tree.ext T mac).1.take (C.cfg.primerKeyBytes (5 * C.configId)) := by
    rw [hx, xof_digest known T hD hK]
  have ha := (Tree.ext T mac).2
  have hs : (Sizes.permutationKeySlice (5 * C.configId)).of ((Tree.ext T mac).1.take (C.cfg.primerKeyBytes (5 * C.configId))) =
      piece (C.cfg.primerKeyBytes (5 * C.configId) - 5 * C.configId) (5 * C.configId) (Tree.ext T mac).1 := by
    unfold Sizes.permutationKeySlice piece
    rw [slice_neg_none _ _ (by omega), List.length_take, Nat.min_eq_left (by omega), List.drop_take]
    congr 1; omega
  have hf : C.cfg.firstDigestSlice.of ((Tree.ext T mac).1.take (C.cfg.primerKeyBytes (5 * C.configId))) = (Tree.ext T mac).1.take C.cfg.shmacBlocksize := by
    unfold Sizes.firstDigestSlice; rw [slice_zero_nat, List.take_take, Nat.min_eq_left (by omega)]
  unfold Shmac.new
  rw [Sizes.permutationKeySize_ok.2 ⟨h.id_ok, rfl⟩]
  simp only [bind, Except.bind, pure, Except.pure, hd, hs, hf, hperm]

theorem start_tree (h : EnvWF C.toEnv C.configId) {key salt aad iv summary kdf mac : Bytes} {keys : κ} (hk : minKeyBytes ≤ key.length)
    (hsum : Canon.canonicalPack [salt, aad, iv] 1 [0] 4 = .ok summary) (hkdf : C.shmacKdf.keyed key = .ok kdf) (hmac : C.shmacKdf.newSessionCopy kdf summary = .ok mac)
    (hkeys : C.sessionKdfs key summary = .ok keys) (hD : mac ∈ D) :
    C.startSession key ⟨salt, aad, iv, true⟩ .encryption = .ok ⟨.live false .encryption mac ((Tree.ext T mac).1.take C.cfg.shmacBlocksize)
      ((Tree.ext T mac).1.take C.cfg.shmacBlocksize) (permFrom C.toEnv C.configId (Tree.ext T mac).1), keys⟩ := by
  have hv : testKeyValidity key = .ok () := raiseIf_ok.2 (by omega)
  unfold Cipher.startSession SaltAADIV.summary
  rw [hv, hkdf]
  simp only [hsum]
  simp only [bind, Except.bind, hmac, hkeys, shmac_new hx hK h hD, Shmac.forEncryption, raiseIf, Option.isSome, Bool.not_true, Bool.false_eq_true, if_false, pure, Except.pure]
  rfl

variable {permOf : Bytes → Chain} {step : Step K κ} {inv : Nat → Bytes → κ → Prop} {past mid : Nat → Set Bytes}

/-- One block in the model is one step. -/
def Turns (C : Cipher.Cipher κ) (T : Hash D K) (step : Step K κ) (inv : Nat → Bytes → κ → Prop) : Prop :=
  ∀ {j m p d perm k b}, inv j m k → perm.WF → perm.size = C.configId → p.length = C.cfg.shmacBlocksize → d.length = C.cfg.shmacBlocksize → b.length = C.cfg.blocksize →
    (step m p d perm k b).AllIn (D : Set Bytes) →
    C.turn (.live false .encryption m p d perm) k b = .ok (((step m p d perm k b).run (Tree.ext T)).1,
      .live false .encryption ((step m p d perm k b).run (Tree.ext T)).2.1 d
        (C.shmacKdf.xof.digest ((step m p d perm k b).run (Tree.ext T)).2.1 C.cfg.shmacBlocksize) perm, ((step m p d perm k b).run (Tree.ext T)).2.2)

omit hK in
theorem run_tree (M : Machine C.cfg C.configId permOf step inv past mid) (ht : Turns C T step inv) {perm : Chain} (hwf : perm.WF) (hs : perm.size = C.configId) :
    ∀ (bs : List Bytes) (j : Nat) (m p : Bytes) (k : κ), inv j m k → p.length = C.cfg.shmacBlocksize → (∀ b ∈ bs, b.length = C.cfg.blocksize) → m ∈ D →
      (rest C.cfg step perm bs m p (Tree.ext T m) k).AllIn (D : Set Bytes) →
      ∃ s z, C.run ⟨.live false .encryption m p ((Tree.ext T m).1.take C.cfg.shmacBlocksize) perm, k⟩ bs =
          .ok (((rest C.cfg step perm bs m p (Tree.ext T m) k).run (Tree.ext T)).2, s) ∧
        s.shmac.finalize C.toEnv = .ok (((rest C.cfg step perm bs m p (Tree.ext T m) k).run (Tree.ext T)).1, z)
  | [], j, m, p, k, hm, hp, hb, hD, _ => by
    obtain ⟨z, hz⟩ : ∃ z, (Shmac.live false .encryption m p ((Tree.ext T m).1.take C.cfg.shmacBlocksize) perm).finalize C.toEnv = .ok (Shmac.tagOf C.toEnv m, z) :=
      ⟨_, Shmac.finalize_live ..⟩
    have e : Shmac.tagOf C.toEnv m = tagFrom C.cfg (Tree.ext T m).1 := by
      unfold Shmac.tagOf tagFrom
      rw [hx, xof_digest known T hD M.wide]
    rw [e] at hz
    exact ⟨_, z, rfl, hz⟩
  | b :: bs, j, m, p, k, hm, hp, hb, hD, hin => by
    have hl := M.length_last (Tree.ext T m)
    rw [rest] at hin
    have h1 := Tree.AllIn.left hin
    have h2 := Tree.AllIn.right (Tree.ext T) hin
    have hturn := ht hm hwf hs hp hl (hb b (by simp)) h1
    have hout := (M.out hm hwf hs hp hl (hb b (by simp))).run (Tree.ext T)
    have hrun : (rest C.cfg step perm (b :: bs) m p (Tree.ext T m) k).run (Tree.ext T) =
        (((rest C.cfg step perm bs ((step m p ((Tree.ext T m).1.take C.cfg.shmacBlocksize) perm k b).run (Tree.ext T)).2.1 ((Tree.ext T m).1.take C.cfg.shmacBlocksize)
            (Tree.ext T ((step m p ((Tree.ext T m).1.take C.cfg.shmacBlocksize) perm k b).run (Tree.ext T)).2.1)
            ((step m p ((Tree.ext T m).1.take C.cfg.shmacBlocksize) perm k b).run (Tree.ext T)).2.2).run (Tree.ext T)).1,
          ((step m p ((Tree.ext T m).1.take C.cfg.shmacBlocksize) perm k b).run (Tree.ext T)).1 ::
          ((rest C.cfg step perm bs ((step m p ((Tree.ext T m).1.take C.cfg.shmacBlocksize) perm k b).run (Tree.ext T)).2.1 ((Tree.ext T m).1.take C.cfg.shmacBlocksize)
            (Tree.ext T ((step m p ((Tree.ext T m).1.take C.cfg.shmacBlocksize) perm k b).run (Tree.ext T)).2.1)
            ((step m p ((Tree.ext T m).1.take C.cfg.shmacBlocksize) perm k b).run (Tree.ext T)).2.2).run (Tree.ext T)).2) := by
      rw [rest, Tree.run_bind, Tree.run, Tree.run_map]
    rw [hrun]
    generalize (step m p ((Tree.ext T m).1.take C.cfg.shmacBlocksize) perm k b).run (Tree.ext T) = r at *
    obtain ⟨X, m', k'⟩ := r
    obtain ⟨_, hi, _, _⟩ := hout
    simp only at *
    obtain ⟨hm', hrest⟩ := h2
    obtain ⟨s, z, e1, e2⟩ := run_tree M ht hwf hs bs (j + 1) m' _ k' hi hl (fun x hx => hb x (by simp [hx])) hm' (Tree.AllIn.left (hrest _))
    refine ⟨s, z, ?_, e2⟩
    have hd : C.shmacKdf.xof.digest m' C.cfg.shmacBlocksize = (Tree.ext T m').1.take C.cfg.shmacBlocksize := by
      rw [hx, xof_digest known T hm' (by have := M.wide; unfold Sizes.shmacDoubleBlocksize at this; omega)]
    rw [hd] at hturn
    simp only [Cipher.run, hturn, bind, Except.bind, e1, pure, Except.pure]

/-- A message of the model. -/
theorem encrypt_tree (u : Usable C) (M : Machine C.cfg C.configId (permFrom C.toEnv C.configId) step inv past mid) (ht : Turns C T step inv)
    {r : Request} (hv : r.Valid C.cfg) {summary kdf mac : Bytes} {keys : κ}
    (hsum : Canon.canonicalPack [r.usedSalt, r.aad, r.draws.iv] 1 [0] 4 = .ok summary) (hkdf : C.shmacKdf.keyed r.key = .ok kdf)
    (hmac : C.shmacKdf.newSessionCopy kdf summary = .ok mac) (hkeys : C.sessionKdfs r.key summary = .ok keys) (hm : inv 0 mac keys)
    (hD : (message C.cfg step (permFrom C.toEnv C.configId) mac keys r : HashTree K Bytes).AllIn (D : Set Bytes)) :
    C.bytesEncrypt r.key r.draws r.salt r.aad r.data = .ok ((message C.cfg step (permFrom C.toEnv C.configId) mac keys r).run (Tree.ext T)) := by
  obtain ⟨padded, hp, hb, _, hbl, _⟩ := plainBlocks_spec u.accepted hv
  have hw := Tree.AllIn.left hD
  obtain ⟨hmD, hrest⟩ := hw
  obtain ⟨_, hwf, hs⟩ := permFrom_ok u.env hK (Tree.ext T mac)
  have hsalt : r.usedSalt = usedSalt r.salt r.draws.salt := by
    unfold Request.usedSalt usedSalt
    rcases r.salt with _ | (_ | ⟨_, _⟩) <;> rfl
  obtain ⟨s, z, e1, e2⟩ := run_tree hx M ht hwf hs (plainBlocks C.cfg r) 0 mac _ keys hm (M.length_last _) hbl hmD (hrest _)
  have hst := start_tree hx hK u.env (show minKeyBytes ≤ r.key.length from hv.key_ge) hsum hkdf hmac hkeys hmD
  rw [message, Tree.run_map, whole, Tree.run]
  unfold Cipher.bytesEncrypt
  rw [SaltAADIV.new_fresh (by rw [← hsalt]; exact hv.salt) hv.draws.iv, hp]
  simp only [bind, Except.bind, ← hsalt, hst, ← hb, e1, e2, pure, Except.pure]

end

end Aiootp.Secrecy
