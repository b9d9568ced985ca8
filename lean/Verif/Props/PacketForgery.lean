import Verif.Lemmas.PacketForgery
import Verif.Props.StreamForgery
import Verif.Props.StreamSecrecy

/-
Property C111: packets that were never sent are not taken, as far as the hash function cannot be told from a random one.
-/

namespace Aiootp.Secrecy

open Cipher Cipher.Cipher Perm

theorem not_begins {f g m : Bytes} (hl : f.length = g.length) (hne : f ≠ g) (h : g <+: m) : ¬ f <+: m := by
  intro h'
  obtain ⟨w, rfl⟩ := h
  obtain ⟨w', e⟩ := h'
  exact hne (List.append_inj e hl).1

theorem session_begins {k : KdfConfig} {key summary kdf mac : Bytes} (h1 : k.keyed key = .ok kdf) (h2 : k.newSessionCopy kdf summary = .ok mac) : k.factory <+: mac := by
  simp only [KdfConfig.keyed, KdfConfig.newSessionCopy, bind_eq_ok, pure, Except.pure, Except.ok.injEq] at h1 h2
  obtain ⟨a, _, rfl⟩ := h1
  obtain ⟨b, _, rfl⟩ := h2
  rw [List.append_assoc]
  exact List.prefix_append ..

/-- A permute cipher hashes nothing to encrypt that begins with the constant of the block ids. -/
def permute_local {E : Env} (hl : E.blockIdKdf.factory.length = E.shmacKdf.factory.length) (hne : E.blockIdKdf.factory ≠ E.shmacKdf.factory) :
    Local (permuteFamily E) (permuteFamily E).E.blockIdKdf.factory where
  dom := fun m _ => E.shmacKdf.factory <+: m
  off := fun h => not_begins hl hne h
  same := by
    intro x x' hs g d m p c perm k b hd
    have em : ∀ w n, x.digest (m ++ w) n = x'.digest (m ++ w) n := fun w n => hs _ _ (not_begins hl hne (hd.trans (List.prefix_append ..)))
    show permuteTurn (rehash E x) _ k b = permuteTurn (rehash E x') _ k b
    unfold permuteTurn permuteEncipher permuteDecipher Shmac.update rehash
    simp only [Shmac.live, attr, bind, Except.bind, em]
  next := fun hd _ hm => hd.trans hm
  start := fun h1 h2 _ => session_begins h1 h2

theorem keystream_keys {E : DualEnv} {k : DualKeys} {r : Bytes} : k.left <+: (keystream E k r).2.left ∧ k.right <+: (keystream E k r).2.right :=
  ⟨List.prefix_append .., List.prefix_append ..⟩

theorem dualTurn_keys {E : DualEnv} {s s' : Shmac} {k k' : DualKeys} {b out : Bytes} (h : dualTurn E s k b = .ok (out, s', k')) : k.left <+: k'.left ∧ k.right <+: k'.right := by
  unfold dualTurn at h
  split at h
  · cases h
  · unfold uniqueCipher at h
    simp only [bind_eq_ok, pure, Except.pure, Except.ok.injEq, Prod.mk.injEq] at h
    obtain ⟨_, _, _, _, _, _, _, _, _, _, _, _, _, _, rfl⟩ := h
    exact keystream_keys
  · unfold uniqueDecipher at h
    simp only [bind_eq_ok, pure, Except.pure, Except.ok.injEq, Prod.mk.injEq] at h
    obtain ⟨_, _, _, _, _, _, _, _, _, _, _, _, _, _, rfl⟩ := h
    exact keystream_keys
  · simp only [bind_eq_ok, pure, Except.pure, Except.ok.injEq, Prod.mk.injEq] at h
    obtain ⟨_, _, _, _, _, _, rfl⟩ := h
    exact keystream_keys
  · simp only [bind_eq_ok, pure, Except.pure, Except.ok.injEq, Prod.mk.injEq] at h
    obtain ⟨_, _, _, _, _, _, rfl⟩ := h
    exact keystream_keys

/-- A dual output cipher hashes nothing to encrypt that begins with the constant of the block ids. -/
def dual_local {E : DualEnv} (hl : E.blockIdKdf.factory.length = E.shmacKdf.factory.length) (hll : E.blockIdKdf.factory.length = E.leftKdf.factory.length)
    (hlr : E.blockIdKdf.factory.length = E.rightKdf.factory.length) (h1 : E.blockIdKdf.factory ≠ E.shmacKdf.factory) (h2 : E.blockIdKdf.factory ≠ E.leftKdf.factory)
    (h3 : E.blockIdKdf.factory ≠ E.rightKdf.factory) : Local (dualFamily E) (dualFamily E).E.blockIdKdf.factory where
  dom := fun m k => E.shmacKdf.factory <+: m ∧ E.leftKdf.factory <+: k.left ∧ E.rightKdf.factory <+: k.right
  off := fun h => not_begins hl h1 h.1
  same := by
    intro x x' hs g d m p c perm k b ⟨d1, d2, d3⟩
    have em : ∀ w n, x.digest (m ++ w) n = x'.digest (m ++ w) n := fun w n => hs _ _ (not_begins hl h1 (d1.trans (List.prefix_append ..)))
    have el : ∀ w n, x.digest (k.left ++ w) n = x'.digest (k.left ++ w) n := fun w n => hs _ _ (not_begins hll h2 (d2.trans (List.prefix_append ..)))
    have er : ∀ w n, x.digest (k.right ++ w) n = x'.digest (k.right ++ w) n := fun w n => hs _ _ (not_begins hlr h3 (d3.trans (List.prefix_append ..)))
    show dualTurn (rehashDual E x) _ k b = dualTurn (rehashDual E x') _ k b
    unfold dualTurn uniqueCipher uniqueDecipher dualEncipher dualDecipher Shmac.update keystream rehashDual
    simp only [Shmac.live, attr, bind, Except.bind, List.append_assoc, em, el, er]
  next := fun hd h hm => ⟨hd.1.trans hm, hd.2.1.trans (dualTurn_keys h).1, hd.2.2.trans (dualTurn_keys h).2⟩
  start := by
    intro key summary kdf mac keys g1 g2 g3
    simp only [dualFamily, dualCipher, bind_eq_ok, pure, Except.pure, Except.ok.injEq] at g3
    obtain ⟨l, a1, r, a2, l', a3, r', a4, rfl⟩ := g3
    exact ⟨session_begins g1 g2, session_begins a1 a3, session_begins a2 a4⟩

/-- **C111**. Made up packets of the shake-permute ciphers are taken for as many hash functions as guesses of the block ids would be. -/
theorem C111_permute {E : Env} (h : PermuteSetup E) (hs : Streamable E.cfg) {K : Nat} (hK : E.cfg.blockIdBytes ≤ K)
    (hl : E.blockIdKdf.factory.length = E.shmacKdf.factory.length) (hne : E.blockIdKdf.factory ≠ E.shmacKdf.factory) :
    PacketsUnforgeable E.cfg E.blockIdKdf.factory K
      (fun x => sendAll (permuteCipher { E with shmacKdf := { E.shmacKdf with xof := x }, blockIdKdf := { E.blockIdKdf with xof := x } }))
      (fun x => takeAll (permuteCipher { E with shmacKdf := { E.shmacKdf with xof := x }, blockIdKdf := { E.blockIdKdf with xof := x } })) :=
  forged_packets (permute_lawful h) (permute_local hl hne) hs hK

/-- **C111**. Made up packets of the dual output ciphers are taken for as many hash functions as guesses of the block ids would be. -/
theorem C111_dual {E : DualEnv} (h : DualSetup E) (hs : Streamable E.cfg) {K : Nat} (hK : E.cfg.blockIdBytes ≤ K)
    (hl : E.blockIdKdf.factory.length = E.shmacKdf.factory.length) (hll : E.blockIdKdf.factory.length = E.leftKdf.factory.length)
    (hlr : E.blockIdKdf.factory.length = E.rightKdf.factory.length) (h1 : E.blockIdKdf.factory ≠ E.shmacKdf.factory) (h2 : E.blockIdKdf.factory ≠ E.leftKdf.factory)
    (h3 : E.blockIdKdf.factory ≠ E.rightKdf.factory) :
    PacketsUnforgeable E.cfg E.blockIdKdf.factory K
      (fun x => sendAll (dualCipher { E with
        shmacKdf := { E.shmacKdf with xof := x }, blockIdKdf := { E.blockIdKdf with xof := x }, leftKdf := { E.leftKdf with xof := x }, rightKdf := { E.rightKdf with xof := x } }))
      (fun x => takeAll (dualCipher { E with
        shmacKdf := { E.shmacKdf with xof := x }, blockIdKdf := { E.blockIdKdf with xof := x }, leftKdf := { E.leftKdf with xof := x }, rightKdf := { E.rightKdf with xof := x } })) :=
  forged_packets (dual_lawful h) (dual_local hl hll hlr h1 h2 h3) hs hK

/-! ### packets that were sent -/

/-- A recipient of the beginning of a stream takes it, in portions of any number of packets. -/
def SentTaken {κ : Type} (C : Cipher κ) : Prop :=
  ∀ (r : StreamRequest) (saltDraw : Bytes) (ttl : Option Int), r.Valid C.cfg → saltDraw.length = C.cfg.saltBytes →
    ∃ tag packets, sendAll C r = .ok (tag ++ r.whole.usedSalt ++ r.draws.iv ++ wire packets) ∧ tag.length = C.cfg.shmacBytes ∧ (∀ y ∈ packets, Sized C.cfg y) ∧
      ∀ (portions : List (List Packet)) (after : List Packet), packets = portions.flatten ++ after →
        takeAll C ⟨r.key, r.whole.usedSalt, r.aad, r.draws.iv, ttl, saltDraw, portions.map fun p => .buffer (wire p)⟩ = .ok (wire portions.flatten)

section
variable {κ : Type} {F : Family κ} (L : Lawful F)

theorem feedAll_good {ok : List Packet → Packet → Prop} : ∀ (gs : List (List Packet)) (A : List Packet), (∀ pre p post, gs.flatten = pre ++ p :: post → ok (A ++ pre) p) →
    feedAll ok A gs = A ++ gs.flatten
  | [], A, _ => by simp [feedAll]
  | g :: gs, A, h => by
    have h1 := feed_good (ok := ok) g [] A (fun pre p post e => h pre p (post ++ gs.flatten) (by rw [List.flatten_cons, e]; simp)) fun _ _ e => by cases e
    rw [List.append_nil] at h1
    rw [feedAll, h1, feedAll_good gs (A ++ g) fun pre p post e => by
      have := h (g ++ pre) p post (by rw [List.flatten_cons, e]; simp)
      rwa [← List.append_assoc] at this]
    simp

include L in
theorem sent_taken (hst : Streamable F.E.cfg) (x : Xof) : SentTaken (F.stream x) := by
  intro r saltDraw ttl hv hdraw
  obtain ⟨r0, G, rf, s1, s2, s3, s4, s5, s6, s7⟩ := sent_form L hst x hv
  refine ⟨_, G, s7, (stream_usable L x).length_tag _, s6.sized, fun portions after e => ?_⟩
  let a : StreamAttempt := ⟨r.key, r.whole.usedSalt, r.aad, r.draws.iv, ttl, saltDraw, portions.map fun p => .buffer (wire p), 0, []⟩
  have ha' : a.Valid F.E.cfg := by
    refine ⟨hv.whole.key_ge, hv.whole.key_lt, hv.whole.salt, hv.whole.aad, hv.whole.draws.iv, hdraw, fun call hc => ?_⟩
    obtain ⟨p, _, rfl⟩ := List.mem_map.1 hc
    rfl
  obtain ⟨ra, r1, r2, r3, r4, r5⟩ := received_start L x ha'
  have era : ra = r0 := by
    have : (F.at x).startSession r.key ⟨r.whole.usedSalt, r.aad, r.draws.iv, false⟩ .decryption = .ok (ra.session true .decryption) := r4
    rw [s5] at this
    exact (Ratchet.session_inj (Except.ok.inj this)).symm
  subst era
  have hinit := decipher_inv_init (L.streamSound x) ra ttl
  obtain ⟨B, b1, b2⟩ := exec_feed (C := F.stream x) hst r1 a.calls hinit ha'.calls
  have hoff : a.calls.map (offers F.E.cfg) = portions := by
    show (portions.map _).map _ = _
    rw [List.map_map]
    refine (List.map_congr_left fun p hp => ?_).trans (List.map_id _)
    exact offers_wire (packetsize_pos hst) fun y hy => s6.sized y (by rw [e]; simp only [List.mem_append, List.mem_flatten]; exact .inl ⟨p, hp, hy⟩)
  have hB : B = portions.flatten := by
    have b1' : feedAll (Passable (L.streamSound x) ra) [] (a.calls.map (offers F.E.cfg)) = [] ++ B := b1
    rw [hoff, feedAll_good portions [] fun pre p post hp => ?_] at b1'
    · simpa using b1'.symm
    · refine passable_of_path (B := post ++ after) (r' := rf) (Ps := r.blocks F.E.cfg) ?_
      have : [] ++ pre ++ p :: (post ++ after) = G := by rw [e, hp]; simp
      rw [this]
      exact s6
  unfold takeAll
  have r5' : DecipherStream.new (F.stream x) r.key saltDraw (some r.whole.usedSalt) r.aad r.draws.iv ttl = .ok ⟨ra.session true .decryption, ttl, false, [], F.E.cfg.innerHeaderBytes, false⟩ := r5
  simp only [r5']
  rw [← hB]
  exact congrArg Except.ok b2

end

/-- **C111**. What was sent is taken. -/
theorem C111_sent_permute {E : Env} (h : PermuteSetup E) (hs : Streamable E.cfg) (x : Xof) :
    SentTaken (permuteCipher { E with shmacKdf := { E.shmacKdf with xof := x }, blockIdKdf := { E.blockIdKdf with xof := x } }) :=
  sent_taken (permute_lawful h) hs x

/-- **C111**. What was sent is taken. -/
theorem C111_sent_dual {E : DualEnv} (h : DualSetup E) (hs : Streamable E.cfg) (x : Xof) :
    SentTaken (dualCipher { E with
      shmacKdf := { E.shmacKdf with xof := x }, blockIdKdf := { E.blockIdKdf with xof := x }, leftKdf := { E.leftKdf with xof := x }, rightKdf := { E.rightKdf with xof := x } }) :=
  sent_taken (dual_lawful h) hs x

/-! ### examples -/

/-- Someone who offers a packet that was never seen, then iterates and offers another. -/
def samplePacketForger (c : Sizes) : PacketForger := fun seen =>
  ⟨sampleKey, List.replicate c.saltBytes 0, [1], List.replicate c.ivBytes 0, none, List.replicate c.saltBytes 0,
    [.buffer (List.replicate c.packetsize 9), .pull 1 2, .buffer (List.replicate c.packetsize (UInt8.ofNat seen.length))]⟩

theorem samplePacketForger_valid (c : Sizes) (seen : List Bytes) : (samplePacketForger c seen).Valid c :=
  ⟨(by decide : 64 ≤ sampleKey.length), (by decide : sampleKey.length < 256 ^ 8), List.length_replicate, (by decide : ([1] : Bytes).length < 256 ^ 4), List.length_replicate, List.length_replicate,
    by intro call hc; simp [samplePacketForger] at hc; rcases hc with rfl | rfl | rfl <;> rfl⟩

theorem samplePacketForger_offers (c : Sizes) (seen : List Bytes) : offeredBytes (samplePacketForger c seen).calls ≤ 2 * c.packetsize := by
  simp only [samplePacketForger, offeredBytes, List.length_replicate]
  omega

example := C111_permute (K := 1000) sampleSlickIds_setup sampleSlick_streamable (by decide) (by decide) (by decide) sampleXof (sampleStreamAsk sampleSlick.cfg) 2
  [(0, samplePacketForger sampleSlick.cfg), (7, samplePacketForger sampleSlick.cfg)] (sampleStreamAsk_valid rfl)
  (fun p hp seen => by simp at hp; rcases hp with rfl | rfl <;> exact samplePacketForger_valid _ seen)
  fun p hp seen => by simp at hp; rcases hp with rfl | rfl <;> exact samplePacketForger_offers _ seen

example := C111_dual (K := 1000) sampleDualIds_setup sampleChunky_streamable (by decide) (by decide) (by decide) (by decide) (by decide) (by decide) (by decide) sampleXof
  (sampleStreamAsk sampleChunky.cfg) 2 [(0, samplePacketForger sampleChunky.cfg), (7, samplePacketForger sampleChunky.cfg)] (sampleStreamAsk_valid rfl)
  (fun p hp seen => by simp at hp; rcases hp with rfl | rfl <;> exact samplePacketForger_valid _ seen)
  fun p hp seen => by simp at hp; rcases hp with rfl | rfl <;> exact samplePacketForger_offers _ seen

example := C111_sent_permute sampleSlickIds_setup sampleSlick_streamable sampleXof _ (List.replicate sampleSlick.cfg.saltBytes 7) (some 9) (sampleStreamAsk_valid (c := sampleSlick.cfg) rfl [])
  List.length_replicate

example := C111_sent_dual sampleDualIds_setup sampleChunky_streamable sampleXof _ (List.replicate sampleChunky.cfg.saltBytes 7) (some 9) (sampleStreamAsk_valid (c := sampleChunky.cfg) rfl [])
  List.length_replicate

end Aiootp.Secrecy
