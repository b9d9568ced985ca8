import Verif.Lemmas.StreamForgery
import Verif.Props.Forgery

/-
Property C97: streams that were not sent are not accepted, as far as the hash function cannot be told from a random one.
-/

namespace Aiootp.Secrecy

open Cipher Cipher.Cipher Perm

/-- **C97**. Made up streams of the shake-permute ciphers are accepted for as many hash functions as a guess of the tag would be. -/
theorem C97_permute {E : Env} (h : PermuteSetup E) (hs : Streamable E.cfg) {K : Nat} (hK : 2 * E.cfg.shmacBlocksize ≤ K) (htag : E.cfg.shmacBytes ≤ E.cfg.shmacBlocksize)
    (hid : E.cfg.blockIdBytes ≤ E.cfg.shmacBlocksize) :
    StreamUnforgeable E.cfg [E.shmacKdf.factory] K
      (fun x => sendAll (permuteCipher { E with shmacKdf := { E.shmacKdf with xof := x }, blockIdKdf := { E.blockIdKdf with xof := x } }))
      (fun x => receiveAll (permuteCipher { E with shmacKdf := { E.shmacKdf with xof := x }, blockIdKdf := { E.blockIdKdf with xof := x } })) :=
  forged_streams (permute_lawful h) hs hid hK htag h.tag_pos

/-- **C97**. Made up streams of the dual output ciphers are accepted for as many hash functions as a guess of the tag would be. -/
theorem C97_dual {E : DualEnv} (h : DualSetup E) (hs : Streamable E.cfg) {K : Nat} (hK : 2 * E.cfg.shmacBlocksize ≤ K) (htag : E.cfg.shmacBytes ≤ E.cfg.shmacBlocksize)
    (hid : E.cfg.blockIdBytes ≤ E.cfg.shmacBlocksize) :
    StreamUnforgeable E.cfg [E.shmacKdf.factory] K
      (fun x => sendAll (dualCipher { E with
        shmacKdf := { E.shmacKdf with xof := x }, blockIdKdf := { E.blockIdKdf with xof := x }, leftKdf := { E.leftKdf with xof := x }, rightKdf := { E.rightKdf with xof := x } }))
      (fun x => receiveAll (dualCipher { E with
        shmacKdf := { E.shmacKdf with xof := x }, blockIdKdf := { E.blockIdKdf with xof := x }, leftKdf := { E.leftKdf with xof := x }, rightKdf := { E.rightKdf with xof := x } })) :=
  forged_streams (dual_lawful h) hs hid hK htag h.tag_pos

/-! ### streams that were sent -/

/-- A recipient of the whole stream accepts it, in time, and has taken all of its packets. -/
def SentAccepted {κ : Type} (C : Cipher κ) : Prop :=
  ∀ (r : StreamRequest) (saltDraw : Bytes) (ttl : Option Int) (now : Int), r.Valid C.cfg → saltDraw.length = C.cfg.saltBytes → NotExpired C.cfg r.draws.reading ttl now →
    ∃ tag packets, sendAll C r = .ok (tag ++ r.whole.usedSalt ++ r.draws.iv ++ wire packets) ∧
      receiveAll C ⟨r.key, r.whole.usedSalt, r.aad, r.draws.iv, ttl, saltDraw, [.buffer (wire packets)], now, tag⟩ = .ok (wire packets, true)

theorem sent_accepted {κ : Type} {C : Cipher κ} (S : Sound C) (u : Usable C) (hs : Streamable C.cfg) (hframe : C.cfg.paddingFrame ≤ 256) : SentAccepted C := by
  intro r saltDraw ttl now hv hdraw htime
  have ha := StreamRequest.args_ok hv
  have hus : usedSalt r.salt r.draws.salt = r.whole.usedSalt := usedSalt_eq r.whole
  obtain ⟨r0, hr, _, _, hlen, hnew, _, _⟩ := stream_start S u ha
  obtain ⟨endp, G, rf, st', e1, e2, e3, e4⟩ := reference_run (S := S) u hs ha hr (buffered r.calls) hlen
  obtain ⟨bundle, st, c1, c2⟩ := chunking_irrelevant S u hs _ ha
  rw [hnew] at c1
  simp only [Except.ok.injEq, Prod.mk.injEq] at c1
  obtain ⟨rfl, rfl⟩ := c1
  obtain ⟨g1, g2, tag, g3, g4⟩ := c2 r.calls hv.ends
  obtain ⟨_, _, tag', g3', g4'⟩ := c2 [.buffer (buffered r.calls), .finalize] (by simp)
  rw [show buffered [.buffer (buffered r.calls), .finalize] = buffered r.calls by simp [buffered], g4, g1] at g4'
  have etag : tag = tag' := by
    have := Except.ok.inj g4'
    simpa using this
  subst etag
  obtain ⟨dst, d1, d2⟩ := stream_comes_back S u hs hframe _ (buffered r.calls) ha _ _ hnew saltDraw ttl hdraw
  rw [e3] at g1 g3' d2
  have hGne : G ≠ [] := by
    rintro rfl
    have hblk := e2.blocks.2.2
    have hflat := Text.batch_flatten C.cfg.blocksize S.block_pos (beDigits C.cfg.timestampBytes r.draws.reading.toNat ++ r.draws.sivKey ++ buffered r.calls ++ endp)
    have h0 : Text.batch C.cfg.blocksize (beDigits C.cfg.timestampBytes r.draws.reading.toNat ++ r.draws.sivKey ++ buffered r.calls ++ endp) = [] := List.length_eq_zero_iff.1 hblk.symm
    rw [h0] at hflat
    have hl := congrArg List.length hflat
    have hpad := Sizes.length_endPadding u.accepted.frame_pos hv.whole.draws.extra e1
    have hb := (Sizes.padSize_bounds (c := C.cfg) u.accepted.frame_pos (buffered r.calls).length).1
    rw [List.length_append, hpad] at hl
    simp only [List.flatten_nil, List.length_nil] at hl
    omega
  have hfeed := Feeds.buffer (time := NotExpired C.cfg r.draws.reading ttl) G hGne .nil
  rw [List.append_nil] at hfeed
  obtain ⟨replies, last, dst', f1, _, f2, _, f3, f4, f5⟩ := d2 _ now hfeed htime
  have g3'' : st'.session.shmac.getResult = .ok tag := g3'
  refine ⟨tag, G, ?_, ?_⟩
  · unfold sendAll
    rw [hnew]
    simp only [bind, Except.bind]
    rw [g3]
    simp only [hus, pure, Except.pure]
    rw [g1]
  · unfold receiveAll
    rw [hus] at d1
    simp only at d1
    rw [d1]
    simp only [bind, Except.bind, pure, Except.pure, Except.ok.injEq, Prod.mk.injEq, DecipherStream.execAll, List.cons_append, List.nil_append] at f1 ⊢
    rcases replies with _ | ⟨rep, _ | ⟨_, _⟩⟩
    · simp at f3
    · simp only [List.cons_append, List.nil_append, List.cons.injEq, and_true] at f1
      obtain ⟨⟨a1, a2⟩, a3⟩ := f1
      have hz := f4 (.buffer (wire G), rep) (by simp)
      have herr : rep.err = none := by
        rcases hz.1 with h | ⟨_, _, _, h⟩
        · exact h
        · cases h
      refine ⟨?_, ?_⟩
      · simp only [acceptedAll, List.zipWith_cons_cons, List.zipWith_nil_right, List.flatten_cons, List.flatten_nil, List.append_nil]
        rw [a1]
        rcases rep with ⟨o, e, rf⟩
        simp only at herr
        subst herr
        rfl
      · rw [a2, f2, a3]
        unfold Shmac.testShmac
        rw [f5, g3'']
        simp [bind, Except.bind, raiseIf, Except.isOk, Except.toBool]
    · simp at f3

/-- **C97**. What was sent is accepted. -/
theorem C97_sent_permute {E : Env} (h : PermuteSetup E) (hs : Streamable E.cfg) (hframe : E.cfg.paddingFrame ≤ 256) : SentAccepted (permuteCipher E) :=
  sent_accepted (permuteSound E h.permuteWF) h.usable hs hframe

/-- **C97**. What was sent is accepted. -/
theorem C97_sent_dual {E : DualEnv} (h : DualSetup E) (hs : Streamable E.cfg) (hframe : E.cfg.paddingFrame ≤ 256) : SentAccepted (dualCipher E) :=
  sent_accepted (dualSound E h.wf h.sides.1 h.sides.2) h.usable hs hframe

/-! ### examples -/

/-- Someone who sends two portions and iterates in between, each time with another iv. -/
def sampleStreamAsk (c : Sizes) : List Bytes → StreamRequest := fun seen =>
  ⟨sampleKey, { sampleDraws c with iv := beDigits c.ivBytes seen.length }, none, [1], [.buffer [1, 2], .pull 3, .buffer [3], .finalize]⟩

theorem sampleStreamAsk_valid {c : Sizes} (h : c.timestampBytes = 4) (seen : List Bytes) : (sampleStreamAsk c seen).Valid c := by
  have hf := sampleDraws_fit c h
  exact ⟨⟨(by decide : 64 ≤ sampleKey.length), (by decide : sampleKey.length < 256 ^ 8), ⟨hf.salt, length_beDigits .., hf.sivKey, hf.extra, hf.reading_nonneg, hf.reading_lt⟩, hf.salt,
    (by decide : ([1] : Bytes).length < 256 ^ 4)⟩, by simp [sampleStreamAsk]⟩

/-- Someone who turns the last stream around. -/
def sampleStreamForger (c : Sizes) : StreamForger := fun seen =>
  ⟨sampleKey, List.replicate c.saltBytes 0, [1], List.replicate c.ivBytes 0, none, List.replicate c.saltBytes 0, [.buffer (seen.getLast?.getD []).reverse, .pull 1 2], 5, List.replicate c.shmacBytes 7⟩

theorem sampleStreamForger_valid (c : Sizes) (seen : List Bytes) : (sampleStreamForger c seen).Valid c :=
  ⟨(by decide : 64 ≤ sampleKey.length), (by decide : sampleKey.length < 256 ^ 8), List.length_replicate, (by decide : ([1] : Bytes).length < 256 ^ 4), List.length_replicate, List.length_replicate,
    by intro call hc; simp [sampleStreamForger] at hc; rcases hc with rfl | rfl <;> rfl⟩

example := C97_permute sampleSlick_setup sampleSlick_streamable (K := 1000) (by decide) (by decide) (by decide) sampleXof (sampleStreamAsk sampleSlick.cfg)
  [(0, sampleStreamForger sampleSlick.cfg), (7, sampleStreamForger sampleSlick.cfg)] (sampleStreamAsk_valid rfl)
  (fun p hp seen => by simp at hp; rcases hp with rfl | rfl <;> exact sampleStreamForger_valid _ seen) fun p hp seen seen' => by
    simp at hp; rcases hp with rfl | rfl <;> rfl

example := C97_dual sampleChunky_setup sampleChunky_streamable (K := 1000) (by decide) (by decide) (by decide) sampleXof (sampleStreamAsk sampleChunky.cfg)
  [(0, sampleStreamForger sampleChunky.cfg), (7, sampleStreamForger sampleChunky.cfg)] (sampleStreamAsk_valid rfl)
  (fun p hp seen => by simp at hp; rcases hp with rfl | rfl <;> exact sampleStreamForger_valid _ seen) fun p hp seen seen' => by
    simp at hp; rcases hp with rfl | rfl <;> rfl

example := C97_sent_permute sampleSlick_setup sampleSlick_streamable (by decide) (sampleStreamAsk sampleSlick.cfg []) (List.replicate sampleSlick.cfg.saltBytes 0) none 9
  (sampleStreamAsk_valid rfl []) List.length_replicate (.inl rfl)

example := C97_sent_dual sampleChunky_setup sampleChunky_streamable (by decide) (sampleStreamAsk sampleChunky.cfg []) (List.replicate sampleChunky.cfg.saltBytes 0) none 9
  (sampleStreamAsk_valid rfl []) List.length_replicate (.inl rfl)

end Aiootp.Secrecy
