import Verif.Props.Stream
import Verif.Lemmas.Ids

/-!
C30, C124: how streams read the timestamp when it is longer than a block.
-/

namespace Aiootp.Cipher

open Perm

/-! ### specification -/

/-- The part of the timestamp that is in the first block, as a number: the whole timestamp if it fits into a block, otherwise what is left of it
without its last bytes. -/
def readByStream (c : Sizes) (reading : Int) : Int := reading / 256 ^ (c.timestampBytes - c.blocksize)

/-- Once a packet was buffered before the first iteration, calls at times that are later than the time to live allows, with respect to `base` for the
clock reading of the sender, give out nothing; iterations raise `TimestampExpired`, and so does the first `finalize`. -/
def RefusedFrom {κ : Type} (C : Cipher κ) (base : Int → Int) : Prop :=
  ∀ (a : StreamArgs) (t : Int), a.OK C.cfg →
  ∀ dst, DecipherStream.new C a.key a.draws.salt (some (usedSalt a.salt a.draws.salt)) a.aad a.draws.iv (some t) = .ok dst →
  ∀ bundle st data, CipherStream.new C a.key a.draws a.salt a.aad = .ok (bundle, st) →
  ∀ first, first ≠ [] → first <+: (st.execAll C [.buffer data, .finalize]).1 →
  ∀ calls, (∀ call ∈ calls, call.At fun now => t < now - base a.draws.reading) →
  ∃ replies dst', dst.execAll C (.buffer (wire first) :: calls) = (⟨[], none, none⟩ :: replies, dst') ∧
    released replies = [] ∧ replies.length = calls.length ∧
    ∀ x ∈ calls.zip replies,
      (∀ now n, x.1 = .pull now n → n ≠ 0 → x.2 = ⟨[], some (.timestampExpired (now - base a.draws.reading - t)), none⟩) ∧
      (∀ now, x.1 = .finalize now → x.2 = ⟨[], some (.timestampExpired (now - base a.draws.reading - t)), none⟩ ∨ x.2 = ⟨[], some .streamClosed, none⟩)

/-- An expired stream gives out nothing in whatever calls follow the first packets. -/
def NothingReleasedExpired {κ : Type} (C : Cipher κ) : Prop :=
  ∀ (a : StreamArgs) (t : Int), a.OK C.cfg →
  ∀ dst, DecipherStream.new C a.key a.draws.salt (some (usedSalt a.salt a.draws.salt)) a.aad a.draws.iv (some t) = .ok dst →
  ∀ bundle st data, CipherStream.new C a.key a.draws a.salt a.aad = .ok (bundle, st) →
  ∀ first, first ≠ [] → first <+: (st.execAll C [.buffer data, .finalize]).1 →
  ∀ calls, (∀ call ∈ calls, call.At fun now => t < now - a.draws.reading) →
  released (dst.execAll C (.buffer (wire first) :: calls)).1 = []

/-- A stream is refused as expired at the very moment at which it was made: when all its packets were buffered, iterating it raises `TimestampExpired`. -/
def FreshRefused {κ : Type} (C : Cipher κ) (a : StreamArgs) (t : Int) : Prop :=
  ∀ dst, DecipherStream.new C a.key a.draws.salt (some (usedSalt a.salt a.draws.salt)) a.aad a.draws.iv (some t) = .ok dst →
  ∀ bundle st data, CipherStream.new C a.key a.draws a.salt a.aad = .ok (bundle, st) →
  ∀ n, n ≠ 0 → ∃ late dst', 0 < late ∧ dst.execAll C [.buffer (wire (st.execAll C [.buffer data, .finalize]).1), .pull a.draws.reading n]
    = ([⟨[], none, none⟩, ⟨[], some (.timestampExpired late), none⟩], dst')

/-- The same data, encrypted and decrypted at once instead of in a stream, come back at that moment. -/
def OneShotAccepted {κ : Type} (C : Cipher κ) (a : StreamArgs) (t : Int) : Prop :=
  ∀ data : Bytes, ∃ ciphertext, C.bytesEncrypt a.key a.draws a.salt a.aad data = .ok ciphertext ∧
    ∀ saltDraw : Bytes, saltDraw.length = C.cfg.saltBytes → C.bytesDecrypt a.key saltDraw a.draws.reading (some t) a.aad ciphertext = .ok data

/-! ### lemmas -/

theorem fromBE_take_beDigits {s n b : Nat} (h : n < 256 ^ s) : fromBE ((beDigits s n).take b) = n / 256 ^ (s - b) := by
  have h1 : fromBE (beDigits s n) = n := fromBE_beDigits_of_lt h
  have h2 := Ids.fromBE_append ((beDigits s n).take b) ((beDigits s n).drop b)
  rw [List.take_append_drop, h1, List.length_drop, length_beDigits] at h2
  have h3 := fromBE_lt ((beDigits s n).drop b)
  rw [List.length_drop, length_beDigits] at h3
  have hp : 0 < 256 ^ (s - b) := Nat.pow_pos (by decide)
  conv => rhs; rw [h2]
  rw [Nat.add_comm, Nat.add_mul_div_right _ _ hp, Nat.div_eq_of_lt h3, Nat.zero_add]

section
variable {κ : Type} {C : Cipher κ}

theorem delta_first {reading now : Int} (hread : 0 ≤ reading ∧ reading < 256 ^ C.cfg.timestampBytes) {b rest tail : Bytes} (hb : b.length = C.cfg.blocksize)
    (h : b ++ tail = beDigits C.cfg.timestampBytes reading.toNat ++ rest) :
    Clock.delta now (C.cfg.timestampSlice.of b) .big = now - readByStream C.cfg reading := by
  have h3 : ((256 ^ C.cfg.timestampBytes : Nat) : Int) = 256 ^ C.cfg.timestampBytes := by simp
  have h4 : reading.toNat < 256 ^ C.cfg.timestampBytes := by omega
  have h1 : C.cfg.timestampSlice.of b = (beDigits C.cfg.timestampBytes reading.toNat).take C.cfg.blocksize := by
    unfold Sizes.timestampSlice
    rw [slice_zero_nat]
    have e1 : (b ++ tail).take C.cfg.blocksize = b := List.take_left' hb
    rw [← e1, h, List.take_take, Nat.min_comm, ← List.take_take, List.take_left' (length_beDigits ..)]
  have h5 : ((reading.toNat : Nat) : Int) = reading := by omega
  simp only [Clock.delta, Clock.readTimestamp, h1, fromBE_take_beDigits h4, readByStream]
  rw [Int.natCast_ediv, h5]
  simp

theorem readByStream_le {c : Sizes} {reading : Int} (h : 0 ≤ reading) : readByStream c reading ≤ reading :=
  Int.ediv_le_self _ h

theorem readByStream_lt {c : Sizes} (hts : c.blocksize < c.timestampBytes) {reading : Int} (h : 0 < reading) : readByStream c reading < reading := by
  unfold readByStream
  obtain ⟨k, hk⟩ : ∃ k, c.timestampBytes - c.blocksize = k + 1 := ⟨c.timestampBytes - c.blocksize - 1, by omega⟩
  rw [hk]
  have h1 : (1 : Int) < 256 ^ (k + 1) := by
    have : 1 < 256 ^ (k + 1) := Nat.one_lt_pow (by omega) (by decide)
    exact_mod_cast this
  exact Int.ediv_lt_self_of_pos_of_ne_one h (by omega)

theorem refused_from (S : Sound C) (u : Usable C) (hs : Streamable C.cfg) : RefusedFrom C (readByStream C.cfg) := by
  intro a t ha dst hdst bundle st data hst first hne hpre calls hcalls
  obtain ⟨r0, hr, _, _, hlen, hnew, hdec, _⟩ := stream_start S u ha
  rw [hdec _ _ ha.draws.salt] at hdst
  simp only [Except.ok.injEq] at hdst
  rw [hnew] at hst
  simp only [Except.ok.injEq, Prod.mk.injEq] at hst
  obtain ⟨rfl, rfl⟩ := hst
  obtain ⟨endp, G, r, st', e1, e2, e3, e4⟩ := reference_run (S := S) u hs ha hr data hlen
  rw [e3] at hpre
  obtain ⟨tl, rfl⟩ := hpre
  have hflat : (Text.batch C.cfg.blocksize (beDigits C.cfg.timestampBytes a.draws.reading.toNat ++ a.draws.sivKey ++ data ++ endp)).flatten
      = beDigits C.cfg.timestampBytes a.draws.reading.toNat ++ a.draws.sivKey ++ data ++ endp := Text.batch_flatten _ S.block_pos _
  obtain ⟨Qs, Rs, r1, hQ, h1, h2⟩ := e2.split
  obtain ⟨st1, f1, f2, f3⟩ := (decipher_inv_init S r0 (some t)).buffer hs hr (.nil r0) h1 hne
  rw [hdst] at f1
  simp only [List.nil_append] at f2
  have hstuck : Stuck C t (readByStream C.cfg a.draws.reading) st1 := by
    obtain ⟨r2, hp, hss⟩ := f2.path
    have hw : st1.isStreaming = false := f3
    obtain ⟨_, _, hq⟩ := f2.fresh hw
    refine ⟨hw, f2.ttl, ?_, .inr ⟨r2, hp.wf hr, hss⟩⟩
    have hQne : Qs ≠ [] := by
      rintro rfl
      cases h1
      exact hne rfl
    obtain ⟨b, q, hbq⟩ := List.exists_cons_of_ne_nil hQne
    refine ⟨b, q, by rw [hq, hbq], ?_⟩
    intro now hnow
    have hd : Clock.delta now (C.cfg.timestampSlice.of b) .big = now - readByStream C.cfg a.draws.reading := by
      refine delta_first ⟨ha.draws.reading_nonneg, ha.draws.reading_lt⟩ (h1.blocks.1 b (by simp [hbq])) (rest := a.draws.sivKey ++ (data ++ endp))
        (tail := q.flatten ++ Rs.flatten) ?_
      rw [← List.append_assoc _ a.draws.sivKey, ← List.append_assoc _ data, ← hflat, hQ, hbq]
      simp
    simp only [Clock.testTimestamp, hd]
    rw [if_pos (by omega)]
  obtain ⟨replies, dst', g1, g2, g3, g4⟩ := stuck_execAll S hs calls hstuck hcalls
  exact ⟨replies, dst', by simp only [DecipherStream.execAll, f1, g1], g2, g3, g4⟩

theorem at_mono {P Q : Int → Prop} (h : ∀ now, P now → Q now) {call : UnstreamCall} (hc : call.At P) : call.At Q := by
  cases call <;> simp_all [UnstreamCall.At]

theorem nothing_released (S : Sound C) (u : Usable C) (hs : Streamable C.cfg) : NothingReleasedExpired C := by
  intro a t ha dst hdst bundle st data hst first hne hpre calls hcalls
  obtain ⟨replies, dst', h1, h2, _⟩ := refused_from S u hs a t ha dst hdst bundle st data hst first hne hpre calls fun call hc =>
    at_mono (fun now hn => by have := readByStream_le (c := C.cfg) ha.draws.reading_nonneg; omega) (hcalls call hc)
  rw [h1]
  simpa [released] using h2

theorem fresh_refused (S : Sound C) (u : Usable C) (hs : Streamable C.cfg) (hframe : C.cfg.paddingFrame ≤ 256) {a : StreamArgs} (ha : a.OK C.cfg) {t : Int}
    (ht : t < a.draws.reading - readByStream C.cfg a.draws.reading) : FreshRefused C a t := by
  intro dst hdst bundle st data hst n hn
  obtain ⟨_, bundle', st', _, hst', hne⟩ := expired_released S u hs hframe a none ha
  rw [hst'] at hst
  simp only [Except.ok.injEq, Prod.mk.injEq] at hst
  obtain ⟨rfl, rfl⟩ := hst
  obtain ⟨hne, _⟩ := hne data
  obtain ⟨replies, dst', h1, _, h3, h4⟩ := refused_from S u hs a t ha dst hdst _ _ data hst' _ hne (List.prefix_refl _) [.pull a.draws.reading n] (by
    intro call hc
    simp only [List.mem_singleton] at hc
    subst hc
    exact ht)
  obtain ⟨x, rfl⟩ : ∃ x, replies = [x] := List.length_eq_one_iff.1 (by simpa using h3)
  refine ⟨a.draws.reading - readByStream C.cfg a.draws.reading - t, dst', by omega, ?_⟩
  have hx : x = _ := (h4 (.pull a.draws.reading n, x) (by simp)).1 _ _ rfl hn
  rw [h1, hx]

end

/-! ### the properties -/

/-- **C30** Whatever the size of the timestamps: once a packet was buffered before the first iteration, a stream is judged by what its first block holds of
the timestamp. -/
theorem C30_judged_permute {E : Env} (h : PermuteSetup E) (hs : Streamable E.cfg) : RefusedFrom (permuteCipher E) (readByStream E.cfg) :=
  refused_from (permuteSound E h.permuteWF) h.usable hs

/-- Dual-output ciphers have no timestamps that are longer than a block: their header is within the first block. -/
theorem dual_timestamp_le {E : DualEnv} (h : DualSetup E) : E.cfg.timestampBytes ≤ E.cfg.blocksize := by
  have : E.cfg.innerHeaderBytes ≤ E.cfg.blocksize := h.wf.header_le
  unfold Sizes.innerHeaderBytes at this
  omega

/-- **C30** For every dual-output cipher. What is missing: streams that are iterated before the first packet. -/
theorem C30_dual_any_partial {E : DualEnv} (h : DualSetup E) (hs : Streamable E.cfg) : TtlEnforcedAfterPacket (dualCipher E) :=
  C30_dual_partial h hs (dual_timestamp_le h)

/-- **C30** Whatever the size of the timestamps, expired streams give out nothing. What is missing in C30 here: streams that are iterated before the first
packet. -/
theorem C30_nothing_permute_partial {E : Env} (h : PermuteSetup E) (hs : Streamable E.cfg) : NothingReleasedExpired (permuteCipher E) :=
  nothing_released (permuteSound E h.permuteWF) h.usable hs

/-- **C124** In accepted SHAKE-permute configs whose timestamps are longer than a block, streams are refused as expired at the moment at which they were made, unless their
time to live is about as long as the time since the epoch; encrypted at once, the same data come back. -/
theorem C124_fresh_permute {E : Env} (h : PermuteSetup E) (hs : Streamable E.cfg) (hframe : E.cfg.paddingFrame ≤ 256) {a : StreamArgs} (ha : a.OK E.cfg)
    {t : Int} (h0 : 0 ≤ t) (ht : t < a.draws.reading - readByStream E.cfg a.draws.reading) :
    FreshRefused (permuteCipher E) a t ∧ OneShotAccepted (permuteCipher E) a t := by
  refine ⟨fresh_refused (permuteSound E h.permuteWF) h.usable hs hframe ha ht, fun data => ?_⟩
  obtain ⟨ct, h1, h2⟩ := C21_decrypt_encrypt h hframe a.key ha.key_ge ha.key_lt a.draws ha.draws a.salt ha.salt a.aad ha.aad_lt data
  exact ⟨ct, h1, fun saltDraw hd => by rw [(h2 saltDraw hd _).2, if_neg (by omega)]⟩

/-- **C124** There is always such a time to live: none at all. -/
theorem C124_fresh_some {c : Sizes} (hts : c.blocksize < c.timestampBytes) {reading : Int} (h : 0 < reading) : 0 < reading - readByStream c reading := by
  have := readByStream_lt hts h
  omega

/-- Timestamps that fit into a block are read whole. -/
theorem C30_read_whole {c : Sizes} (hts : c.timestampBytes ≤ c.blocksize) (reading : Int) : readByStream c reading = reading := by
  simp [readByStream, Nat.sub_eq_zero_of_le hts]

/-! ### examples -/

/-- Slick256 with timestamps of 33 bytes. -/
def longTimeSlick : Env := { sampleSlick with cfg := { sampleSlick.cfg with timestampBytes := 33, sivKeyBytes := 8 } }

theorem longTimeSlick_setup : PermuteSetup longTimeSlick where
  accepted := by decide +kernel
  permutation := sampleSlick_setup.permutation
  blocksize := rfl
  pad := ⟨_, rfl⟩
  tag_pos := by decide
  tag_le := by decide
  salt_lt := by decide
  iv_lt := by decide

theorem longTimeSlick_streamable : Streamable longTimeSlick.cfg :=
  ⟨sampleSlick_streamable.1, sampleSlick_streamable.2, sampleSlick_streamable.3, sampleSlick_streamable.4, sampleSlick_streamable.5⟩

theorem longTimeSlick_args : (⟨sampleKey, sampleDraws longTimeSlick.cfg, none, [1]⟩ : StreamArgs).OK longTimeSlick.cfg :=
  ⟨by decide, by decide, ⟨by simp [sampleDraws], by simp [sampleDraws], by simp [sampleDraws], by simp [sampleDraws], by simp [sampleDraws], by
    simp [sampleDraws, longTimeSlick]⟩, .inl rfl, by decide⟩

/-- Its streams are refused while they are fresh, with a time to live of a million. -/
example : FreshRefused (permuteCipher longTimeSlick) ⟨sampleKey, sampleDraws longTimeSlick.cfg, none, [1]⟩ 1000000 :=
  (C124_fresh_permute longTimeSlick_setup longTimeSlick_streamable (by decide) longTimeSlick_args (by decide) (by decide)).1

example : RefusedFrom (permuteCipher sampleSlick) (readByStream sampleSlick.cfg) ∧ NothingReleasedExpired (permuteCipher longTimeSlick) ∧
    TtlEnforcedAfterPacket (dualCipher sampleChunky) :=
  ⟨C30_judged_permute sampleSlick_setup sampleSlick_streamable, C30_nothing_permute_partial longTimeSlick_setup longTimeSlick_streamable,
    C30_dual_any_partial sampleChunky_setup sampleChunky_streamable⟩

end Aiootp.Cipher
