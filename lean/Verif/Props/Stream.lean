import Verif.Lemmas.Stream
import Verif.Props.Cipher

/-
Properties C26 (streams do not depend on chunking), C27 (forged blocks are refused, streams recover), C28 (dropped,
reordered and replayed packets are refused) and C30 (time to live of streams).
-/

namespace Aiootp.Cipher

open Perm Cipher

/-! ### specification -/

/-- What was buffered before the stream was finalized. -/
def buffered : List StreamCall → Bytes
  | [] => []
  | .buffer data :: calls => data ++ buffered calls
  | .pull _ :: calls => buffered calls
  | .finalize :: _ => []

/-- The exceptions that a history of calls should raise: none but `CipherStreamIsClosed` for what is buffered or
finalized after the stream was finalized. -/
def expectedErrors : Bool → List StreamCall → List (Option Err)
  | _, [] => []
  | closed, .pull _ :: calls => none :: expectedErrors closed calls
  | closed, .buffer _ :: calls => (if closed then some .streamClosed else none) :: expectedErrors closed calls
  | closed, .finalize :: calls => (if closed then some .streamClosed else none) :: expectedErrors true calls

/-- The arguments of a streamed encryption. -/
structure StreamArgs where
  key : Bytes
  draws : Draws
  salt : Option Bytes
  aad : Bytes

/-- They have allowed sizes. -/
structure StreamArgs.OK (a : StreamArgs) (c : Sizes) : Prop where
  key_ge : 64 ≤ a.key.length
  key_lt : a.key.length < 256 ^ 8
  draws : a.draws.Fit c
  salt : SaltAllowed c a.salt
  aad_lt : a.aad.length < 256 ^ 4

/-- C26, encryption. Whatever the calls on a stream are and however they are interleaved, once it was finalized the
packets it gave out are those of a stream that got all the data at once, they carry the ciphertext that `bytes_encrypt`
makes of all the data with the same draws, the stream-hmac has the same result as there, and no call raised anything but
`CipherStreamIsClosed` after the end. -/
def ChunkingIrrelevant {κ : Type} (C : Cipher κ) : Prop :=
  ∀ a : StreamArgs, a.OK C.cfg → ∃ bundle st, CipherStream.new C a.key a.draws a.salt a.aad = .ok (bundle, st) ∧
    ∀ calls, .finalize ∈ calls →
      (st.execAll C calls).1 = (st.execAll C [.buffer (buffered calls), .finalize]).1 ∧
      (st.execAll C calls).2.1 = expectedErrors false calls ∧
      ∃ tag, (st.execAll C calls).2.2.session.shmac.getResult = .ok tag ∧
        C.bytesEncrypt a.key a.draws a.salt a.aad (buffered calls)
          = .ok (tag ++ bundle.salt ++ bundle.iv ++ ((st.execAll C calls).1.map (·.2)).flatten)

/-- The stream is not expired: there is no time to live, or the clock reading is within it. -/
def NotExpired (c : Sizes) (reading : Int) (ttl : Option Int) (now : Int) : Prop :=
  ttl = none ∨ ∃ t, ttl = some t ∧ now - reading ≤ t ∧ c.timestampBytes ≤ c.blocksize

/-- Calls that buffer the packets `G`, in any portions of whole packets and with any iterations in between, at times that
satisfy `time`. -/
inductive Feeds (time : Int → Prop) : List Packet → List UnstreamCall → Prop
  | nil : Feeds time [] []
  | pull {G calls} (now : Int) (n : Nat) : time now → Feeds time G calls → Feeds time G (.pull now n :: calls)
  | buffer {G calls} (A : List Packet) : A ≠ [] → Feeds time G calls → Feeds time (A ++ G) (.buffer (wire A) :: calls)

/-- Everything that was given out. -/
def released (replies : List UnstreamReply) : Bytes := (replies.map (·.outs)).flatten.flatten

/-- C26, decryption. The packets of a stream, buffered in any portions with any iterations in between and then
finalized, give the plaintext; the stream-hmac gets the same result as that of the sender. No call raises an exception,
but that iterating before the first packet may raise `IndexError`. -/
def StreamComesBack {κ : Type} (C : Cipher κ) : Prop :=
  ∀ (a : StreamArgs) (data : Bytes), a.OK C.cfg →
  ∀ bundle st, CipherStream.new C a.key a.draws a.salt a.aad = .ok (bundle, st) →
  ∀ (saltDraw : Bytes) (ttl : Option Int), saltDraw.length = C.cfg.saltBytes →
  ∃ dst, DecipherStream.new C a.key saltDraw (some bundle.salt) a.aad bundle.iv ttl = .ok dst ∧
  ∀ calls now, Feeds (NotExpired C.cfg a.draws.reading ttl) (st.execAll C [.buffer data, .finalize]).1 calls →
  NotExpired C.cfg a.draws.reading ttl now →
  ∃ replies last dst', dst.execAll C (calls ++ [.finalize now]) = (replies ++ [last], dst') ∧
    released (replies ++ [last]) = data ∧ last.err = none ∧ last.refusal = none ∧
    replies.length = calls.length ∧
    (∀ x ∈ calls.zip replies, (x.2.err = none ∨ (x.2.err = some .index ∧ ∃ now n, x.1 = .pull now n)) ∧ x.2.refusal = none) ∧
    dst'.session.shmac.getResult = (st.execAll C [.buffer data, .finalize]).2.2.session.shmac.getResult

/-! ### encryption -/

section
variable {κ : Type} {C : Cipher κ}

/-- How both ends of a stream start. -/
theorem stream_start (S : Sound C) (u : Usable C) {a : StreamArgs} (ha : a.OK C.cfg) :
    ∃ (r0 : Ratchet κ), r0.WF C ∧ S.started r0.keys = S.fresh ∧ r0.cur = firstDigest C.toEnv C.configId r0.mac ∧
      (beDigits C.cfg.timestampBytes a.draws.reading.toNat ++ a.draws.sivKey).length = C.cfg.innerHeaderBytes ∧
      CipherStream.new C a.key a.draws a.salt a.aad = .ok
        (⟨usedSalt a.salt a.draws.salt, a.aad, a.draws.iv, true⟩, ⟨r0.session false .encryption,
          [beDigits C.cfg.timestampBytes a.draws.reading.toNat ++ a.draws.sivKey], 0, false, a.draws.extra⟩) ∧
      (∀ saltDraw ttl, saltDraw.length = C.cfg.saltBytes →
        DecipherStream.new C a.key saltDraw (some (usedSalt a.salt a.draws.salt)) a.aad a.draws.iv ttl
          = .ok ⟨r0.session true .decryption, ttl, false, [], C.cfg.innerHeaderBytes, false⟩) ∧
      ∀ data endp G r, C.cfg.endPadding a.draws.extra data.length = .ok endp →
        Path S r0 (Text.batch C.cfg.blocksize (beDigits C.cfg.timestampBytes a.draws.reading.toNat ++ a.draws.sivKey ++ data ++ endp)) G r →
        C.bytesEncrypt a.key a.draws a.salt a.aad data
          = .ok (Shmac.tagOf C.toEnv r.mac ++ usedSalt a.salt a.draws.salt ++ a.draws.iv ++ (G.map (·.2)).flatten) := by
  have hsalt := usedSalt_allowed ha.salt ha.draws.salt
  obtain ⟨summary, hsum⟩ := summary_total (salt := usedSalt a.salt a.draws.salt) (aad := a.aad) (iv := a.draws.iv)
    (by rw [hsalt]; exact u.salt_lt) ha.aad_lt (by rw [ha.draws.iv]; exact u.iv_lt)
  obtain ⟨kdf, mac, perm, keys, _, _, hp, hps, hst, hlen, h1, h2, _, _⟩ := startSession_ok S u.env ha.key_ge ha.key_lt hsum
  have hstart : C.cfg.startPadding a.draws.reading a.draws.sivKey
      = .ok (beDigits C.cfg.timestampBytes a.draws.reading.toNat ++ a.draws.sivKey) :=
    Sizes.startPadding_ok.2 ⟨ha.draws.reading_nonneg, ha.draws.reading_lt, rfl⟩
  have hfresh := SaltAADIV.new_fresh (c := C.cfg) (aad := a.aad) hsalt ha.draws.iv
  refine ⟨⟨mac, firstDigest C.toEnv C.configId mac, firstDigest C.toEnv C.configId mac, perm, keys⟩,
    ⟨hp, hps, hlen, hlen⟩, hst, rfl, ?_, ?_, ?_, ?_⟩
  · rw [List.length_append, ha.draws.sivKey, length_beDigits]; rfl
  · simp only [CipherStream.new, bind_eq_ok, pure, Except.pure, Except.ok.injEq]
    exact ⟨_, hstart, _, hfresh, _, h1, rfl⟩
  · intro saltDraw ttl hdraw
    simp only [DecipherStream.new, bind_eq_ok, pure, Except.pure, Except.ok.injEq]
    refine ⟨_, SaltAADIV.new_given (by rw [usedSalt_given hsalt hdraw]; exact hsalt) ha.draws.iv, _, ?_, rfl⟩
    rw [usedSalt_given hsalt hdraw]
    exact h2
  · intro data endp G r hend hpath
    simp only [Cipher.bytesEncrypt, bind_eq_ok, pure, Except.pure, Except.ok.injEq]
    refine ⟨_, hfresh, _, h1, _, ?_, _, (hpath.run false).1, _, rfl, rfl⟩
    simp only [Sizes.padPlaintext, bind_eq_ok, pure, Except.pure, Except.ok.injEq]
    exact ⟨_, hstart, _, hend, rfl⟩

theorem closed_execAll : ∀ (calls : List StreamCall) (st : CipherStream κ), st.closed = true → st.buffer = [] →
    st.execAll C calls = ([], expectedErrors true calls, st) := by
  intro calls
  induction calls with
  | nil => intro st _ _; rfl
  | cons c calls ih =>
    intro st h1 h2
    cases c with
    | buffer d => simp [CipherStream.execAll, CipherStream.closed_buffer st h1, ih st h1 h2, expectedErrors]
    | pull n => simp [CipherStream.execAll, CipherStream.closed_pull st h2, ih st h1 h2, expectedErrors]
    | finalize => simp [CipherStream.execAll, CipherStream.closed_finalize st h1, ih st h1 h2, expectedErrors]

theorem open_execAll {S : Sound C} (hs : Streamable C.cfg) (hF : 0 < C.cfg.paddingFrame) {r0 : Ratchet κ} (hr : r0.WF C)
    {start extra : Bytes} (hstart : start.length = C.cfg.innerHeaderBytes) (hextra : extra.length = C.cfg.paddingFrame) :
    ∀ (calls : List StreamCall) (data : Bytes) (G : List Packet) (st : CipherStream κ),
    CipherStream.Inv S r0 start extra data G st → .finalize ∈ calls →
    ∃ endp H r st', C.cfg.endPadding extra (data ++ buffered calls).length = .ok endp ∧
      Path S r0 (Text.batch C.cfg.blocksize (start ++ (data ++ buffered calls) ++ endp)) (G ++ H) r ∧
      st.execAll C calls = (H, expectedErrors false calls, st') ∧
      st'.session.shmac.getResult = .ok (Shmac.tagOf C.toEnv r.mac) := by
  intro calls
  induction calls with
  | nil => intro data G st _ h; simp at h
  | cons c calls ih =>
    intro data G st hinv hmem
    cases c with
    | buffer d =>
      obtain ⟨st1, h1, h2⟩ := hinv.buffer d
      obtain ⟨endp, H, r, st', e1, e2, e3, e4⟩ := ih _ _ _ h2 (by simpa using hmem)
      refine ⟨endp, H, r, st', by simpa [buffered, List.append_assoc] using e1,
        by simpa [buffered, List.append_assoc] using e2, ?_, e4⟩
      simp [CipherStream.execAll, h1, e3, expectedErrors]
    | pull n =>
      obtain ⟨H1, st1, h1, h2⟩ := hinv.pull hs hr n
      obtain ⟨endp, H, r, st', e1, e2, e3, e4⟩ := ih _ _ _ h2 (by simpa using hmem)
      refine ⟨endp, H1 ++ H, r, st', e1, by rw [← List.append_assoc G]; exact e2, ?_, e4⟩
      simp [CipherStream.execAll, h1, e3, expectedErrors]
    | finalize =>
      obtain ⟨endp, H, r, st1, e1, e2, e3, e4, e5, e6⟩ := hinv.finalize hs hF hr hstart hextra
      refine ⟨endp, H, r, st1, by simpa [buffered] using e1, by simpa [buffered] using e2, ?_, e6⟩
      simp [CipherStream.execAll, e3, closed_execAll calls st1 e4 e5, expectedErrors]

theorem stream_inv_init (S : Sound C) (r0 : Ratchet κ) (start extra : Bytes) :
    CipherStream.Inv S r0 start extra [] [] ⟨r0.session false .encryption, [start], 0, false, extra⟩ :=
  ⟨[], r0, [], start, .nil r0, rfl, by simp, by simp⟩

theorem chunking_irrelevant (S : Sound C) (u : Usable C) (hs : Streamable C.cfg) : ChunkingIrrelevant C := by
  intro a ha
  obtain ⟨r0, hr, _, _, hlen, hnew, _, henc⟩ := stream_start S u ha
  refine ⟨_, _, hnew, ?_⟩
  intro calls hmem
  have hF := u.accepted.frame_pos
  obtain ⟨endp, H, r, st', e1, e2, e3, e4⟩ := open_execAll hs hF hr hlen ha.draws.extra calls [] [] _
    (stream_inv_init S r0 _ _) hmem
  obtain ⟨endp', H', r', st'', f1, f2, f3, f4⟩ := open_execAll hs hF hr hlen ha.draws.extra
    [.buffer (buffered calls), .finalize] [] [] _ (stream_inv_init S r0 _ _) (by simp)
  simp only [List.nil_append, buffered, List.append_nil] at e1 e2 f1 f2
  rw [e1] at f1
  simp only [Except.ok.injEq] at f1
  subst f1
  obtain ⟨rfl, rfl⟩ := e2.unique f2
  refine ⟨by rw [e3, f3], by rw [e3], _, by rw [e3]; exact e4, ?_⟩
  rw [e3]
  exact henc _ _ _ _ e1 e2

/-! ### decryption -/

theorem inTime {ttl : Option Int} {now reading : Int} {Ps : List Bytes} {sivKey rest : Bytes} (hB : 0 < C.cfg.blocksize)
    (hread : 0 ≤ reading ∧ reading < 256 ^ C.cfg.timestampBytes)
    (hblocks : ∀ b ∈ Ps, b.length = C.cfg.blocksize)
    (hpre : Ps.flatten <+: beDigits C.cfg.timestampBytes reading.toNat ++ sivKey ++ rest) :
    (NotExpired C.cfg reading ttl now → DecipherStream.InTime C.cfg ttl now Ps) ∧
    (∀ t b bs, ttl = some t → C.cfg.timestampBytes ≤ C.cfg.blocksize → t < now - reading → Ps = b :: bs →
      Clock.testTimestamp now (C.cfg.timestampSlice.of b) ttl .big = .error (.timestampExpired (now - reading - t))) := by
  have hts : ∀ b bs, Ps = b :: bs → C.cfg.timestampBytes ≤ C.cfg.blocksize →
      Clock.delta now (C.cfg.timestampSlice.of b) .big = now - reading := by
    intro b bs hP hle
    obtain ⟨tail, htail⟩ := hpre
    have hb := hblocks b (by simp [hP])
    have h1 : C.cfg.timestampSlice.of b = beDigits C.cfg.timestampBytes reading.toNat := by
      unfold Sizes.timestampSlice
      rw [slice_zero_nat]
      have h2 : (b ++ (bs.flatten ++ tail)).take C.cfg.timestampBytes = beDigits C.cfg.timestampBytes reading.toNat := by
        have : b ++ (bs.flatten ++ tail) = beDigits C.cfg.timestampBytes reading.toNat ++ (sivKey ++ rest) := by
          rw [← List.append_assoc, ← List.append_assoc]
          rw [← htail, hP]
          simp
        rw [this, List.take_left' (length_beDigits ..)]
      rw [List.take_append_of_le_length (by omega)] at h2
      exact h2
    rw [h1]
    have h3 : ((256 ^ C.cfg.timestampBytes : Nat) : Int) = 256 ^ C.cfg.timestampBytes := by simp
    have h4 : reading.toNat < 256 ^ C.cfg.timestampBytes := by omega
    have h5 : fromBE (beDigits C.cfg.timestampBytes reading.toNat) = reading.toNat := fromBE_beDigits_of_lt h4
    simp only [Clock.delta, Clock.readTimestamp, h5]
    omega
  constructor
  · intro hne b bs hP
    rcases hne with rfl | ⟨t, rfl, hle, htb⟩
    · rfl
    · simp only [Clock.testTimestamp, hts b bs hP htb]
      rw [if_neg (by omega)]
  · rintro t b bs rfl htb hlt hP
    simp only [Clock.testTimestamp, hts b bs hP htb]
    rw [if_pos (by omega)]

theorem decipher_inv_init (S : Sound C) (r0 : Ratchet κ) (ttl : Option Int) :
    DecipherStream.Inv S r0 ttl [] [] [] ⟨r0.session true .decryption, ttl, false, [], C.cfg.innerHeaderBytes, false⟩ :=
  ⟨⟨r0, .nil r0, rfl⟩, rfl, rfl, nofun, rfl, rfl, fun _ => ⟨rfl, rfl, rfl⟩⟩

theorem feeds_execAll {S : Sound C} (hs : Streamable C.cfg) {r0 r : Ratchet κ} (hr : r0.WF C) {ttl : Option Int}
    {time : Int → Prop} {Ps : List Bytes} {Gs : List Packet} (hpath : Path S r0 Ps Gs r)
    (htime : ∀ now, time now → ∀ Ps1, Ps1 <+: Ps → DecipherStream.InTime C.cfg ttl now Ps1) {G2 : List Packet} {calls : List UnstreamCall} (hfeed : Feeds time G2 calls) :
    ∀ (Ps1 : List Bytes) (G1 : List Packet) (outs : List Bytes) (st : DecipherStream κ),
    DecipherStream.Inv S r0 ttl Ps1 G1 outs st → G1 ++ G2 = Gs →
    ∃ replies st', st.execAll C calls = (replies, st') ∧
      DecipherStream.Inv S r0 ttl Ps Gs (outs ++ (replies.map (·.outs)).flatten) st' ∧ replies.length = calls.length ∧
      (∀ x ∈ calls.zip replies, (x.2.err = none ∨ (x.2.err = some .index ∧ ∃ now n, x.1 = .pull now n)) ∧ x.2.refusal = none) := by
  induction hfeed with
  | nil =>
    intro Ps1 G1 outs st hinv hG
    rw [List.append_nil] at hG
    subst hG
    obtain ⟨r1, h1, _⟩ := hinv.path
    obtain ⟨rfl, rfl⟩ := h1.unique_dec hpath
    exact ⟨[], st, rfl, by simpa using hinv, rfl, by simp⟩
  | pull now n ht _ ih =>
    intro Ps1 G1 outs st hinv hG
    obtain ⟨r1, h1, _⟩ := hinv.path
    have hpre : Ps1 <+: Ps := by
      subst hG
      obtain ⟨Qs1, Qs2, r2, rfl, h3, _⟩ := hpath.split
      obtain ⟨rfl, _⟩ := h1.unique_dec h3
      exact ⟨Qs2, rfl⟩
    obtain ⟨new, e, st1, h2, h3, h4⟩ := hinv.pull (htime now ht Ps1 hpre) n
    obtain ⟨replies, st', e1, e2, e3, e4⟩ := ih _ _ _ _ h3 hG
    refine ⟨⟨new, e, none⟩ :: replies, st', by simp only [DecipherStream.execAll, h2, e1], ?_, by simp [e3], ?_⟩
    · simpa [List.append_assoc] using e2
    · intro x hx
      simp only [List.zip_cons_cons, List.mem_cons] at hx
      rcases hx with rfl | hx
      · rcases h4 with h4 | h4
        · exact ⟨.inl h4, rfl⟩
        · exact ⟨.inr ⟨h4.1, now, n, rfl⟩, rfl⟩
      · exact e4 x hx
  | buffer A hA _ ih =>
    intro Ps1 G1 outs st hinv hG
    obtain ⟨r1, h1, _⟩ := hinv.path
    rw [← List.append_assoc] at hG
    obtain ⟨Qs, rest, r2, hPs, h3, h4⟩ := (show Path S r0 Ps ((G1 ++ A) ++ _) r from hG ▸ hpath).split
    obtain ⟨Qs1, Qs2, r3, rfl, h5, h6⟩ := h3.split
    obtain ⟨rfl, rfl⟩ := h1.unique_dec h5
    obtain ⟨st1, h7, h8, _⟩ := hinv.buffer hs hr h1 h6 hA
    obtain ⟨replies, st', e1, e2, e3, e4⟩ := ih _ _ _ _ h8 hG
    refine ⟨⟨[], none, none⟩ :: replies, st', by simp only [DecipherStream.execAll, h7, e1], ?_, by simp [e3], ?_⟩
    · simpa using e2
    · intro x hx
      simp only [List.zip_cons_cons, List.mem_cons] at hx
      rcases hx with rfl | hx
      · exact ⟨.inl rfl, rfl⟩
      · exact e4 x hx

theorem unstream_execAll_append : ∀ (as bs : List UnstreamCall) (st : DecipherStream κ),
    st.execAll C (as ++ bs) = ((st.execAll C as).1 ++ ((st.execAll C as).2.execAll C bs).1, ((st.execAll C as).2.execAll C bs).2) := by
  intro as
  induction as with
  | nil => intro bs st; rfl
  | cons a as ih => intro bs st; simp only [List.cons_append, DecipherStream.execAll, ih]

/-- The reference run of the sender. -/
theorem reference_run {S : Sound C} (u : Usable C) (hs : Streamable C.cfg) {a : StreamArgs} (ha : a.OK C.cfg)
    {r0 : Ratchet κ} (hr : r0.WF C) (data : Bytes)
    (hlen : (beDigits C.cfg.timestampBytes a.draws.reading.toNat ++ a.draws.sivKey).length = C.cfg.innerHeaderBytes) :
    ∃ endp G r st', C.cfg.endPadding a.draws.extra data.length = .ok endp ∧
      Path S r0 (Text.batch C.cfg.blocksize (beDigits C.cfg.timestampBytes a.draws.reading.toNat ++ a.draws.sivKey ++ data ++ endp)) G r ∧
      CipherStream.execAll C ⟨r0.session false .encryption,
        [beDigits C.cfg.timestampBytes a.draws.reading.toNat ++ a.draws.sivKey], 0, false, a.draws.extra⟩
        [.buffer data, .finalize] = (G, [none, none], st') ∧
      st'.session.shmac.getResult = .ok (Shmac.tagOf C.toEnv r.mac) := by
  obtain ⟨endp, H, r, st', e1, e2, e3, e4⟩ := open_execAll hs u.accepted.frame_pos hr hlen ha.draws.extra
    [.buffer data, .finalize] [] [] _ (stream_inv_init S r0 _ _) (by simp)
  simp only [List.nil_append, buffered, List.append_nil] at e1 e2
  exact ⟨endp, H, r, st', e1, e2, e3, e4⟩

theorem sentinel_le_block {c : Sizes} (hacc : Accepted c) (hframe : c.paddingFrame ≤ 256) :
    c.sentinelBytes ≤ c.blocksize ∧ ∀ n, c.sentinelBytes ≤ c.padSize n := by
  have h1 := hacc.blocksize_pos
  have h2 : c.sentinelBytes ≤ 1 := by
    unfold Sizes.sentinelBytes ceilDiv
    omega
  refine ⟨by omega, fun n => ?_⟩
  have := (Sizes.padSize_bounds (c := c) hacc.frame_pos n).1
  omega

theorem stream_comes_back (S : Sound C) (u : Usable C) (hs : Streamable C.cfg) (hframe : C.cfg.paddingFrame ≤ 256) :
    StreamComesBack C := by
  intro a data ha bundle st hst saltDraw ttl hdraw
  obtain ⟨r0, hr, _, _, hlen, hnew, hdec, _⟩ := stream_start S u ha
  rw [hnew] at hst
  simp only [Except.ok.injEq, Prod.mk.injEq] at hst
  obtain ⟨rfl, rfl⟩ := hst
  refine ⟨_, hdec saltDraw ttl hdraw, ?_⟩
  intro calls now hfeed hnow
  obtain ⟨endp, G, r, st', e1, e2, e3, e4⟩ := reference_run (S := S) u hs ha hr data hlen
  rw [e3] at hfeed ⊢
  have hflat : (Text.batch C.cfg.blocksize (beDigits C.cfg.timestampBytes a.draws.reading.toNat ++ a.draws.sivKey ++ data ++ endp)).flatten
      = beDigits C.cfg.timestampBytes a.draws.reading.toNat ++ a.draws.sivKey ++ data ++ endp := Text.batch_flatten _ S.block_pos _
  have htime : ∀ now, NotExpired C.cfg a.draws.reading ttl now → ∀ Ps1,
      Ps1 <+: (Text.batch C.cfg.blocksize (beDigits C.cfg.timestampBytes a.draws.reading.toNat ++ a.draws.sivKey ++ data ++ endp)) →
      DecipherStream.InTime C.cfg ttl now Ps1 := by
    intro now hnow Ps1 hpre
    refine (inTime (sivKey := a.draws.sivKey) (rest := data ++ endp) S.block_pos ⟨ha.draws.reading_nonneg, ha.draws.reading_lt⟩ ?_ ?_).1 hnow
    · intro b hb
      exact e2.blocks.1 b (hpre.subset hb)
    · rw [← List.append_assoc, ← hflat]
      obtain ⟨t, ht⟩ := hpre
      exact ⟨t.flatten, by rw [← List.flatten_append, ht]⟩
  obtain ⟨replies, dst1, f1, f2, f3, f4⟩ := feeds_execAll hs hr e2 htime hfeed [] [] [] _ (decipher_inv_init S r0 ttl) rfl
  obtain ⟨new, dst2, r', g1, g2, g3, g4⟩ := f2.finalize u.accepted.frame_pos (.inl (htime now hnow _ (List.prefix_refl _))) hlen ha.draws.extra e1
    hflat ((sentinel_le_block u.accepted hframe).2 _) (sentinel_le_block u.accepted hframe).1
  obtain ⟨_, rfl⟩ := g3.unique_dec e2
  refine ⟨replies, ⟨new, none, none⟩, dst2, ?_, ?_, rfl, rfl, f3, f4, by rw [g4, e4]⟩
  · rw [unstream_execAll_append, f1]
    simp only [DecipherStream.execAll, g1]
  · simpa [released] using g2

end

/-- C26 for the shake-permute ciphers, encryption. -/
theorem C26_permute_encrypt {E : Env} (h : PermuteSetup E) (hs : Streamable E.cfg) : ChunkingIrrelevant (permuteCipher E) :=
  chunking_irrelevant (permuteSound E h.permuteWF) h.usable hs

/-- C26 for the dual-output ciphers, encryption. -/
theorem C26_dual_encrypt {E : DualEnv} (h : DualSetup E) (hs : Streamable E.cfg) : ChunkingIrrelevant (dualCipher E) :=
  chunking_irrelevant (dualSound E h.wf h.sides.1 h.sides.2) h.usable hs

/-- C26 for the shake-permute ciphers, decryption. -/
theorem C26_permute_decrypt {E : Env} (h : PermuteSetup E) (hs : Streamable E.cfg) (hframe : E.cfg.paddingFrame ≤ 256) :
    StreamComesBack (permuteCipher E) :=
  stream_comes_back (permuteSound E h.permuteWF) h.usable hs hframe

/-- C26 for the dual-output ciphers, decryption. -/
theorem C26_dual_decrypt {E : DualEnv} (h : DualSetup E) (hs : Streamable E.cfg) (hframe : E.cfg.paddingFrame ≤ 256) :
    StreamComesBack (dualCipher E) :=
  stream_comes_back (dualSound E h.wf h.sides.1 h.sides.2) h.usable hs hframe

/-- The hypotheses are met by the shipped configurations. -/
theorem sampleSlick_streamable : Streamable sampleSlick.cfg :=
  ⟨by decide, by decide, by decide, by decide, by decide⟩

theorem sampleChunky_streamable : Streamable sampleChunky.cfg :=
  ⟨by decide, by decide, by decide, by decide, by decide⟩

example : PermuteSetup sampleSlick ∧ Streamable sampleSlick.cfg ∧ sampleSlick.cfg.paddingFrame ≤ 256 ∧
    DualSetup sampleChunky ∧ Streamable sampleChunky.cfg ∧ sampleChunky.cfg.paddingFrame ≤ 256 :=
  ⟨sampleSlick_setup, sampleSlick_streamable, by decide, sampleChunky_setup, sampleChunky_streamable, by decide⟩

theorem sampleArgs_ok : (⟨sampleKey, sampleDraws sampleSlick.cfg, none, [1]⟩ : StreamArgs).OK sampleSlick.cfg :=
  ⟨by decide, by decide, sampleDraws_fit _ rfl, .inl rfl, by decide⟩

/-- There are histories of the kind that C26 ranges over. -/
example (x y z : Packet) (ttl : Option Int) (h : ttl = none) : Feeds (NotExpired sampleSlick.cfg 5 ttl) [x, y, z]
    [.pull 7 2, .buffer (wire [x]), .pull 8 1, .buffer (wire [y, z]), .pull 9 4] :=
  .pull 7 2 (.inl h) (.buffer [x] (by simp) (.pull 8 1 (.inl h) (.buffer [y, z] (by simp) (.pull 9 4 (.inl h) .nil))))


/-! ### C27: forged packets -/

/-- The part of the buffered data that a call took: all of it if it returned; if a packet was refused, what came before
that packet; nothing otherwise. -/
def acceptedBytes : UnstreamCall → UnstreamReply → Bytes
  | .buffer data, ⟨_, none, _⟩ => data
  | .buffer data, ⟨_, some _, some (blockId, block, rest)⟩ => data.take (data.length - (blockId ++ block ++ rest).length)
  | _, _ => []

/-- What the calls of a history took. -/
def acceptedAll (calls : List UnstreamCall) (replies : List UnstreamReply) : Bytes :=
  (List.zipWith acceptedBytes calls replies).flatten

/-- Whether a call finalizes the stream. -/
def UnstreamCall.isFinalize : UnstreamCall → Bool
  | .finalize _ => true
  | _ => false

/-- The clock readings of a call satisfy a condition. -/
def UnstreamCall.At (time : Int → Prop) : UnstreamCall → Prop
  | .buffer _ => True
  | .pull now _ => time now
  | .finalize now => time now

/-- The state after some packets were buffered. -/
def DecipherStream.after {κ : Type} (C : Cipher κ) (st : DecipherStream κ) (G : List Packet) : DecipherStream κ :=
  (st.exec C (.buffer (wire G))).2

/-- The block id that `next_block_id` of the stream's stream-hmac computes for a block. -/
def DecipherStream.expectedId {κ : Type} (C : Cipher κ) (st : DecipherStream κ) (block : Bytes) : Except Err Bytes :=
  st.session.shmac.nextBlockId C.toEnv block 0 []

/-- C27, first half. Whatever was done with an open stream before, buffering any whole number of packets takes those up
to the first one that does not carry the block id which the stream's stream-hmac computes for its block after the
packets before it. That one is refused with `InvalidBlockID` and a failure state that tells it and the data after it,
and the stream is then as if only the packets before it had been buffered. -/
def ForgedBlockRefused {κ : Type} (C : Cipher κ) : Prop :=
  ∀ (a : StreamArgs) (ttl : Option Int) dst, a.OK C.cfg →
  DecipherStream.new C a.key a.draws.salt (some (usedSalt a.salt a.draws.salt)) a.aad a.draws.iv ttl = .ok dst →
  ∀ calls, (∀ call ∈ calls, call.isFinalize = false) →
  ∀ data : Bytes, data ≠ [] → data.length % C.cfg.packetsize = 0 →
  ∃ good bad, data = wire (good ++ bad) ∧ (∀ x ∈ good ++ bad, Sized C.cfg x) ∧
    (let st := (dst.execAll C calls).2
     (st.exec C (.buffer data)).2 = st.after C good ∧
     (∀ before x rest, good = before ++ x :: rest → (st.after C before).expectedId C x.2 = .ok x.1) ∧
     (bad = [] → (st.exec C (.buffer data)).1 = ⟨[], none, none⟩) ∧
     (∀ x rest, bad = x :: rest → (st.exec C (.buffer data)).1 = ⟨[], some .invalidBlockID, some (x.1, x.2, wire rest)⟩ ∧
       ∃ id, (st.after C good).expectedId C x.2 = .ok id ∧ id ≠ x.1))

/-- C27, second half. Whatever was buffered, genuine or not, and however the stream was iterated: if what was taken is a
part of the genuine packets, then buffering the others and finalizing gives the plaintext. -/
def StreamRecovers {κ : Type} (C : Cipher κ) : Prop :=
  ∀ (a : StreamArgs) (data : Bytes), a.OK C.cfg →
  ∀ bundle st, CipherStream.new C a.key a.draws a.salt a.aad = .ok (bundle, st) →
  ∀ (saltDraw : Bytes) (ttl : Option Int), saltDraw.length = C.cfg.saltBytes →
  ∃ dst, DecipherStream.new C a.key saltDraw (some bundle.salt) a.aad bundle.iv ttl = .ok dst ∧
  ∀ calls others now, (∀ call ∈ calls, call.isFinalize = false ∧ call.At (NotExpired C.cfg a.draws.reading ttl)) →
  NotExpired C.cfg a.draws.reading ttl now →
  acceptedAll calls (dst.execAll C calls).1 ++ wire others = wire (st.execAll C [.buffer data, .finalize]).1 →
  (∀ x ∈ others, Sized C.cfg x) →
  released (dst.execAll C (calls ++ [.buffer (wire others), .finalize now])).1 = data

section
variable {κ : Type} {C : Cipher κ}

theorem packetsize_pos {c : Sizes} (hs : Streamable c) : 0 < c.packetsize := by
  have := hs.id_pos
  simp only [Sizes.packetsize]; omega

theorem exec_buffer_packets {st : DecipherStream κ} (hs : Streamable C.cfg) (hop : st.closed = false) {A : List Packet} (hA : A ≠ [])
    (hsz : ∀ x ∈ A, Sized C.cfg x) : st.bufferData C (wire A) = st.digestData C (wire A) := by
  have hl := length_wire (c := C.cfg) A hsz
  have hpos : 0 < C.cfg.packetsize * A.length := Nat.mul_pos (packetsize_pos hs) (List.length_pos_iff.2 hA)
  have hne : ¬(wire A = [] ∨ (wire A).length % C.cfg.packetsize ≠ 0) := by
    rintro (h0 | h0)
    · rw [h0] at hl; simp only [List.length_nil] at hl; omega
    · exact h0 (by rw [hl]; exact Nat.mul_mod_right _ _)
  simp only [DecipherStream.bufferData, if_neg hne, hop, Bool.false_eq_true, if_false]

theorem wire_inj {c : Sizes} (hp : 0 < c.packetsize) : ∀ {G H : List Packet}, (∀ x ∈ G, Sized c x) → (∀ x ∈ H, Sized c x) →
    wire G = wire H → G = H := by
  intro G
  induction G with
  | nil =>
    intro H _ hH h
    have := length_wire H hH
    rw [← h] at this
    have h0 : (wire ([] : List Packet)).length = 0 := rfl
    rw [h0] at this
    cases H with
    | nil => rfl
    | cons x H =>
      have : 0 < c.packetsize * (x :: H).length := Nat.mul_pos hp (by simp)
      omega
  | cons x G ih =>
    intro H hG hH h
    cases H with
    | nil =>
      have := length_wire _ hG
      rw [h] at this
      have h0 : (wire ([] : List Packet)).length = 0 := rfl
      rw [h0] at this
      have : 0 < c.packetsize * (x :: G).length := Nat.mul_pos hp (by simp)
      omega
    | cons y H =>
      rw [wire_cons, wire_cons] at h
      have hx := hG x (by simp)
      have hy := hH y (by simp)
      obtain ⟨h1, h2⟩ := List.append_inj h (hx.1.trans hy.1.symm)
      obtain ⟨h3, h4⟩ := List.append_inj h2 (hx.2.trans hy.2.symm)
      rw [ih (fun z hz => hG z (by simp [hz])) (fun z hz => hH z (by simp [hz])) h4, Prod.ext h1 h3]

/-- Whole packets in any data of a fitting length. -/
theorem data_packets (hs : Streamable C.cfg) {data : Bytes} (h0 : data ≠ []) (hm : data.length % C.cfg.packetsize = 0) :
    ∃ A, A ≠ [] ∧ data = wire A ∧ ∀ x ∈ A, Sized C.cfg x := by
  obtain ⟨A, h1, h2, h3⟩ := exists_wire (c := C.cfg) (data.length / C.cfg.packetsize) data
    (by have := Nat.div_add_mod data.length C.cfg.packetsize; omega)
  refine ⟨A, ?_, by tauto, by tauto⟩
  rintro rfl
  have : data = wire [] := by tauto
  exact h0 (by simpa [wire] using this)

/-- A call that does not finalize keeps the invariant. -/
theorem inv_any {S : Sound C} (hs : Streamable C.cfg) {r0 : Ratchet κ} (hr : r0.WF C) {ttl : Option Int} {Ps outs : List Bytes} {G : List Packet}
    {st : DecipherStream κ} (h : DecipherStream.Inv S r0 ttl Ps G outs st) (call : UnstreamCall) (hc : call.isFinalize = false) :
    ∃ reply st' Qs A, st.exec C call = (reply, st') ∧ DecipherStream.Inv S r0 ttl (Ps ++ Qs) (G ++ A) (outs ++ reply.outs) st' ∧
      acceptedBytes call reply = wire A ∧ (∀ x ∈ A, Sized C.cfg x) := by
  obtain ⟨r, hp, hss⟩ := h.path
  cases call with
  | finalize now => simp [UnstreamCall.isFinalize] at hc
  | buffer data =>
    by_cases hd : data = [] ∨ data.length % C.cfg.packetsize ≠ 0
    · refine ⟨⟨[], some .value, none⟩, st, [], [], ?_, by simpa using h, rfl, by simp⟩
      simp only [DecipherStream.exec, DecipherStream.bufferData, if_pos hd]
    · have hd' : data ≠ [] ∧ data.length % C.cfg.packetsize = 0 := by
        refine ⟨fun h0 => hd (.inl h0), ?_⟩
        by_cases h1 : data.length % C.cfg.packetsize = 0
        · exact h1
        · exact absurd (.inr h1) hd
      obtain ⟨A, hA, rfl, hsz⟩ := data_packets hs hd'.1 hd'.2
      obtain ⟨good, bad, Qs, r', rfl, g2, g3, g4⟩ := DecipherStream.digestData_spec S hs A r st (hp.wf hr) hss hsz
      have hb := exec_buffer_packets hs h.opened hA hsz
      cases bad with
      | nil =>
        refine ⟨⟨[], none, none⟩, _, Qs, good, ?_, by simpa using h.add hp g2, by simp [acceptedBytes], g2.sized⟩
        simp only [DecipherStream.exec, hb, g3 rfl]
      | cons x rest =>
        refine ⟨⟨[], some .invalidBlockID, some (x.1, x.2, wire rest)⟩, _, Qs, good, ?_, by simpa using h.add hp g2, ?_, g2.sized⟩
        · simp only [DecipherStream.exec, hb, (g4 x rest rfl).2]
        · simp only [acceptedBytes]
          rw [wire_append, wire_cons, List.append_assoc x.1]
          apply List.take_left'
          simp only [List.length_append]
          omega
  | pull now n =>
    by_cases ht : DecipherStream.InTime C.cfg ttl now Ps
    · obtain ⟨new, e, st', h1, h2, _⟩ := h.pull ht n
      exact ⟨⟨new, e, none⟩, st', [], [], h1, by simpa using h2, by simp [acceptedBytes, wire], by simp⟩
    · by_cases hn : n = 0
      · exact ⟨⟨[], none, none⟩, st, [], [], by simp [DecipherStream.exec, DecipherStream.pull, hn], by simpa using h,
          by simp [acceptedBytes, wire], by simp⟩
      cases hst : st.isStreaming with
      | true =>
        obtain ⟨new, q, h1, h2, _⟩ := h.release hst n
        exact ⟨⟨new, none, none⟩, { st with bytesToTrim := (DecipherStream.trim st.bytesToTrim st.queue).1, queue := q }, [], [],
          by simp only [DecipherStream.exec, DecipherStream.pull, if_neg hn, hst, if_true, h1], by simpa using h2,
          by simp [acceptedBytes, wire], by simp⟩
      | false =>
        have : ∃ b rest e, Ps = b :: rest ∧ Clock.testTimestamp now (C.cfg.timestampSlice.of b) ttl .big = .error e := by
          apply Classical.byContradiction
          intro hcon
          apply ht
          intro b rest hP
          cases htt : Clock.testTimestamp now (C.cfg.timestampSlice.of b) ttl .big with
          | ok u => rfl
          | error e => exact absurd ⟨b, rest, e, hP, htt⟩ hcon
        obtain ⟨b, rest, e, hP, htt⟩ := this
        exact ⟨⟨[], some e, none⟩, st, [], [], by simp only [DecipherStream.exec, h.pull_expired hst hP htt hn], by simpa using h,
          by simp [acceptedBytes, wire], by simp⟩

theorem inv_all {S : Sound C} (hs : Streamable C.cfg) {r0 : Ratchet κ} (hr : r0.WF C) {ttl : Option Int} : ∀ (calls : List UnstreamCall)
    {Ps outs : List Bytes} {G : List Packet} {st : DecipherStream κ}, DecipherStream.Inv S r0 ttl Ps G outs st →
    (∀ call ∈ calls, call.isFinalize = false) →
    ∃ Qs A, DecipherStream.Inv S r0 ttl (Ps ++ Qs) (G ++ A) (outs ++ ((st.execAll C calls).1.map (·.outs)).flatten) (st.execAll C calls).2 ∧
      acceptedAll calls (st.execAll C calls).1 = wire A ∧ (∀ x ∈ A, Sized C.cfg x) := by
  intro calls
  induction calls with
  | nil =>
    intro Ps outs G st h _
    exact ⟨[], [], by simpa [DecipherStream.execAll] using h, rfl, by simp⟩
  | cons call calls ih =>
    intro Ps outs G st h hc
    obtain ⟨reply, st', Qs, A, h1, h2, h3, h4⟩ := inv_any hs hr h call (hc _ (by simp))
    obtain ⟨Rs, B, h5, h6, h7⟩ := ih h2 (fun c hc' => hc c (by simp [hc']))
    refine ⟨Qs ++ Rs, A ++ B, ?_, ?_, ?_⟩
    · simp only [DecipherStream.execAll, h1]
      simpa [List.append_assoc] using h5
    · simp only [DecipherStream.execAll, h1, acceptedAll, List.zipWith_cons_cons, List.flatten_cons] at h6 ⊢
      rw [h6, h3, wire_append]
    · intro x hx
      rcases List.mem_append.1 hx with hx | hx
      · exact h4 x hx
      · exact h7 x hx

theorem expectedId_eq {S : Sound C} (hs : Streamable C.cfg) {r : Ratchet κ} {st : DecipherStream κ} (hss : st.session = r.session true .decryption)
    {X : Bytes} (hX : X.length = C.cfg.blocksize) : st.expectedId C X = .ok (blockIdOf C.toEnv r.cur X) := by
  rw [DecipherStream.expectedId, hss]
  exact nextBlockId_eq rfl hs (by simp [Shmac.blockIdMac, Ratchet.session, Shmac.live, attr]) hX (.inl rfl)

theorem after_path {S : Sound C} (hs : Streamable C.cfg) {r0 r : Ratchet κ} (hr : r0.WF C) {ttl : Option Int} {Ps Qs outs : List Bytes} {G A : List Packet}
    {st : DecipherStream κ} (h : DecipherStream.Inv S r0 ttl Ps G outs st) {r1 : Ratchet κ} (h1 : Path S r0 Ps G r1) (h2 : Path S r1 Qs A r) :
    st.after C A = { st with session := r.session true .decryption, queue := st.queue ++ Qs } := by
  obtain ⟨r2, hp, hss⟩ := h.path
  obtain ⟨_, rfl⟩ := hp.unique_dec h1
  by_cases hA : A = []
  · subst hA
    cases h2
    simp only [DecipherStream.after, DecipherStream.exec, DecipherStream.bufferData, wire, List.map_nil, List.flatten_nil, true_or, if_true,
      List.append_nil, ← hss]
  · simp only [DecipherStream.after, DecipherStream.exec, exec_buffer_packets hs h.opened hA h2.sized,
      DecipherStream.digestData_path hs h2 (hp.wf hr) hss]

theorem forged_block_refused (S : Sound C) (u : Usable C) (hs : Streamable C.cfg) : ForgedBlockRefused C := by
  intro a ttl dst ha hdst calls hc data h0 hm
  obtain ⟨r0, hr, _, _, _, _, hdec, _⟩ := stream_start S u ha
  rw [hdec _ ttl ha.draws.salt] at hdst
  simp only [Except.ok.injEq] at hdst
  obtain ⟨Ps, G, hinv, _, _⟩ := inv_all hs hr calls (decipher_inv_init S r0 ttl) hc
  rw [hdst] at hinv
  simp only [List.nil_append] at hinv
  obtain ⟨r, hp, hss⟩ := hinv.path
  obtain ⟨A, hA, rfl, hsz⟩ := data_packets hs h0 hm
  obtain ⟨good, bad, Qs, r', rfl, g2, g3, g4⟩ := DecipherStream.digestData_spec S hs A r _ (hp.wf hr) hss hsz
  have hb := exec_buffer_packets hs hinv.opened hA hsz
  refine ⟨good, bad, rfl, hsz, ?_, ?_, ?_, ?_⟩
  · rw [after_path hs hr hinv hp g2]
    cases bad with
    | nil => simp only [DecipherStream.exec, hb, g3 rfl]
    | cons x rest => simp only [DecipherStream.exec, hb, (g4 x rest rfl).2]
  · rintro before x rest rfl
    obtain ⟨Qs1, Qs2, r1, rfl, h1, h2⟩ := g2.split
    cases h2 with
    | cons h3 h4 =>
      rw [after_path hs hr hinv hp h1]
      exact expectedId_eq (S := S) hs rfl h3.cipher
  · rintro rfl
    simp only [DecipherStream.exec, hb, g3 rfl]
  · rintro x rest rfl
    refine ⟨by simp only [DecipherStream.exec, hb, (g4 x rest rfl).2], _, ?_, (g4 x rest rfl).1.symm⟩
    rw [after_path hs hr hinv hp g2]
    exact expectedId_eq (S := S) hs rfl (hsz x (by simp)).2

theorem inv_all_timed {S : Sound C} (hs : Streamable C.cfg) {r0 r : Ratchet κ} (hr : r0.WF C) {ttl : Option Int} {calls : List UnstreamCall}
    (hc : ∀ call ∈ calls, call.isFinalize = false) {Ps : List Bytes} {G others : List Packet} (hpath : Path S r0 Ps G r)
    {st : DecipherStream κ} (hst : DecipherStream.Inv S r0 ttl [] [] [] st)
    (hacc : acceptedAll calls (st.execAll C calls).1 ++ wire others = wire G) (hsz : ∀ x ∈ others, Sized C.cfg x) :
    DecipherStream.Inv S r0 ttl Ps G (((st.execAll C calls).1.map (·.outs)).flatten)
      ((st.execAll C calls).2.after C others) := by
  obtain ⟨Qs, A, hinv, h1, h2⟩ := inv_all hs hr calls hst hc
  simp only [List.nil_append] at hinv
  rw [h1, ← wire_append] at hacc
  have hG : A ++ others = G := wire_inj (packetsize_pos hs) (fun x hx => by
    rcases List.mem_append.1 hx with hx | hx
    · exact h2 x hx
    · exact hsz x hx) hpath.sized hacc
  subst hG
  obtain ⟨Qs1, Qs2, r1, rfl, h3, h4⟩ := hpath.split
  obtain ⟨r2, hp, hss⟩ := hinv.path
  obtain ⟨rfl, rfl⟩ := hp.unique_dec h3
  rw [after_path hs hr hinv hp h4]
  exact hinv.add hp h4

theorem stream_recovers (S : Sound C) (u : Usable C) (hs : Streamable C.cfg) (hframe : C.cfg.paddingFrame ≤ 256) :
    StreamRecovers C := by
  intro a data ha bundle st hst saltDraw ttl hdraw
  obtain ⟨r0, hr, _, _, hlen, hnew, hdec, _⟩ := stream_start S u ha
  rw [hnew] at hst
  simp only [Except.ok.injEq, Prod.mk.injEq] at hst
  obtain ⟨rfl, rfl⟩ := hst
  refine ⟨_, hdec saltDraw ttl hdraw, ?_⟩
  intro calls others now hc hnow hacc hsz
  obtain ⟨endp, G, r, st', e1, e2, e3, e4⟩ := reference_run (S := S) u hs ha hr data hlen
  rw [e3] at hacc
  have hinv := inv_all_timed hs hr (fun c h => (hc c h).1) e2 (decipher_inv_init S r0 ttl) hacc hsz
  have hflat : (Text.batch C.cfg.blocksize (beDigits C.cfg.timestampBytes a.draws.reading.toNat ++ a.draws.sivKey ++ data ++ endp)).flatten
      = beDigits C.cfg.timestampBytes a.draws.reading.toNat ++ a.draws.sivKey ++ data ++ endp := Text.batch_flatten _ S.block_pos _
  have hin : DecipherStream.InTime C.cfg ttl now (Text.batch C.cfg.blocksize
      (beDigits C.cfg.timestampBytes a.draws.reading.toNat ++ a.draws.sivKey ++ data ++ endp)) := by
    refine (inTime (sivKey := a.draws.sivKey) (rest := data ++ endp) S.block_pos ⟨ha.draws.reading_nonneg, ha.draws.reading_lt⟩ e2.blocks.1 ?_).1 hnow
    rw [hflat]
    exact ⟨[], by simp⟩
  obtain ⟨new, dst2, r', g1, g2, g3, g4⟩ := hinv.finalize u.accepted.frame_pos (.inl hin) hlen ha.draws.extra e1
    hflat ((sentinel_le_block u.accepted hframe).2 _) (sentinel_le_block u.accepted hframe).1
  have hbuf : ∀ (x : DecipherStream κ) (d : Bytes), (x.exec C (.buffer d)).1.outs = [] := by
    intro x d
    simp only [DecipherStream.exec]
    split <;> rfl
  rw [unstream_execAll_append]
  simp only [DecipherStream.execAll]
  simp only [DecipherStream.after] at g1
  rw [g1]
  simp only [released, List.map_append, List.map_cons, List.map_nil, List.flatten_append, List.flatten_cons, List.flatten_nil,
    hbuf, List.append_nil, List.nil_append]
  simpa using g2

end

/-- C27 for the shake-permute ciphers. -/
theorem C27_permute_refuses {E : Env} (h : PermuteSetup E) (hs : Streamable E.cfg) : ForgedBlockRefused (permuteCipher E) :=
  forged_block_refused (permuteSound E h.permuteWF) h.usable hs

theorem C27_permute_recovers {E : Env} (h : PermuteSetup E) (hs : Streamable E.cfg) (hframe : E.cfg.paddingFrame ≤ 256) :
    StreamRecovers (permuteCipher E) :=
  stream_recovers (permuteSound E h.permuteWF) h.usable hs hframe

/-- C27 for the dual-output ciphers. -/
theorem C27_dual_refuses {E : DualEnv} (h : DualSetup E) (hs : Streamable E.cfg) : ForgedBlockRefused (dualCipher E) :=
  forged_block_refused (dualSound E h.wf h.sides.1 h.sides.2) h.usable hs

theorem C27_dual_recovers {E : DualEnv} (h : DualSetup E) (hs : Streamable E.cfg) (hframe : E.cfg.paddingFrame ≤ 256) :
    StreamRecovers (dualCipher E) :=
  stream_recovers (dualSound E h.wf h.sides.1 h.sides.2) h.usable hs hframe

/-- The shipped configurations are covered, and there are arguments of the kind the properties range over. -/
example : ForgedBlockRefused (permuteCipher sampleSlick) ∧ StreamRecovers (permuteCipher sampleSlick) ∧
    ForgedBlockRefused (dualCipher sampleChunky) ∧ StreamRecovers (dualCipher sampleChunky) ∧
    (⟨sampleKey, sampleDraws sampleSlick.cfg, none, [1]⟩ : StreamArgs).OK sampleSlick.cfg :=
  ⟨C27_permute_refuses sampleSlick_setup sampleSlick_streamable, C27_permute_recovers sampleSlick_setup sampleSlick_streamable (by decide),
    C27_dual_refuses sampleChunky_setup sampleChunky_streamable, C27_dual_recovers sampleChunky_setup sampleChunky_streamable (by decide),
    sampleArgs_ok⟩

/-! ### C28: dropped, reordered and replayed packets -/

/-- C28. If all packets that a stream took were sent, but they are not the first packets sent in their order (some were
dropped, reordered or replayed), then the block id of one of them collides: the stream-hmac computes the same id for
its block after two different transcripts, namely after the first `i` and after the first `j` packets sent. -/
def ReorderingCollides {κ : Type} (C : Cipher κ) : Prop :=
  ∀ (a : StreamArgs) (data : Bytes), a.OK C.cfg →
  ∀ bundle st, CipherStream.new C a.key a.draws a.salt a.aad = .ok (bundle, st) →
  ∀ (saltDraw : Bytes) (ttl : Option Int), saltDraw.length = C.cfg.saltBytes →
  ∃ dst, DecipherStream.new C a.key saltDraw (some bundle.salt) a.aad bundle.iv ttl = .ok dst ∧
  (let sent := (st.execAll C [.buffer data, .finalize]).1
   ∀ calls taken, (∀ call ∈ calls, call.isFinalize = false) → acceptedAll calls (dst.execAll C calls).1 = wire taken →
   (∀ x ∈ taken, x ∈ sent) →
   taken <+: sent ∨
   ∃ i j x, i ≤ sent.length ∧ sent[j]? = some x ∧ i ≠ j ∧ x ∈ taken ∧
    (dst.after C (sent.take i)).session.shmac.mac ≠ (dst.after C (sent.take j)).session.shmac.mac ∧
    (dst.after C (sent.take i)).expectedId C x.2 = .ok x.1 ∧ (dst.after C (sent.take j)).expectedId C x.2 = .ok x.1)

theorem prefix_or_first_deviation {α : Type} : ∀ (G H : List α), G <+: H ∨
    ∃ pre x rest, G = pre ++ x :: rest ∧ pre <+: H ∧ ¬ pre ++ [x] <+: H := by
  intro G
  induction G with
  | nil => intro H; exact .inl (List.nil_prefix)
  | cons x G ih =>
    intro H
    cases H with
    | nil => exact .inr ⟨[], x, G, rfl, List.nil_prefix, by simp⟩
    | cons y H =>
      by_cases hxy : x = y
      · subst hxy
        rcases ih H with h | ⟨pre, z, rest, h1, h2, h3⟩
        · exact .inl (by simpa using h)
        · exact .inr ⟨x :: pre, z, rest, by simp [h1], by simpa using h2, by simpa using h3⟩
      · refine .inr ⟨[], x, G, rfl, List.nil_prefix, ?_⟩
        simp [hxy]

section
variable {κ : Type} {C : Cipher κ}

theorem path_mac {S : Sound C} {r r' : Ratchet κ} {Ps : List Bytes} {G : List Packet} (h : Path S r Ps G r') :
    r.mac.length + G.length ≤ r'.mac.length := by
  induction h with
  | nil => simp
  | cons h1 _ ih =>
    obtain ⟨w, h2, h3, _⟩ := h1.mac
    have h4 := congrArg List.length h2
    rw [List.length_append] at h4
    rw [List.length_cons]
    have h5 : 0 < w.length := by rw [h3]; exact S.width_pos _
    omega

theorem path_take {S : Sound C} {r r' : Ratchet κ} {Ps : List Bytes} {G : List Packet} (h : Path S r Ps G r') (i : Nat) :
    ∃ Qs r1 Rs, Path S r Qs (G.take i) r1 ∧ Path S r1 Rs (G.drop i) r' := by
  rw [← List.take_append_drop i G] at h
  obtain ⟨Qs, Rs, r1, _, h1, h2⟩ := h.split
  exact ⟨Qs, r1, Rs, h1, h2⟩

theorem path_mac_take {S : Sound C} {r ri rj : Ratchet κ} {Qi Qj : List Bytes} {G : List Packet} {i j : Nat}
    (hj : j ≤ G.length) (hij : i < j) (h1 : Path S r Qi (G.take i) ri) (h2 : Path S r Qj (G.take j) rj) :
    ri.mac.length < rj.mac.length := by
  have : (G.take j).take i = G.take i := by rw [List.take_take]; congr 1; omega
  obtain ⟨Qs, r1, Rs, h3, h4⟩ := path_take h2 i
  rw [this] at h3
  obtain ⟨_, rfl⟩ := h3.unique_dec h1
  have := path_mac h4
  simp only [List.length_drop, List.length_take] at this
  omega

theorem reordering_collides (S : Sound C) (u : Usable C) (hs : Streamable C.cfg) : ReorderingCollides C := by
  intro a data ha bundle st hst saltDraw ttl hdraw
  obtain ⟨r0, hr, _, _, hlen, hnew, hdec, _⟩ := stream_start S u ha
  rw [hnew] at hst
  simp only [Except.ok.injEq, Prod.mk.injEq] at hst
  obtain ⟨rfl, rfl⟩ := hst
  refine ⟨_, hdec saltDraw ttl hdraw, ?_⟩
  obtain ⟨endp, G, r, st', e1, e2, e3, e4⟩ := reference_run (S := S) u hs ha hr data hlen
  simp only [e3]
  intro calls taken hc hacc hsub
  obtain ⟨Qs, A, hinv, h1, h2⟩ := inv_all hs hr calls (decipher_inv_init S r0 ttl) hc
  simp only [List.nil_append] at hinv
  rw [h1] at hacc
  have hA : A = taken := wire_inj (packetsize_pos hs) h2 (fun x hx => e2.sized x (hsub x hx)) hacc
  subst hA
  rcases prefix_or_first_deviation A G with hpre | ⟨pre, x, rest, rfl, hpre, hdev⟩
  · exact .inl hpre
  · right
    have hx : x ∈ G := hsub x (by simp)
    obtain ⟨pj, rj, hG⟩ := List.append_of_mem hx
    obtain ⟨tl, htl⟩ := hpre
    have hti : G.take pre.length = pre := by rw [← htl]; simp
    have htj : G.take pj.length = pj := by rw [hG]; simp
    have hij : pre.length ≠ pj.length := by
      intro h
      apply hdev
      rw [h, htj] at hti
      subst hti
      exact ⟨rj, by rw [hG]; simp⟩
    have hi : pre.length ≤ G.length := by rw [← htl]; simp
    have hj : pj.length ≤ G.length := by rw [hG]; simp
    obtain ⟨Qi, ri, Ri, p1, p2⟩ := path_take e2 pre.length
    obtain ⟨Qj, rj', Rj, p3, p4⟩ := path_take e2 pj.length
    have hsz : x.2.length = C.cfg.blocksize := (e2.sized x hx).2
    have hinit := decipher_inv_init S r0 ttl
    refine ⟨pre.length, pj.length, x, hi, by rw [hG]; simp, hij, by simp, ?_, ?_, ?_⟩
    · rw [after_path hs hr hinit (.nil r0) p1, after_path hs hr hinit (.nil r0) p3]
      simp only [Ratchet.session, Shmac.live, ne_eq, Option.some.injEq]
      intro hm
      have hm := congrArg List.length hm
      rcases Nat.lt_or_gt_of_ne hij with h | h
      · have := path_mac_take hj h p1 p3; omega
      · have := path_mac_take hi h p3 p1; omega
    · rw [after_path hs hr hinit (.nil r0) p1]
      rw [expectedId_eq (S := S) hs rfl hsz]
      obtain ⟨r', hp, _⟩ := hinv.path
      obtain ⟨Qa, Qb, ra, _, q1, q2⟩ := hp.split
      rw [hti] at p1
      obtain ⟨_, rfl⟩ := q1.unique_dec p1
      cases q2 with
      | cons _ _ => rfl
    · rw [after_path hs hr hinit (.nil r0) p3]
      rw [expectedId_eq (S := S) hs rfl hsz]
      have : G.drop pj.length = x :: rj := by rw [hG]; simp
      rw [this] at p4
      cases p4 with
      | cons _ _ => rfl

end

/-- C28 for the shake-permute ciphers. -/
theorem C28_permute {E : Env} (h : PermuteSetup E) (hs : Streamable E.cfg) : ReorderingCollides (permuteCipher E) :=
  reordering_collides (permuteSound E h.permuteWF) h.usable hs

/-- C28 for the dual-output ciphers. -/
theorem C28_dual {E : DualEnv} (h : DualSetup E) (hs : Streamable E.cfg) : ReorderingCollides (dualCipher E) :=
  reordering_collides (dualSound E h.wf h.sides.1 h.sides.2) h.usable hs

/-! ### C30: time to live -/

/-- C30, as one would expect it: whatever is buffered, if every clock reading is later than the ttl allows, nothing is
given out. -/
def TtlEnforced {κ : Type} (C : Cipher κ) : Prop :=
  ∀ (a : StreamArgs) (t : Int), a.OK C.cfg →
  ∀ dst, DecipherStream.new C a.key a.draws.salt (some (usedSalt a.salt a.draws.salt)) a.aad a.draws.iv (some t) = .ok dst →
  ∀ bundle st data, CipherStream.new C a.key a.draws a.salt a.aad = .ok (bundle, st) →
  ∀ calls, (∀ call ∈ calls, call.At fun now => t < now - a.draws.reading) →
  acceptedAll calls (dst.execAll C calls).1 <+: wire (st.execAll C [.buffer data, .finalize]).1 →
  released (dst.execAll C calls).1 = []

/-- What holds: once a packet was buffered before the first iteration, an expired stream gives out nothing in whatever
calls follow; iterations raise `TimestampExpired`, and so does the first `finalize`. -/
def TtlEnforcedAfterPacket {κ : Type} (C : Cipher κ) : Prop :=
  ∀ (a : StreamArgs) (t : Int), a.OK C.cfg →
  ∀ dst, DecipherStream.new C a.key a.draws.salt (some (usedSalt a.salt a.draws.salt)) a.aad a.draws.iv (some t) = .ok dst →
  ∀ bundle st data, CipherStream.new C a.key a.draws a.salt a.aad = .ok (bundle, st) →
  ∀ first, first ≠ [] → first <+: (st.execAll C [.buffer data, .finalize]).1 →
  ∀ calls, (∀ call ∈ calls, call.At fun now => t < now - a.draws.reading) →
  ∃ replies dst', dst.execAll C (.buffer (wire first) :: calls) = (⟨[], none, none⟩ :: replies, dst') ∧
    released replies = [] ∧ replies.length = calls.length ∧
    ∀ x ∈ calls.zip replies,
      (∀ now n, x.1 = .pull now n → n ≠ 0 → x.2 = ⟨[], some (.timestampExpired (now - a.draws.reading - t)), none⟩) ∧
      (∀ now, x.1 = .finalize now → x.2 = ⟨[], some (.timestampExpired (now - a.draws.reading - t)), none⟩ ∨ x.2 = ⟨[], some .streamClosed, none⟩)

section
variable {κ : Type} {C : Cipher κ}

/-- The whole plaintext of an expired stream is given out if the stream was iterated before the first packet came. -/
theorem expired_released (S : Sound C) (u : Usable C) (hs : Streamable C.cfg) (hframe : C.cfg.paddingFrame ≤ 256)
    (a : StreamArgs) (ttl : Option Int) (ha : a.OK C.cfg) :
    ∃ dst bundle st, DecipherStream.new C a.key a.draws.salt (some (usedSalt a.salt a.draws.salt)) a.aad a.draws.iv ttl = .ok dst ∧
    CipherStream.new C a.key a.draws a.salt a.aad = .ok (bundle, st) ∧
    ∀ data, (st.execAll C [.buffer data, .finalize]).1 ≠ [] ∧ ∀ early late : Int,
      (let sent := (st.execAll C [.buffer data, .finalize]).1
       let calls := [.pull early 1, .buffer (wire sent), .finalize late]
       acceptedAll calls (dst.execAll C calls).1 = wire sent ∧
       (dst.execAll C calls).1.map (·.err) = [some .index, none, none] ∧
       released (dst.execAll C calls).1 = data) := by
  obtain ⟨r0, hr, _, _, hlen, hnew, hdec, _⟩ := stream_start S u ha
  refine ⟨_, _, _, hdec _ ttl ha.draws.salt, hnew, ?_⟩
  intro data
  obtain ⟨endp, G, r, st', e1, e2, e3, e4⟩ := reference_run (S := S) u hs ha hr data hlen
  rw [e3]
  have hflat : (Text.batch C.cfg.blocksize (beDigits C.cfg.timestampBytes a.draws.reading.toNat ++ a.draws.sivKey ++ data ++ endp)).flatten
      = beDigits C.cfg.timestampBytes a.draws.reading.toNat ++ a.draws.sivKey ++ data ++ endp := Text.batch_flatten _ S.block_pos _
  have hG : G ≠ [] := by
    rintro rfl
    generalize hb : Text.batch C.cfg.blocksize (beDigits C.cfg.timestampBytes a.draws.reading.toNat ++ a.draws.sivKey ++ data ++ endp) = Ps at *
    cases e2
    have h1 := congrArg List.length hflat
    have h2 := Sizes.length_endPadding u.accepted.frame_pos ha.draws.extra e1
    have h3 := (Sizes.padSize_bounds (c := C.cfg) u.accepted.frame_pos data.length).1
    simp only [List.flatten_nil, List.length_nil, List.length_append] at h1
    omega
  refine ⟨hG, ?_⟩
  intro early late
  have hinit := (decipher_inv_init S r0 ttl).streaming
  obtain ⟨st1, f1, f2, f3⟩ := hinit.buffer hs hr (.nil r0) e2 hG
  simp only [List.nil_append] at f2
  obtain ⟨new, dst2, r', g1, g2, g3, g4⟩ := f2.finalize (now := late) u.accepted.frame_pos (.inr f3) hlen ha.draws.extra e1
    hflat ((sentinel_le_block u.accepted hframe).2 _) (sentinel_le_block u.accepted hframe).1
  have h0 : (⟨r0.session true .decryption, ttl, false, [], C.cfg.innerHeaderBytes, false⟩ : DecipherStream κ).exec C (.pull early 1)
      = (⟨[], some .index, none⟩, ⟨r0.session true .decryption, ttl, true, [], C.cfg.innerHeaderBytes, false⟩) := by
    simp [DecipherStream.exec, DecipherStream.pull, DecipherStream.testTimestamp]
  simp only [DecipherStream.execAll, h0, f1, g1]
  refine ⟨by simp [acceptedAll, acceptedBytes], rfl, ?_⟩
  simpa [released] using g2

theorem not_ttl_enforced (S : Sound C) (u : Usable C) (hs : Streamable C.cfg) (hframe : C.cfg.paddingFrame ≤ 256)
    {a : StreamArgs} (ha : a.OK C.cfg) : ¬ TtlEnforced C := by
  intro h
  obtain ⟨dst, bundle, st, h1, h2, h3⟩ := expired_released S u hs hframe a (some 0) ha
  obtain ⟨_, h4⟩ := h3 [1]
  obtain ⟨h5, _, h6⟩ := h4 (a.draws.reading + 1) (a.draws.reading + 1)
  have := h a 0 ha dst h1 bundle st [1] h2 _ ?_ (by rw [h5])
  · rw [h6] at this
    cases this
  · intro call hcall
    simp only [List.mem_cons, List.not_mem_nil, or_false] at hcall
    rcases hcall with rfl | rfl | rfl
    · show (0 : Int) < _; omega
    · trivial
    · show (0 : Int) < _; omega

/-- An expired stream in which a packet was taken and that was not iterated successfully. -/
structure Stuck (C : Cipher κ) (t reading : Int) (st : DecipherStream κ) : Prop where
  waiting : st.isStreaming = false
  ttl : st.ttl = some t
  first : ∃ b q, st.queue = b :: q ∧ ∀ now, t < now - reading →
    Clock.testTimestamp now (C.cfg.timestampSlice.of b) (some t) .big = .error (.timestampExpired (now - reading - t))
  live : st.closed = true ∨ ∃ r : Ratchet κ, r.WF C ∧ st.session = r.session true .decryption

theorem stuck_pull {t reading : Int} {st : DecipherStream κ} (h : Stuck C t reading st) {now : Int} (hn : t < now - reading) {n : Nat} (h0 : n ≠ 0) :
    st.pull C now n = (([], some (.timestampExpired (now - reading - t))), st) := by
  obtain ⟨h1, h2, ⟨b, q, h3, h4⟩, _⟩ := h
  obtain ⟨ss, tt, is, qu, bt, cl⟩ := st
  simp only at h1 h2 h3
  subst h1 h2 h3
  simp [DecipherStream.pull, h0, DecipherStream.testTimestamp, h4 now hn]

theorem stuck_exec (S : Sound C) (hs : Streamable C.cfg) {t reading : Int} {st : DecipherStream κ} (h : Stuck C t reading st) (call : UnstreamCall)
    (hc : call.At fun now => t < now - reading) :
    ∃ reply st', st.exec C call = (reply, st') ∧ Stuck C t reading st' ∧ reply.outs = [] ∧
      (∀ now n, call = .pull now n → n ≠ 0 → reply = ⟨[], some (.timestampExpired (now - reading - t)), none⟩) ∧
      (∀ now, call = .finalize now →
        reply = ⟨[], some (.timestampExpired (now - reading - t)), none⟩ ∨ reply = ⟨[], some .streamClosed, none⟩) := by
  cases call with
  | buffer data =>
    by_cases hd : data = [] ∨ data.length % C.cfg.packetsize ≠ 0
    · exact ⟨⟨[], some .value, none⟩, st, by simp only [DecipherStream.exec, DecipherStream.bufferData, if_pos hd], h, rfl, by simp, by simp⟩
    · have hd' : data ≠ [] ∧ data.length % C.cfg.packetsize = 0 := by
        refine ⟨fun h0 => hd (.inl h0), ?_⟩
        by_cases h1 : data.length % C.cfg.packetsize = 0
        · exact h1
        · exact absurd (.inr h1) hd
      cases hcl : st.closed with
      | true =>
        exact ⟨⟨[], some .streamClosed, none⟩, st,
          by simp only [DecipherStream.exec, DecipherStream.bufferData, if_neg hd, hcl, if_true], h, rfl, by simp, by simp⟩
      | false =>
        obtain ⟨r, hr, hss⟩ : ∃ r : Ratchet κ, r.WF C ∧ st.session = r.session true .decryption := by
          rcases h.live with h1 | h1
          · rw [hcl] at h1; cases h1
          · exact h1
        obtain ⟨A, hA, rfl, hsz⟩ := data_packets hs hd'.1 hd'.2
        obtain ⟨good, bad, Qs, r', rfl, g2, g3, g4⟩ := DecipherStream.digestData_spec S hs A r st hr hss hsz
        have hb := exec_buffer_packets hs hcl hA hsz
        have hst : Stuck C t reading { st with session := r'.session true .decryption, queue := st.queue ++ Qs } := by
          obtain ⟨b, q, h4, h5⟩ := h.first
          exact ⟨h.waiting, h.ttl, ⟨b, q ++ Qs, by simp [h4], h5⟩, .inr ⟨r', g2.wf hr, rfl⟩⟩
        cases bad with
        | nil =>
          exact ⟨⟨[], none, none⟩, _, by simp only [DecipherStream.exec, hb, g3 rfl], hst, rfl, by simp, by simp⟩
        | cons x rest =>
          exact ⟨⟨[], some .invalidBlockID, some (x.1, x.2, wire rest)⟩, _,
            by simp only [DecipherStream.exec, hb, (g4 x rest rfl).2], hst, rfl, by simp, by simp⟩
  | pull now n =>
    by_cases h0 : n = 0
    · subst h0
      exact ⟨⟨[], none, none⟩, st, by simp [DecipherStream.exec, DecipherStream.pull], h, rfl, by simp, by simp⟩
    · refine ⟨⟨[], some (.timestampExpired (now - reading - t)), none⟩, st, by simp only [DecipherStream.exec, stuck_pull h (show t < now - reading from hc) h0], h, rfl, ?_, by simp⟩
      intro now' n' he _
      cases he
      rfl
  | finalize now =>
    cases hcl : st.closed with
    | true =>
      exact ⟨⟨[], some .streamClosed, none⟩, st, by simp only [DecipherStream.exec, DecipherStream.finalize, hcl, if_true], h, rfl, by simp,
        fun _ _ => .inr rfl⟩
    | false =>
      obtain ⟨r, hr, hss⟩ : ∃ r : Ratchet κ, r.WF C ∧ st.session = r.session true .decryption := by
        rcases h.live with h1 | h1
        · rw [hcl] at h1; cases h1
        · exact h1
      obtain ⟨v, hf⟩ : ∃ v, st.session.shmac.finalize C.toEnv = .ok v := by rw [hss]; exact ⟨_, rfl⟩
      have h2 : Stuck C t reading { st with closed := true, session := { st.session with shmac := v.2 } } :=
        ⟨h.waiting, h.ttl, h.first, .inl rfl⟩
      have h3 := stuck_pull h2 (show t < now - reading from hc) (n := st.queue.length + 1) (by omega)
      refine ⟨⟨[], some (.timestampExpired (now - reading - t)), none⟩, _, ?_, h2, rfl, by simp, ?_⟩
      · simp only [DecipherStream.exec, DecipherStream.finalize, hcl, hf, Bool.false_eq_true, if_false]
        rw [h3]
      · intro now' he
        cases he
        exact .inl rfl

theorem stuck_execAll (S : Sound C) (hs : Streamable C.cfg) {t reading : Int} : ∀ (calls : List UnstreamCall) {st : DecipherStream κ}, Stuck C t reading st →
    (∀ call ∈ calls, call.At fun now => t < now - reading) →
    ∃ replies st', st.execAll C calls = (replies, st') ∧ released replies = [] ∧ replies.length = calls.length ∧
      ∀ x ∈ calls.zip replies,
      (∀ now n, x.1 = .pull now n → n ≠ 0 → x.2 = ⟨[], some (.timestampExpired (now - reading - t)), none⟩) ∧
      (∀ now, x.1 = .finalize now → x.2 = ⟨[], some (.timestampExpired (now - reading - t)), none⟩ ∨ x.2 = ⟨[], some .streamClosed, none⟩) := by
  intro calls
  induction calls with
  | nil => intro st _ _; exact ⟨[], st, rfl, rfl, rfl, by simp⟩
  | cons call calls ih =>
    intro st h hc
    obtain ⟨reply, st1, h1, h2, h3, h4, h5⟩ := stuck_exec S hs h call (hc call (by simp))
    obtain ⟨replies, st', g1, g2, g3, g4⟩ := ih h2 (fun c h => hc c (by simp [h]))
    refine ⟨reply :: replies, st', by simp only [DecipherStream.execAll, h1, g1], ?_, by simp [g3], ?_⟩
    · simp only [released, List.map_cons, List.flatten_cons, h3, List.nil_append]
      exact g2
    · intro x hx
      simp only [List.zip_cons_cons, List.mem_cons] at hx
      rcases hx with rfl | hx
      · exact ⟨h4, h5⟩
      · exact g4 x hx

theorem ttl_enforced_after_packet (S : Sound C) (u : Usable C) (hs : Streamable C.cfg) (hts : C.cfg.timestampBytes ≤ C.cfg.blocksize) :
    TtlEnforcedAfterPacket C := by
  intro a t ha dst hdst bundle st data hst first hne hpre calls hcalls
  obtain ⟨r0, hr, _, _, hlen, hnew, hdec, _⟩ := stream_start S u ha
  rw [hdec _ _ ha.draws.salt] at hdst
  simp only [Except.ok.injEq] at hdst
  rw [hnew] at hst
  simp only [Except.ok.injEq, Prod.mk.injEq] at hst
  obtain ⟨rfl, rfl⟩ := hst
  obtain ⟨endp, G, r, st', e1, e2, e3, e4⟩ := reference_run (S := S) u hs ha hr data hlen
  rw [e3] at hpre
  obtain ⟨tl, rfl⟩ := hpre
  have hflat : (Text.batch C.cfg.blocksize (beDigits C.cfg.timestampBytes a.draws.reading.toNat ++ a.draws.sivKey ++ data ++ endp)).flatten
      = beDigits C.cfg.timestampBytes a.draws.reading.toNat ++ a.draws.sivKey ++ data ++ endp := Text.batch_flatten _ S.block_pos _
  obtain ⟨Qs, Rs, r1, hQ, h1, h2⟩ := e2.split
  obtain ⟨st1, f1, f2, f3⟩ := (decipher_inv_init S r0 (some t)).buffer hs hr (.nil r0) h1 hne
  rw [hdst] at f1
  simp only [List.nil_append] at f2
  have hstuck : Stuck C t a.draws.reading st1 := by
    obtain ⟨r2, hp, hss⟩ := f2.path
    have hw : st1.isStreaming = false := f3
    obtain ⟨_, _, hq⟩ := f2.fresh hw
    refine ⟨hw, f2.ttl, ?_, .inr ⟨r2, hp.wf hr, hss⟩⟩
    have hQne : Qs ≠ [] := by
      rintro rfl
      cases h1
      exact hne rfl
    obtain ⟨b, q, hbq⟩ := List.exists_cons_of_ne_nil hQne
    refine ⟨b, q, by rw [hq, hbq], ?_⟩
    intro now hnow
    refine (inTime (C := C) (sivKey := a.draws.sivKey) (rest := data ++ endp) (ttl := some t) S.block_pos
      ⟨ha.draws.reading_nonneg, ha.draws.reading_lt⟩ h1.blocks.1 ?_).2 t b q rfl hts hnow hbq
    rw [← List.append_assoc, ← hflat, hQ]
    exact ⟨Rs.flatten, by simp⟩
  obtain ⟨replies, dst', g1, g2, g3, g4⟩ := stuck_execAll S hs calls hstuck hcalls
  exact ⟨replies, dst', by simp only [DecipherStream.execAll, f1, g1], g2, g3, g4⟩

end

/-- C30 is false: a stream that is iterated before its first packet came gives out its plaintext however old it is. -/
theorem C30_ttl_bypassed_permute {E : Env} (h : PermuteSetup E) (hs : Streamable E.cfg) (hframe : E.cfg.paddingFrame ≤ 256)
    {a : StreamArgs} (ha : a.OK E.cfg) : ¬ TtlEnforced (permuteCipher E) :=
  not_ttl_enforced (permuteSound E h.permuteWF) h.usable hs hframe ha

theorem C30_ttl_bypassed_dual {E : DualEnv} (h : DualSetup E) (hs : Streamable E.cfg) (hframe : E.cfg.paddingFrame ≤ 256)
    {a : StreamArgs} (ha : a.OK E.cfg) : ¬ TtlEnforced (dualCipher E) :=
  not_ttl_enforced (dualSound E h.wf h.sides.1 h.sides.2) h.usable hs hframe ha

/-- What is missing in C30: streams that are iterated before the first packet, and configurations with timestamps that
do not fit into a block. -/
theorem C30_permute_partial {E : Env} (h : PermuteSetup E) (hs : Streamable E.cfg) (hts : E.cfg.timestampBytes ≤ E.cfg.blocksize) :
    TtlEnforcedAfterPacket (permuteCipher E) :=
  ttl_enforced_after_packet (permuteSound E h.permuteWF) h.usable hs hts

theorem C30_dual_partial {E : DualEnv} (h : DualSetup E) (hs : Streamable E.cfg) (hts : E.cfg.timestampBytes ≤ E.cfg.blocksize) :
    TtlEnforcedAfterPacket (dualCipher E) :=
  ttl_enforced_after_packet (dualSound E h.wf h.sides.1 h.sides.2) h.usable hs hts

/-- The shipped ciphers are among those. -/
example : ¬ TtlEnforced (permuteCipher sampleSlick) ∧ TtlEnforcedAfterPacket (permuteCipher sampleSlick) ∧
    TtlEnforcedAfterPacket (dualCipher sampleChunky) :=
  ⟨C30_ttl_bypassed_permute sampleSlick_setup sampleSlick_streamable (by decide) sampleArgs_ok,
    C30_permute_partial sampleSlick_setup sampleSlick_streamable (by decide),
    C30_dual_partial sampleChunky_setup sampleChunky_streamable (by decide)⟩

end Aiootp.Cipher
