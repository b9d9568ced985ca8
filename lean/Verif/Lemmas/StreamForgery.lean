import Verif.Lemmas.Forgery
import Verif.Spec.StreamForgery

/-
How many hash functions let a stream through that was made up.
-/

namespace Aiootp.Secrecy

open Cipher Cipher.Cipher Perm

variable {K : Nat}

/-! ### ciphers whose block ids are made with the same hash function -/

section
variable {κ : Type}

/-- The cipher with the hash function `x`, for the block ids too. -/
def Family.stream (F : Family κ) (x : Xof) : Cipher.Cipher κ := { F.at x with blockIdKdf := { F.E.blockIdKdf with xof := x } }

variable {F : Family κ} (L : Lawful F)

def Lawful.streamSound (x : Xof) : Sound (F.stream x) where
  started := (L.sound x).started
  width := (L.sound x).width
  extract := (L.sound x).extract
  width_pos := (L.sound x).width_pos
  block_pos := (L.sound x).block_pos
  fresh := (L.sound x).fresh
  session := (L.sound x).session
  session_ok := (L.sound x).session_ok
  step := (L.sound x).step

include L in
theorem stream_usable (x : Xof) : Usable (F.stream x) :=
  have h := L.usable x
  ⟨⟨h.env.perm, h.env.id_ok, h.env.kdf, h.env.block⟩, h.accepted, h.shmac_pos, h.shmac_le, h.salt_lt, h.iv_lt⟩

theorem stream_start_eq (x : Xof) (key : Bytes) (b : SaltAADIV) (d : Direction) : (F.stream x).startSession key b d = (F.at x).startSession key b d := rfl

theorem stream_run_eq (x : Xof) : ∀ (bs : List Bytes) (s : Session κ), (F.stream x).run s bs = (F.at x).run s bs
  | [], _ => rfl
  | b :: bs, s => by
    simp only [Cipher.run]
    refine bind_congr_ok fun _ _ => ?_
    rw [stream_run_eq x bs]

/-! ### paths do not depend on the piece -/

/-- Where a digest is made of more than the transcript, it is not that of `q`. -/
def Guard (r : Ratchet κ) (q : Bytes) : Prop := L.begun r.keys = false → ∀ w, w.length = F.E.cfg.shmacBlocksize → r.mac ++ w ≠ q

theorem wf_same {x : Xof} (x' : Xof) {r : Ratchet κ} (h : r.WF (F.stream x)) : r.WF (F.stream x') := ⟨h.1, h.2, h.3, h.4⟩

variable {x x' : Xof} {q : Bytes}

theorem turn_same (hs : SameBut x x' q F.E.cfg.shmacBlocksize) {r : Ratchet κ} (h : r.WF (F.stream x)) (hg : Guard L r q) (g : Bool) (d : Direction) {b : Bytes} (hb : b.length = F.E.cfg.blocksize) :
    (F.stream x).turn (r.session g d).shmac r.keys b = (F.stream x').turn (r.session g d).shmac r.keys b :=
  L.same hs h.cur hb hg

theorem stepRel_same (hs : SameBut x x' q F.E.cfg.shmacBlocksize) {r r1 : Ratchet κ} {P X : Bytes} (h : r.WF (F.stream x)) (hg : Guard L r q)
    (hr : StepRel (L.streamSound x) r P X r1) : StepRel (L.streamSound x') r P X r1 := by
  obtain ⟨X', r2, h2⟩ := step_enc (L.streamSound x') (wf_same x' h) (P := P) hr.plain
  have e := (turn_same L hs h hg true .encryption hr.plain).symm.trans (hr.enc true)
  rw [h2.enc true] at e
  simp only [Except.ok.injEq, Prod.mk.injEq] at e
  obtain ⟨rfl, e2, e3⟩ := e
  have : r2 = r1 := Ratchet.session_inj (g := true) (h := true) (d := .encryption) (e := .encryption) (by
    unfold Ratchet.session at e2 ⊢
    simp only at e2
    rw [e2, e3])
  subst this
  exact h2

theorem blockId_same {k : Nat} (hs : SameBut x x' q k) (hk : F.E.cfg.blockIdBytes ≤ k) (c X : Bytes) :
    blockIdOf (F.stream x).toEnv c X = blockIdOf (F.stream x').toEnv c X := hs _ _ (.inr hk)

theorem Guard.next (x : Xof) {r r1 : Ratchet κ} {P X : Bytes} (hr : StepRel (L.streamSound x) r P X r1) : Guard L r1 q := by
  intro h
  have := hr.started
  rw [show (L.streamSound x).started = L.begun from L.started_eq x] at this
  rw [this] at h
  cases h

theorem Guard.path {x : Xof} {r r' : Ratchet κ} {Ps : List Bytes} {G : List Packet} (h : Path (L.streamSound x) r Ps G r') (hg : Guard L r q) : Guard L r' q := by
  induction h with
  | nil => exact hg
  | cons h1 _ ih => exact ih (Guard.next L x h1)

theorem path_same (hs : SameBut x x' q F.E.cfg.shmacBlocksize) (hid : F.E.cfg.blockIdBytes ≤ F.E.cfg.shmacBlocksize) {r r' : Ratchet κ} {Ps : List Bytes} {G : List Packet}
    (h : Path (L.streamSound x) r Ps G r') (hwf : r.WF (F.stream x)) (hg : Guard L r q) : Path (L.streamSound x') r Ps G r' := by
  induction h with
  | nil => exact .nil _
  | cons h1 _ ih =>
    rw [blockId_same hs hid]
    exact .cons (stepRel_same L hs hwf hg h1) (ih h1.wf (Guard.next L x h1))

theorem path_mac {x : Xof} {r r' : Ratchet κ} {Ps : List Bytes} {G : List Packet} (h : Path (L.streamSound x) r Ps G r') :
    ∃ w, r'.mac = r.mac ++ w ∧ w.length = totalWidth L.width (L.begun r.keys) G.length := by
  have hst : (L.streamSound x).started = L.begun := L.started_eq x
  have hwd : (L.streamSound x).width = L.width := L.width_eq x
  induction h with
  | nil => exact ⟨[], by simp, rfl⟩
  | cons h1 _ ih =>
    obtain ⟨w, e1, e2⟩ := ih
    obtain ⟨v, f1, f2, _⟩ := h1.mac
    have f3 := h1.started
    rw [hst] at f2 f3
    rw [hwd] at f2
    rw [f3] at e2
    exact ⟨v ++ w, by rw [e1, f1, List.append_assoc], by rw [List.length_append, f2, e2]; rfl⟩

/-- The same blocks have the same packets. -/
theorem path_blocks {C : Cipher.Cipher κ} {S : Sound C} {r r1 r2 : Ratchet κ} {Ps Qs : List Bytes} {G H : List Packet} (h : Path S r Ps G r1) (h2 : Path S r Qs H r2)
    (he : G.map (·.2) = H.map (·.2)) : G = H := by
  induction h generalizing Qs H r2 with
  | nil =>
    cases h2 with
    | nil => rfl
    | cons _ _ => simp at he
  | cons h1 _ ih =>
    cases h2 with
    | nil => simp at he
    | cons h3 h4 =>
      simp only [List.map_cons, List.cons.injEq] at he
      obtain ⟨rfl, he⟩ := he
      obtain ⟨_, rfl⟩ := h1.unique_dec h3
      rw [ih h4 he]

/-! ### recipients -/

theorem accept_same (hs : SameBut x x' q F.E.cfg.shmacBlocksize) (hst : Streamable F.E.cfg) (hid : F.E.cfg.blockIdBytes ≤ F.E.cfg.shmacBlocksize) {r : Ratchet κ} (hwf : r.WF (F.stream x))
    (hg : Guard L r q) {id X : Bytes} (h1 : id.length = F.E.cfg.blockIdBytes) (h2 : X.length = F.E.cfg.blocksize) :
    (F.stream x).accept (r.session true .decryption) id X = (F.stream x').accept (r.session true .decryption) id X := by
  obtain ⟨P, r1, hr⟩ := step_dec (L.streamSound x) hwf (X := X) h2
  rw [accept_step (C := F.stream x) hst hr true h1, accept_step (C := F.stream x') hst (stepRel_same L hs hwf hg hr) true h1, blockId_same hs hid]

theorem digestData_same (hs : SameBut x x' q F.E.cfg.shmacBlocksize) (hst : Streamable F.E.cfg) (hid : F.E.cfg.blockIdBytes ≤ F.E.cfg.shmacBlocksize) : ∀ (A : List Packet) (r : Ratchet κ)
    (st : DecipherStream κ), r.WF (F.stream x) → Guard L r q → st.session = r.session true .decryption → (∀ y ∈ A, Sized F.E.cfg y) →
    st.digestData (F.stream x) (wire A) = st.digestData (F.stream x') (wire A) := by
  intro A
  induction A with
  | nil =>
    intro r st _ _ _ _
    rw [DecipherStream.digestData, DecipherStream.digestData]
    simp [wire]
  | cons y A ih =>
    intro r st hwf hg hss hA
    have hy := hA y (by simp)
    have ht : (wire (y :: A)).take F.E.cfg.blockIdBytes = y.1 := by rw [wire_cons, List.take_left' hy.1]
    have hd : (wire (y :: A)).drop F.E.cfg.blockIdBytes = y.2 ++ wire A := by rw [wire_cons, List.drop_left' hy.1]
    have hne : y.1 ≠ [] := by
      intro h0
      have := hy.1
      rw [h0] at this
      have := hst.id_pos
      simp only [List.length_nil] at *
      omega
    have hunf : ∀ z, st.digestData (F.stream z) (wire (y :: A)) = match (F.stream z).accept st.session y.1 y.2 with
      | .error .invalidBlockID => (.refused y.1 y.2 (wire A), st)
      | .error e => (.raised e, st)
      | .ok (out, session) => DecipherStream.digestData (F.stream z) { st with session, queue := st.queue ++ [out] } (wire A) := by
      intro z
      rw [DecipherStream.digestData]
      simp only [show (F.stream z).cfg = F.E.cfg from rfl, ht, hd, List.take_left' hy.2, List.drop_left' hy.2]
      rw [dif_neg hne]
      rfl
    obtain ⟨P, r1, hr⟩ := step_dec (L.streamSound x) hwf (X := y.2) hy.2
    have e := accept_same L hs hst hid hwf hg hy.1 hy.2
    rw [hunf x, hunf x', hss, ← e, accept_step (C := F.stream x) hst hr true hy.1]
    by_cases he : y.1 = blockIdOf (F.stream x).toEnv r.cur y.2
    · rw [if_pos he]
      exact ih r1 _ hr.wf (Guard.next L x hr) rfl (fun z hz => hA z (by simp [hz]))
    · rw [if_neg he]

theorem exec_same (hs : SameBut x x' q F.E.cfg.shmacBlocksize) (hst : Streamable F.E.cfg) (hid : F.E.cfg.blockIdBytes ≤ F.E.cfg.shmacBlocksize) {r0 : Ratchet κ} (hr : r0.WF (F.stream x))
    (hg : Guard L r0 q) {ttl : Option Int} {Ps outs : List Bytes} {G : List Packet} {st : DecipherStream κ} (h : DecipherStream.Inv (L.streamSound x) r0 ttl Ps G outs st) (call : UnstreamCall)
    (hc : call.isFinalize = false) : st.exec (F.stream x) call = st.exec (F.stream x') call := by
  cases call with
  | finalize now => cases hc
  | pull now n => rfl
  | buffer data =>
    obtain ⟨r, hp, hss⟩ := h.path
    by_cases hd : data = [] ∨ data.length % F.E.cfg.packetsize ≠ 0
    · simp only [DecipherStream.exec, DecipherStream.bufferData, show ∀ z, (F.stream z).cfg = F.E.cfg from fun _ => rfl, if_pos hd]
    · have hd' : data ≠ [] ∧ data.length % F.E.cfg.packetsize = 0 := by
        refine ⟨fun h0 => hd (.inl h0), ?_⟩
        by_cases h1 : data.length % F.E.cfg.packetsize = 0
        · exact h1
        · exact absurd (.inr h1) hd
      obtain ⟨A, _, rfl, hsz⟩ := data_packets (C := F.stream x) hst hd'.1 hd'.2
      have e := digestData_same L hs hst hid A r st (hp.wf hr) (hg.path L hp) hss hsz
      simp only [DecipherStream.exec, DecipherStream.bufferData, show ∀ z, (F.stream z).cfg = F.E.cfg from fun _ => rfl, if_neg hd, h.opened, Bool.false_eq_true, if_false, e]

theorem execAll_same (hs : SameBut x x' q F.E.cfg.shmacBlocksize) (hst : Streamable F.E.cfg) (hid : F.E.cfg.blockIdBytes ≤ F.E.cfg.shmacBlocksize) {r0 : Ratchet κ} (hr : r0.WF (F.stream x))
    (hg : Guard L r0 q) {ttl : Option Int} : ∀ (calls : List UnstreamCall) {Ps outs : List Bytes} {G : List Packet} {st : DecipherStream κ},
    DecipherStream.Inv (L.streamSound x) r0 ttl Ps G outs st → (∀ call ∈ calls, call.isFinalize = false) → st.execAll (F.stream x) calls = st.execAll (F.stream x') calls
  | [], _, _, _, _, _, _ => rfl
  | call :: calls, _, _, _, _, h, hc => by
    obtain ⟨reply, st', Qs, A, h1, h2, _, _⟩ := inv_any (C := F.stream x) hst hr h call (hc call (by simp))
    have e := exec_same L hs hst hid hr hg h call (hc call (by simp))
    simp only [DecipherStream.execAll]
    rw [← e, h1]
    simp only
    rw [execAll_same hs hst hid hr hg calls h2 fun c hc' => hc c (by simp [hc'])]

/-! ### both ends -/

theorem ratchet_start (x : Xof) {r : Request} (hv : r.Valid F.E.cfg) : ∃ r0 : Ratchet κ, r0.WF (F.stream x) ∧ L.begun r0.keys = L.fresh ∧ r0.mac = sessionOf F.E.shmacKdf r ∧
    (F.at x).startSession r.key ⟨r.usedSalt, r.aad, r.draws.iv, true⟩ .encryption = .ok (r0.session false .encryption) ∧
    (F.at x).startSession r.key ⟨r.usedSalt, r.aad, r.draws.iv, false⟩ .decryption = .ok (r0.session true .decryption) := by
  obtain ⟨perm, keys, h1, h2, h3, h4, h5, h6⟩ := start_form L x hv
  exact ⟨⟨_, _, _, perm, keys⟩, ⟨h1, h2, h4, h4⟩, h3, rfl, h5, h6⟩

theorem StreamRequest.args_ok {c : Sizes} {r : StreamRequest} (hv : r.Valid c) : (⟨r.key, r.draws, r.salt, r.aad⟩ : StreamArgs).OK c := by
  refine ⟨hv.whole.key_ge, hv.whole.key_lt, hv.whole.draws, ?_, hv.whole.aad⟩
  have h := hv.whole.salt
  unfold Request.usedSalt StreamRequest.whole at h
  simp only at h
  unfold SaltAllowed
  simp only
  rcases hs : r.salt with _ | (_ | ⟨b, bs⟩)
  · exact .inl rfl
  · exact .inr (.inl rfl)
  · rw [hs] at h
    exact .inr (.inr ⟨_, rfl, h⟩)

/-- The plaintext blocks of a stream. -/
def StreamRequest.blocks (c : Sizes) (r : StreamRequest) : List Bytes :=
  match c.endPadding r.draws.extra (buffered r.calls).length with
  | .ok endp => Text.batch c.blocksize (beDigits c.timestampBytes r.draws.reading.toNat ++ r.draws.sivKey ++ buffered r.calls ++ endp)
  | .error _ => []

/-- What is sent. -/
theorem sent_form (hst : Streamable F.E.cfg) (x : Xof) {r : StreamRequest} (hv : r.Valid F.E.cfg) : ∃ (r0 : Ratchet κ) (G : List Packet) (rf : Ratchet κ), r0.WF (F.stream x) ∧
    L.begun r0.keys = L.fresh ∧ r0.mac = sessionOf F.E.shmacKdf r.whole ∧
    (F.at x).startSession r.key ⟨r.whole.usedSalt, r.aad, r.draws.iv, true⟩ .encryption = .ok (r0.session false .encryption) ∧
    (F.at x).startSession r.key ⟨r.whole.usedSalt, r.aad, r.draws.iv, false⟩ .decryption = .ok (r0.session true .decryption) ∧
    Path (L.streamSound x) r0 (r.blocks F.E.cfg) G rf ∧
    sendAll (F.stream x) r = .ok (Shmac.tagOf (F.stream x).toEnv rf.mac ++ r.whole.usedSalt ++ r.draws.iv ++ wire G) := by
  obtain ⟨r0, h1, h2, h3, h4, h5⟩ := ratchet_start L x hv.whole
  have ha := StreamRequest.args_ok hv
  obtain ⟨r1, g1, _, _, g2, g3, _, _⟩ := stream_start (L.streamSound x) (stream_usable L x) (a := ⟨r.key, r.draws, r.salt, r.aad⟩) ha
  have hus : usedSalt r.salt r.draws.salt = r.whole.usedSalt := usedSalt_eq r.whole
  have e : r1 = r0 := by
    have g3' := g3
    simp only [CipherStream.new, bind_eq_ok, pure, Except.pure, Except.ok.injEq, Prod.mk.injEq] at g3'
    obtain ⟨_, _, b, _, s, hs, e1, e2⟩ := g3'
    have e3 := congrArg CipherStream.session e2
    simp only at e3
    rw [e1, e3, hus] at hs
    have : (F.at x).startSession r.key ⟨r.whole.usedSalt, r.aad, r.draws.iv, true⟩ .encryption = .ok (r1.session false .encryption) := hs
    have h4' : (F.at x).startSession r.key ⟨r.whole.usedSalt, r.aad, r.draws.iv, true⟩ .encryption = .ok (r0.session false .encryption) := h4
    rw [h4'] at this
    exact (Ratchet.session_inj (Except.ok.inj this)).symm
  subst e
  obtain ⟨endp, H, rf, st', e1, e2, e3, e4⟩ := open_execAll (C := F.stream x) hst (stream_usable L x).accepted.frame_pos h1 g2 ha.draws.extra r.calls [] [] _
    (stream_inv_init (L.streamSound x) r1 _ _) hv.ends
  simp only [List.nil_append] at e1 e2
  refine ⟨r1, H, rf, h1, h2, h3, h4, h5, ?_, ?_⟩
  · unfold StreamRequest.blocks
    have e1' : F.E.cfg.endPadding r.draws.extra (buffered r.calls).length = .ok endp := e1
    rw [e1']
    exact e2
  · unfold sendAll
    rw [g3]
    simp only [bind, Except.bind]
    rw [e3]
    simp only [e4, hus]
    rfl

/-- A request with the key, salt, aad and iv of an attempt. -/
def StreamAttempt.request (c : Sizes) (a : StreamAttempt) : Request :=
  ⟨a.key, ⟨a.salt, a.iv, 0, List.replicate c.sivKeyBytes 0, List.replicate c.paddingFrame 0⟩, none, a.aad, []⟩

theorem StreamAttempt.request_valid {c : Sizes} {a : StreamAttempt} (hv : a.Valid c) : (a.request c).Valid c := by
  refine ⟨hv.key_ge, hv.key_lt, ⟨hv.salt, hv.iv, by simp [StreamAttempt.request], by simp [StreamAttempt.request], by simp [StreamAttempt.request], ?_⟩, hv.salt, hv.aad⟩
  simp only [StreamAttempt.request]
  positivity

/-- How a recipient starts. -/
theorem received_start (x : Xof) {a : StreamAttempt} (hv : a.Valid F.E.cfg) : ∃ ra : Ratchet κ, ra.WF (F.stream x) ∧ L.begun ra.keys = L.fresh ∧
    ra.mac = sessionOf F.E.shmacKdf (a.request F.E.cfg) ∧ (F.at x).startSession a.key ⟨a.salt, a.aad, a.iv, false⟩ .decryption = .ok (ra.session true .decryption) ∧
    DecipherStream.new (F.stream x) a.key a.saltDraw (some a.salt) a.aad a.iv a.ttl = .ok ⟨ra.session true .decryption, a.ttl, false, [], F.E.cfg.innerHeaderBytes, false⟩ := by
  obtain ⟨ra, h1, h2, h3, _, h5⟩ := ratchet_start L x (StreamAttempt.request_valid hv)
  have h5' : (F.at x).startSession a.key ⟨a.salt, a.aad, a.iv, false⟩ .decryption = .ok (ra.session true .decryption) := h5
  refine ⟨ra, h1, h2, h3, h5', ?_⟩
  simp only [DecipherStream.new, bind_eq_ok, pure, Except.pure, Except.ok.injEq]
  have hu : usedSalt (some a.salt) a.saltDraw = a.salt := usedSalt_given hv.salt hv.saltDraw
  refine ⟨⟨a.salt, a.aad, a.iv, false⟩, ?_, _, h5', rfl⟩
  have := SaltAADIV.new_given (c := (F.stream x).cfg) (salt := some a.salt) (aad := a.aad) (iv := a.iv) (saltDraw := a.saltDraw) (ivDraw := []) (by rw [hu]; exact hv.salt) hv.iv
  rw [hu] at this
  exact this

theorem path_recompute {x : Xof} {r0 rf : Ratchet κ} {Ps : List Bytes} {G : List Packet} {key salt aad iv : Bytes}
    (h : (F.at x).startSession key ⟨salt, aad, iv, false⟩ .decryption = .ok (r0.session true .decryption)) (hp : Path (L.streamSound x) r0 Ps G rf) :
    recompute (F.at x) key salt aad iv (G.map (·.2)).flatten = .ok (Ps.flatten, rf.mac) := by
  unfold recompute
  have hb : Text.batch (F.at x).cfg.blocksize (G.map (·.2)).flatten = G.map (·.2) := batch_of_blocks (L.sound x).block_pos _ (by
    intro b hb
    obtain ⟨y, hy, rfl⟩ := List.mem_map.1 hb
    exact (hp.sized y hy).2)
  have hrun := (hp.run true).2
  rw [stream_run_eq] at hrun
  simp only [bind_eq_ok, pure, Except.pure, Except.ok.injEq, Prod.mk.injEq]
  exact ⟨_, h, _, by rw [hb]; exact hrun, rf.mac, rfl, rfl, rfl⟩

theorem pull_keeps {C : Cipher.Cipher κ} (now : Int) (s : DecipherStream κ) (n : Nat) : (s.pull C now n).2.session = s.session ∧ (s.queue = [] → (s.pull C now n).2.queue = []) := by
  have hrel : ∀ (s : DecipherStream κ) n, (s.release C n).2.session = s.session ∧ (s.queue = [] → (s.release C n).2.queue = []) := by
    intro s n
    refine ⟨rfl, fun hq => ?_⟩
    have htrim : ∀ m, (DecipherStream.trim m []).2 = [] := by
      intro m
      cases m <;> rfl
    have htake : ∀ k m, (DecipherStream.take k m []).2 = [] := by
      intro k m
      cases m <;> rfl
    unfold DecipherStream.release
    simp only [hq, htrim, htake]
  have hts : ∀ (s : DecipherStream κ), (s.testTimestamp C now).2.session = s.session ∧ (s.testTimestamp C now).2.queue = s.queue := by
    intro s
    unfold DecipherStream.testTimestamp
    split
    · exact ⟨rfl, rfl⟩
    · split <;> exact ⟨rfl, rfl⟩
  unfold DecipherStream.pull
  split
  · exact ⟨rfl, id⟩
  · split
    · exact ⟨(hrel s n).1, (hrel s n).2⟩
    · obtain ⟨t1, t2⟩ := hts s
      split
      · rename_i e s' he
        rw [he] at t1 t2
        exact ⟨t1, fun hq => by rw [t2, hq]⟩
      · rename_i s' he
        rw [he] at t1 t2
        exact ⟨(hrel s' n).1.trans t1, fun hq => (hrel s' n).2 (by rw [t2, hq])⟩

/-- If nothing was taken, nothing waits to be given out. -/
theorem queue_empty {C : Cipher.Cipher κ} {S : Sound C} (hs : Streamable C.cfg) {r0 : Ratchet κ} (hr : r0.WF C) {ttl : Option Int} : ∀ (calls : List UnstreamCall) {Ps outs : List Bytes}
    {G : List Packet} {st : DecipherStream κ}, DecipherStream.Inv S r0 ttl Ps G outs st → st.queue = [] → (∀ call ∈ calls, call.isFinalize = false) →
    acceptedAll calls (st.execAll C calls).1 = [] → (st.execAll C calls).2.queue = []
  | [], _, _, _, _, _, hq, _, _ => hq
  | call :: calls, Ps, outs, G, st, h, hq, hc, hacc => by
    obtain ⟨reply, st', Qs, A, h1, h2, h3, h4⟩ := inv_any hs hr h call (hc _ (by simp))
    simp only [DecipherStream.execAll, acceptedAll, List.zipWith_cons_cons, List.flatten_cons, List.append_eq_nil_iff] at hacc ⊢
    rw [h1] at hacc ⊢
    simp only at hacc ⊢
    refine queue_empty hs hr calls h2 ?_ (fun c hc' => hc c (by simp [hc'])) hacc.2
    have hA : wire A = [] := h3.symm.trans hacc.1
    cases call with
    | finalize now => have := hc (.finalize now) (by simp); cases this
    | pull now n =>
      have := (pull_keeps (C := C) now st n).2 hq
      simp only [DecipherStream.exec, Prod.mk.injEq] at h1
      rw [← h1.2]
      exact this
    | buffer data =>
      by_cases hd : data = [] ∨ data.length % C.cfg.packetsize ≠ 0
      · simp only [DecipherStream.exec, DecipherStream.bufferData, if_pos hd, Prod.mk.injEq] at h1
        rw [← h1.2]
        exact hq
      · have hd' : data ≠ [] ∧ data.length % C.cfg.packetsize = 0 := by
          refine ⟨fun h0 => hd (.inl h0), ?_⟩
          by_cases h1 : data.length % C.cfg.packetsize = 0
          · exact h1
          · exact absurd (.inr h1) hd
        obtain ⟨B, hB, rfl, hsz⟩ := data_packets hs hd'.1 hd'.2
        obtain ⟨r, hp, hss⟩ := h.path
        obtain ⟨good, bad, Qs', r', rfl, g2, g3, g4⟩ := DecipherStream.digestData_spec S hs B r st (hp.wf hr) hss hsz
        have hb := exec_buffer_packets hs h.opened hB hsz
        have hlen := g2.blocks.2.2
        have hgood : good = [] → st'.queue = [] := by
          intro hg
          rw [hg] at hlen
          have hQ : Qs' = [] := List.length_eq_zero_iff.1 hlen.symm
          cases bad with
          | nil =>
            simp only [DecipherStream.exec, hb, g3 rfl, Prod.mk.injEq] at h1
            rw [← h1.2]
            simp [hq, hQ]
          | cons y rest =>
            simp only [DecipherStream.exec, hb, (g4 y rest rfl).2, Prod.mk.injEq] at h1
            rw [← h1.2]
            simp [hq, hQ]
        apply hgood
        have hw : wire good = [] := by
          rw [← hacc.1]
          cases bad with
          | nil =>
            simp only [DecipherStream.exec, hb, g3 rfl, Prod.mk.injEq] at h1
            rw [← h1.1]
            simp [acceptedBytes]
          | cons y rest =>
            simp only [DecipherStream.exec, hb, (g4 y rest rfl).2, Prod.mk.injEq] at h1
            rw [← h1.1]
            simp only [acceptedBytes]
            rw [wire_append, wire_cons, List.append_assoc y.1]
            symm
            apply List.take_left'
            simp only [List.length_append]
            omega
        have hl := length_wire good g2.sized
        rw [hw] at hl
        cases good with
        | nil => rfl
        | cons y rest =>
          have := packetsize_pos hs
          have : 0 < C.cfg.packetsize * (y :: rest).length := Nat.mul_pos this (by simp)
          rw [← hl] at this
          cases this

/-- Finalizing a stream: if it raises nothing, then something was taken, and the result of the stream-hmac is the tag. -/
theorem finalize_session {C : Cipher.Cipher κ} {S : Sound C} {r0 : Ratchet κ} {ttl : Option Int} {Ps outs : List Bytes} {G : List Packet} {st : DecipherStream κ}
    (h : DecipherStream.Inv S r0 ttl Ps G outs st) {r : Ratchet κ} (hss : st.session = r.session true .decryption) (now : Int) :
    (st.exec C (.finalize now)).2.session.shmac.getResult = .ok (Shmac.tagOf C.toEnv r.mac) ∧ ((st.exec C (.finalize now)).1.err = none → st.queue ≠ []) := by
  have hfin : st.session.shmac.finalize C.toEnv = .ok (Shmac.tagOf C.toEnv r.mac, { (r.session true .decryption).shmac with
      finalized := true, result := some (Shmac.tagOf C.toEnv r.mac), mac := none, previous := none, current := none }) := by
    rw [hss]; rfl
  simp only [DecipherStream.exec, DecipherStream.finalize, h.opened, Bool.false_eq_true, if_false, hfin]
  obtain ⟨p1, p2⟩ := pull_keeps (C := C) now { st with closed := true, session := { st.session with shmac := { (r.session true .decryption).shmac with finalized := true, result := some (Shmac.tagOf C.toEnv r.mac), mac := none, previous := none, current := none } } } (st.queue.length + 1)
  split
  · rename_i o e s' he
    rw [he] at p1
    refine ⟨?_, nofun⟩
    simp only at p1 ⊢
    rw [p1]
    rfl
  · rename_i o s' he
    rw [he] at p1 p2
    simp only at p1 p2
    split
    · refine ⟨?_, nofun⟩
      simp only
      rw [p1]
      rfl
    · rename_i last hl
      refine ⟨?_, fun _ hq => ?_⟩
      · simp only
        rw [p1]
        rfl
      · rw [p2 hq] at hl
        cases hl

/-- How much is buffered. -/
def offered : List UnstreamCall → Nat
  | [] => 0
  | .buffer data :: calls => data.length + offered calls
  | _ :: calls => offered calls

theorem accepted_le : ∀ (calls : List UnstreamCall) (replies : List UnstreamReply), (acceptedAll calls replies).length ≤ offered calls
  | [], _ => by simp [acceptedAll, offered]
  | _ :: _, [] => by simp [acceptedAll]
  | call :: calls, reply :: replies => by
    have ih := accepted_le calls replies
    unfold acceptedAll at ih ⊢
    rw [List.zipWith_cons_cons, List.flatten_cons, List.length_append]
    rcases call with data | ⟨now, n⟩ | now
    · simp only [offered]
      have : (acceptedBytes (.buffer data) reply).length ≤ data.length := by
        rcases reply with ⟨_, _ | _, _ | ⟨_, _, _⟩⟩ <;> simp [acceptedBytes]
      omega
    · simpa [offered, acceptedBytes] using ih
    · simpa [offered, acceptedBytes] using ih

/-- What a recipient has done who accepts a stream. -/
theorem received_form (hst : Streamable F.E.cfg) (x : Xof) {a : StreamAttempt} (hv : a.Valid F.E.cfg) {taken : Bytes} (h : receiveAll (F.stream x) a = .ok (taken, true)) :
    ∃ (ra : Ratchet κ) (Qs : List Bytes) (A : List Packet) (rq : Ratchet κ), ra.WF (F.stream x) ∧ L.begun ra.keys = L.fresh ∧ ra.mac = sessionOf F.E.shmacKdf (a.request F.E.cfg) ∧
      (F.at x).startSession a.key ⟨a.salt, a.aad, a.iv, false⟩ .decryption = .ok (ra.session true .decryption) ∧
      DecipherStream.new (F.stream x) a.key a.saltDraw (some a.salt) a.aad a.iv a.ttl = .ok ⟨ra.session true .decryption, a.ttl, false, [], F.E.cfg.innerHeaderBytes, false⟩ ∧
      Path (L.streamSound x) ra Qs A rq ∧ taken = wire A ∧ A ≠ [] ∧ A.length ≤ offered a.calls ∧ a.tag = Shmac.tagOf (F.stream x).toEnv rq.mac ∧
      (DecipherStream.execAll (F.stream x) ⟨ra.session true .decryption, a.ttl, false, [], F.E.cfg.innerHeaderBytes, false⟩ a.calls).2.session = rq.session true .decryption := by
  obtain ⟨ra, h1, h2, h3, h4, h5⟩ := received_start L x hv
  have hinit := decipher_inv_init (L.streamSound x) ra a.ttl
  obtain ⟨Qs, A, hinv, g1, g2⟩ := inv_all (C := F.stream x) hst h1 a.calls hinit hv.calls
  simp only [List.nil_append] at hinv
  obtain ⟨rq, hp, hss⟩ := hinv.path
  unfold receiveAll at h
  rw [h5] at h
  simp only [bind, Except.bind, pure, Except.pure, Except.ok.injEq, Prod.mk.injEq, Bool.and_eq_true] at h
  obtain ⟨rfl, he, ht⟩ := h
  obtain ⟨f1, f2⟩ := finalize_session hinv hss a.now
  have g1' : acceptedAll a.calls (DecipherStream.execAll (F.stream x) ⟨ra.session true .decryption, a.ttl, false, [], F.E.cfg.innerHeaderBytes, false⟩ a.calls).1 = wire A := g1
  have hA : A ≠ [] := by
    rintro rfl
    refine f2 ?_ (queue_empty (C := F.stream x) hst h1 a.calls hinit rfl hv.calls (g1.trans rfl))
    exact Option.isNone_iff_eq_none.1 he
  refine ⟨ra, Qs, A, rq, h1, h2, h3, h4, h5, hp, g1', hA, ?_, ?_, hss⟩
  · have e1 := accepted_le a.calls (DecipherStream.execAll (F.stream x) ⟨ra.session true .decryption, a.ttl, false, [], F.E.cfg.innerHeaderBytes, false⟩ a.calls).1
    rw [g1', length_wire A g2] at e1
    have e2 : 0 < (F.stream x).cfg.packetsize := packetsize_pos (c := F.E.cfg) hst
    have := Nat.le_mul_of_pos_left A.length e2
    omega
  · unfold Shmac.testShmac at ht
    have f1' : (DecipherStream.exec (F.stream x) (DecipherStream.execAll (F.stream x) ⟨ra.session true .decryption, a.ttl, false, [], F.E.cfg.innerHeaderBytes, false⟩ a.calls).2 (.finalize a.now)).2.session.shmac.getResult
      = .ok (Shmac.tagOf (F.stream x).toEnv rq.mac) := f1
    rw [f1'] at ht
    by_contra hne
    simp [bind, Except.bind, raiseIf, hne, Except.isOk, Except.toBool] at ht

theorem guard_received {ra rq : Ratchet κ} {Qs : List Bytes} {A : List Packet} (hb : L.begun ra.keys = L.fresh) (hp : Path (L.streamSound x) ra Qs A rq) (hA : A ≠ []) :
    Guard L ra rq.mac ∧ ra.mac ≠ rq.mac ∧ ∃ w, rq.mac = ra.mac ++ w ∧ w.length = totalWidth L.width L.fresh A.length ∧ 0 < w.length ∧ (L.fresh = false → F.E.cfg.shmacBlocksize < w.length) := by
  obtain ⟨w, e1, e2⟩ := path_mac L hp
  rw [hb] at e2
  obtain ⟨n, hn⟩ : ∃ n, A.length = n + 1 := ⟨_, (Nat.succ_pred_eq_of_pos (List.length_pos_iff.2 hA)).symm⟩
  have hpos : 0 < w.length ∧ (L.fresh = false → F.E.cfg.shmacBlocksize < w.length) := by
    have := (L.sound x).width_pos L.fresh
    rw [L.width_eq] at this
    have hw2 := L.wide
    rw [e2, hn]
    simp only [totalWidth]
    refine ⟨by omega, fun hf => ?_⟩
    have := hw2 hf
    rw [hf]
    omega
  refine ⟨?_, ?_, w, e1, e2, hpos⟩
  · intro hf v hv e
    rw [hb] at hf
    rw [e1, List.append_cancel_left_eq] at e
    have := hpos.2 hf
    rw [← e] at this
    omega
  · intro e
    rw [e1] at e
    have := congrArg List.length e
    rw [List.length_append] at this
    omega

/-- What is sent does not depend on the tag of an attempt that is not one of the streams sent. -/
theorem send_same (hst : Streamable F.E.cfg) (hid : F.E.cfg.blockIdBytes ≤ F.E.cfg.shmacBlocksize) {a : StreamAttempt} (hv : a.Valid F.E.cfg) {taken : Bytes}
    {ra rq : Ratchet κ} {Qs : List Bytes} {A : List Packet} (hb : L.begun ra.keys = L.fresh)
    (hm : ra.mac = sessionOf F.E.shmacKdf (a.request F.E.cfg)) (hs0 : (F.at x).startSession a.key ⟨a.salt, a.aad, a.iv, false⟩ .decryption = .ok (ra.session true .decryption))
    (hp : Path (L.streamSound x) ra Qs A rq) (htaken : taken = wire A) (hA : A ≠ []) (htag : a.tag = Shmac.tagOf (F.stream x).toEnv rq.mac)
    (hs : SameBut x x' rq.mac F.E.cfg.shmacBlocksize) {r : StreamRequest} (hr : r.Valid F.E.cfg) (hl : r.key.length = a.key.length)
    (hnew : ∀ message, sendAll (F.stream x) r = .ok message → ¬ (message = a.tag ++ a.salt ++ a.iv ++ taken ∧ r.key = a.key ∧ r.aad = a.aad)) :
    sendAll (F.stream x') r = sendAll (F.stream x) r := by
  have u := L.usable x
  have hvr := StreamAttempt.request_valid hv
  obtain ⟨_, _, w, hq, _, hw0, hw1⟩ := guard_received L hb hp hA
  obtain ⟨r0, G, rf, s1, s2, s3, s4, s5, s6, s7⟩ := sent_form L hst x hr
  obtain ⟨r0', G', rf', t1, t2, t3, t4, t5, t6, t7⟩ := sent_form L hst x' hr
  have apart : ∀ v, (v = [] ∨ (L.fresh = false ∧ v.length = F.E.cfg.shmacBlocksize)) → r0.mac ++ v ≠ rq.mac := by
    intro v hvv e
    rw [s3] at e
    rw [hm] at hq
    by_cases hn : r.whole.nonce = (a.request F.E.cfg).nonce
    · have : sessionOf F.E.shmacKdf r.whole = sessionOf F.E.shmacKdf (a.request F.E.cfg) := by
        simp only [Request.nonce, Prod.mk.injEq] at hn
        obtain ⟨n1, n2, n3, n4⟩ := hn
        unfold sessionOf
        rw [n1, n2, n3, n4]
      rw [hq, this, List.append_cancel_left_eq] at e
      subst e
      rcases hvv with rfl | ⟨hf, hlen⟩
      · simp at hw0
      · have := hw1 hf
        omega
    · exact sessions_apart (family_kdf L x) u.salt_lt u.iv_lt hr.whole hvr hl hn v w (e.trans hq)
  have hg : Guard L r0 rq.mac := fun hf v hv' => apart v (.inr ⟨by rw [← s2]; exact hf, hv'⟩)
  have hstart : (F.at x).startSession r.key ⟨r.whole.usedSalt, r.aad, r.draws.iv, true⟩ .encryption = (F.at x').startSession r.key ⟨r.whole.usedSalt, r.aad, r.draws.iv, true⟩ .encryption :=
    start_same L hs fun kdf summary mac g1 g2 g3 => by
      have e : mac = r0.mac := (session_mac L x hr.whole kdf summary mac g1 g2 g3).trans s3.symm
      have := apart [] (.inl rfl)
      rw [List.append_nil] at this
      rw [e]
      exact this
  have e0 : r0' = r0 := by
    rw [s4, t4] at hstart
    exact (Ratchet.session_inj (Except.ok.inj hstart)).symm
  subst e0
  obtain ⟨rfl, rfl⟩ := t6.unique (path_same L hs hid s6 s1 hg)
  have hfinal : rf'.mac ≠ rq.mac := by
    intro e
    have hrec := path_recompute L s5 s6
    have hrec' := path_recompute L hs0 hp
    rw [e] at hrec
    have hdv : ∀ {H : List Packet}, (∀ y ∈ H, Sized F.E.cfg y) → F.E.cfg.blocksize ∣ (H.map (·.2)).flatten.length ∧ Text.batch F.E.cfg.blocksize (H.map (·.2)).flatten = H.map (·.2) := by
      intro H hH
      have hbl : ∀ b ∈ H.map (·.2), b.length = F.E.cfg.blocksize := by
        intro b hb
        obtain ⟨y, hy, rfl⟩ := List.mem_map.1 hb
        exact (hH y hy).2
      exact ⟨⟨_, length_flatten_blocks _ hbl⟩, batch_of_blocks (L.sound x).block_pos _ hbl⟩
    have hG := hdv s6.sized
    have hAA := hdv hp.sized
    obtain ⟨e1, e2, e3, e4, e5⟩ := hashed_inj (L.sound x) u hr.whole.key_ge hr.whole.key_lt hl hr.whole.salt hv.salt hr.whole.draws.iv hv.iv hr.whole.aad hv.aad hG.1 hAA.1 hrec hrec'
    have hblocks : G'.map (·.2) = A.map (·.2) := by rw [← hG.2, e5, hAA.2]
    have e0 : r0' = ra := by
      have e1' : r.key = a.key := e1
      have e3' : r.aad = a.aad := e3
      have e4' : r.draws.iv = a.iv := e4
      rw [e1', e2, e3', e4', hs0] at s5
      exact (Ratchet.session_inj (Except.ok.inj s5)).symm
    subst e0
    have hGA := path_blocks s6 hp hblocks
    subst hGA
    refine hnew _ s7 ⟨?_, e1, e3⟩
    rw [htaken, htag, e, ← e2, ← e4]
    rfl
  rw [s7, t7]
  have : Shmac.tagOf (F.stream x).toEnv rf'.mac = Shmac.tagOf (F.stream x').toEnv rf'.mac := by
    unfold Shmac.tagOf
    exact congrArg _ (hs _ _ (.inl hfinal))
  rw [this]

include L in
theorem send_length (hst : Streamable F.E.cfg) {r : StreamRequest} (hr : r.Valid F.E.cfg) : ∃ n, ∀ x message, sendAll (F.stream x) r = .ok message → message.length = n := by
  refine ⟨F.E.cfg.shmacBytes + F.E.cfg.saltBytes + F.E.cfg.ivBytes + F.E.cfg.packetsize * (r.blocks F.E.cfg).length, fun x message hm => ?_⟩
  obtain ⟨r0, G, rf, _, _, _, _, _, s6, s7⟩ := sent_form L hst x hr
  rw [s7] at hm
  cases hm
  have h1 : (wire G).length = F.E.cfg.packetsize * G.length := length_wire G s6.sized
  have h2 : (Shmac.tagOf (F.stream x).toEnv rf.mac).length = F.E.cfg.shmacBytes := (stream_usable L x).length_tag _
  have h3 := hr.whole.draws.iv
  simp only [List.length_append, h1, h2, hr.whole.salt, s6.blocks.2.2]
  rw [show r.draws.iv.length = F.E.cfg.ivBytes from h3]

/-- What may be hashed for the tag of an attempt. -/
def streamFinals (a : StreamAttempt) : Set Bytes :=
  ⋃ n ∈ {n | n ≤ offered a.calls}, (fun w => sessionOf F.E.shmacKdf (a.request F.E.cfg) ++ w) '' {w : List UInt8 | w.length = totalWidth L.width L.fresh n}

theorem streamFinals_finite (a : StreamAttempt) : (streamFinals L a).Finite :=
  (Set.finite_le_nat _).biUnion fun _ _ => (List.finite_length_eq UInt8 _).image _

theorem streamFinals_key (x : Xof) {a : StreamAttempt} (hv : a.Valid F.E.cfg) : ∀ q ∈ streamFinals L a, ∃ w, q = F.E.shmacKdf.factory ++ a.key ++ w := by
  intro q hq
  simp only [streamFinals, Set.mem_iUnion] at hq
  obtain ⟨n, _, w, _, rfl⟩ := hq
  obtain ⟨w', e⟩ := sessionOf_key (c := F.E.cfg) (family_kdf L x) (L.usable x).salt_lt (L.usable x).iv_lt (StreamAttempt.request_valid hv)
  exact ⟨w' ++ w, by simp only [e]; simp [StreamAttempt.request]⟩

/-- What an attempt has to guess: the digest of which input, and the piece of it. -/
def streamTarget (F : Family κ) (x : Xof) (a : StreamAttempt) : Option (Bytes × Bytes) :=
  match DecipherStream.new (F.stream x) a.key a.saltDraw (some a.salt) a.aad a.iv a.ttl with
  | .error _ => none
  | .ok st => (st.execAll (F.stream x) a.calls).2.session.shmac.mac.map fun q => (q, a.tag)

include L in
open Classical in
theorem forged_stream (hst : Streamable F.E.cfg) (hid : F.E.cfg.blockIdBytes ≤ F.E.cfg.shmacBlocksize) (hK : 2 * F.E.cfg.shmacBlocksize ≤ K) (htag : F.E.cfg.shmacBytes ≤ F.E.cfg.shmacBlocksize)
    (htag0 : 0 < F.E.cfg.shmacBytes) {ask : List Bytes → StreamRequest} (hask : ∀ seen, (ask seen).Valid F.E.cfg) {forge : StreamForger} (hforge : ∀ seen, (forge seen).Valid F.E.cfg)
    (hl : ∀ seen seen', (ask seen).key.length = (forge seen').key.length) (known : Xof) (n : Nat) :
    ∃ D0 : Finset Bytes, (∀ q ∈ D0, ∃ seen w, q = F.E.shmacKdf.factory ++ (forge seen).key ++ w) ∧ ∀ D, D0 ⊆ D →
      count (fun T : Hash D K => StreamSucceeds (sendAll (F.stream (T.xof known))) (receiveAll (F.stream (T.xof known))) ask n forge) * 256 ^ F.E.cfg.shmacBytes ≤ total D K := by
  have hfin := conversation_finite (e := fun x r => sendAll (F.stream x) r) (ask := ask) (fun seen => send_length L hst (hask seen)) n []
  have hfin2 : (⋃ l ∈ {l | ∃ x, conversation (fun r => sendAll (F.stream x) r) ask n [] = .ok l}, streamFinals L (forge l)).Finite :=
    hfin.biUnion fun l _ => streamFinals_finite L (forge l)
  refine ⟨hfin2.toFinset, fun q hq => ?_, fun D hD => ?_⟩
  · rw [Set.Finite.mem_toFinset] at hq
    simp only [Set.mem_iUnion] at hq
    obtain ⟨l, _, hq⟩ := hq
    obtain ⟨w, e⟩ := streamFinals_key L known (hforge l) q hq
    exact ⟨l, w, e⟩
  have hi : 2 * F.E.cfg.shmacBlocksize - F.E.cfg.shmacBytes + F.E.cfg.shmacBytes ≤ K := by omega
  let view : Hash D K → Option (D × Digest F.E.cfg.shmacBytes) := fun T =>
    match conversation (sendAll (F.stream (T.xof known))) ask n [] with
    | .error _ => none
    | .ok l => match streamTarget F (T.xof known) (forge l) with
      | none => none
      | some (q, v) => if h : q ∈ D ∧ v.length = F.E.cfg.shmacBytes then some (⟨q, h.1⟩, ⟨v, h.2⟩) else none
  refine count_tag hi _ view fun T hT => ?_
  obtain ⟨l, taken, hconv, hrec, hnew⟩ := hT
  have hv := hforge l
  obtain ⟨ra, Qs, A, rq, h1, h2, h3, h4, h5, h6, h7, h8, h9, h10, h11⟩ := received_form L hst (T.xof known) hv hrec
  obtain ⟨hg, hne, w, hq, hwl, _, _⟩ := guard_received L h2 h6 h8
  have hqD : rq.mac ∈ D := by
    refine hD ((Set.Finite.mem_toFinset hfin2).2 (Set.mem_biUnion (show l ∈ {l | _} from ⟨_, hconv⟩) ?_))
    unfold streamFinals
    exact Set.mem_biUnion (show A.length ∈ {n | _} from h9) ⟨w, hwl, by simp only [← h3, ← hq]⟩
  have hlen : (forge l).tag.length = F.E.cfg.shmacBytes := by
    rw [h10]
    exact (stream_usable L (T.xof known)).length_tag _
  refine ⟨⟨rq.mac, hqD⟩, ⟨(forge l).tag, hlen⟩, ?_, ?_, fun s => ?_⟩
  · simp only [view]
    rw [hconv]
    have : streamTarget F (T.xof known) (forge l) = some (rq.mac, (forge l).tag) := by
      unfold streamTarget
      rw [h5]
      simp only [h11]
      rfl
    simp only [this]
    rw [dif_pos ⟨hqD, hlen⟩]
  · simp only
    rw [h10]
    exact tag_piece hK htag htag0 known T ⟨rq.mac, hqD⟩
  · have hsb := (patch_same hi known T ⟨rq.mac, hqD⟩ s).mono (k' := F.E.cfg.shmacBlocksize) (by omega)
    have hconv' : conversation (sendAll (F.stream ((patch _ _ hi T ⟨rq.mac, hqD⟩ s).xof known))) ask n [] = .ok l := by
      refine conversation_congr n hconv fun seen m rest e hm => ?_
      exact send_same L hst hid hv h2 h3 h4 h6 h7 h8 h10 hsb (hask seen) (hl seen l) fun message hmess => by
        have : m = message := by
          rw [hm] at hmess
          exact Except.ok.inj hmess
        rw [← this]
        exact hnew seen m rest e
    have hstart : (F.at (T.xof known)).startSession (forge l).key ⟨(forge l).salt, (forge l).aad, (forge l).iv, false⟩ .decryption =
        (F.at ((patch _ _ hi T ⟨rq.mac, hqD⟩ s).xof known)).startSession (forge l).key ⟨(forge l).salt, (forge l).aad, (forge l).iv, false⟩ .decryption :=
      start_same L hsb fun kdf summary mac g1 g2 g3 => by
        rw [session_mac L (T.xof known) (StreamAttempt.request_valid hv) kdf summary mac g1 g2 g3, ← h3]
        exact hne
    have hnew' : DecipherStream.new (F.stream ((patch _ _ hi T ⟨rq.mac, hqD⟩ s).xof known)) (forge l).key (forge l).saltDraw (some (forge l).salt) (forge l).aad (forge l).iv (forge l).ttl =
        .ok ⟨ra.session true .decryption, (forge l).ttl, false, [], F.E.cfg.innerHeaderBytes, false⟩ := by
      obtain ⟨ra', _, _, _, f4, f5⟩ := received_start L ((patch _ _ hi T ⟨rq.mac, hqD⟩ s).xof known) hv
      rw [← hstart, h4] at f4
      rw [f5, Ratchet.session_inj (Except.ok.inj f4)]
    have hexec := execAll_same L hsb hst hid h1 hg (forge l).calls (decipher_inv_init (L.streamSound (T.xof known)) ra (forge l).ttl) hv.calls
    simp only [view]
    rw [hconv']
    have : streamTarget F ((patch _ _ hi T ⟨rq.mac, hqD⟩ s).xof known) (forge l) = some (rq.mac, (forge l).tag) := by
      unfold streamTarget
      rw [hnew']
      have hexec' : DecipherStream.execAll (F.stream (T.xof known)) ⟨ra.session true .decryption, (forge l).ttl, false, [], F.E.cfg.innerHeaderBytes, false⟩ (forge l).calls =
        DecipherStream.execAll (F.stream ((patch _ _ hi T ⟨rq.mac, hqD⟩ s).xof known)) ⟨ra.session true .decryption, (forge l).ttl, false, [], F.E.cfg.innerHeaderBytes, false⟩ (forge l).calls := hexec
      simp only [← hexec', h11]
      rfl
    simp only [this]
    rw [dif_pos ⟨hqD, hlen⟩]

end

/-- Each of some events has a small chance, so one of them has at most the sum. -/
theorem count_any {D : Finset Bytes} {α : Type} (M : Nat) (P : α → Hash D K → Prop) : ∀ l : List α, (∀ p ∈ l, count (P p) * M ≤ total D K) →
    count (fun T => ∃ p ∈ l, P p T) * M ≤ l.length * total D K
  | [], _ => by
    have : count (fun T : Hash D K => ∃ p ∈ ([] : List α), P p T) = 0 := by
      unfold count
      refine Finset.card_eq_zero.2 (Finset.eq_empty_of_forall_notMem fun T hT => ?_)
      simp at hT
    rw [this]
    simp
  | p :: ps, h => by
    have e1 := h p (by simp)
    have e2 := count_any M P ps fun p' hp' => h p' (by simp [hp'])
    have hmono := count_mono (P := fun T : Hash D K => ∃ p' ∈ p :: ps, P p' T) (Q := fun T => P p T ∨ ∃ p' ∈ ps, P p' T) (by
      rintro T ⟨p', hp', hs⟩
      rcases List.mem_cons.1 hp' with rfl | hp'
      · exact .inl hs
      · exact .inr ⟨p', hp', hs⟩)
    refine Nat.le_trans (Nat.mul_le_mul_right _ (Nat.le_trans hmono (count_or _ _))) ?_
    rw [Nat.add_mul, List.length_cons, Nat.add_mul, Nat.one_mul, Nat.add_comm]
    exact Nat.add_le_add e2 e1

section
variable {κ : Type} {F : Family κ} (L : Lawful F)
include L

theorem forged_streams (hst : Streamable F.E.cfg) (hid : F.E.cfg.blockIdBytes ≤ F.E.cfg.shmacBlocksize) (hK : 2 * F.E.cfg.shmacBlocksize ≤ K) (htag : F.E.cfg.shmacBytes ≤ F.E.cfg.shmacBlocksize)
    (htag0 : 0 < F.E.cfg.shmacBytes) : StreamUnforgeable F.E.cfg [F.E.shmacKdf.factory] K (fun x => sendAll (F.stream x)) (fun x => receiveAll (F.stream x)) := by
  classical
  intro known ask attempts hask hv hl
  have key : ∀ p : { p // p ∈ attempts }, ∃ D0 : Finset Bytes, (∀ q ∈ D0, ∃ seen w, q = F.E.shmacKdf.factory ++ (p.1.2 seen).key ++ w) ∧ ∀ D, D0 ⊆ D →
      count (fun T : Hash D K => StreamSucceeds (sendAll (F.stream (T.xof known))) (receiveAll (F.stream (T.xof known))) ask p.1.1 p.1.2) * 256 ^ F.E.cfg.shmacBytes ≤ total D K :=
    fun p => forged_stream L hst hid hK htag htag0 hask (hv p.1 p.2) (hl p.1 p.2) known p.1.1
  choose D0 h1 h2 using key
  refine ⟨attempts.attach.toFinset.biUnion D0, fun q hq => ?_, fun D hD => ?_⟩
  · obtain ⟨p, _, hq⟩ := Finset.mem_biUnion.1 hq
    obtain ⟨seen, w, e⟩ := h1 p q hq
    exact ⟨_, by simp, p.1, p.2, seen, w, e⟩
  · refine count_any _ (fun (p : Nat × StreamForger) T => StreamSucceeds (sendAll (F.stream (T.xof known))) (receiveAll (F.stream (T.xof known))) ask p.1 p.2) attempts fun p hp => ?_
    exact h2 ⟨p, hp⟩ D fun q hq => hD (Finset.mem_biUnion.2 ⟨⟨p, hp⟩, by simp, hq⟩)

end

end Aiootp.Secrecy
