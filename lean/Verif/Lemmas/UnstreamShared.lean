import Verif.Props.Stream
import Verif.Spec.UnstreamShared

namespace Aiootp.Cipher.SharedDec

open Perm Cipher

variable {κ : Type} {C : Cipher κ}

/-! ### one thread -/

theorem heard_append : ∀ (calls : List UnstreamCall) (replies : List UnstreamReply) (c : UnstreamCall) (r : UnstreamReply), calls.length = replies.length →
    heard (calls ++ [c]) (replies ++ [r]) = heard calls replies ++ heard [c] [r] := by
  intro calls
  induction calls with
  | nil => intro replies c r h; cases replies with | nil => simp [heard] | cons _ _ => simp at h
  | cons d calls ih =>
    intro replies c r h
    cases replies with
    | nil => simp at h
    | cons x replies =>
      have := ih replies c r (by simpa using h)
      cases d <;> simp [heard, this]

theorem length_execAll : ∀ (calls : List UnstreamCall) (st : DecipherStream κ), (st.execAll C calls).1.length = calls.length := by
  intro calls
  induction calls with
  | nil => intro st; rfl
  | cons c calls ih => intro st; simp [DecipherStream.execAll, ih]

theorem execAll_snoc (st : DecipherStream κ) (calls : List UnstreamCall) (c : UnstreamCall) :
    st.execAll C (calls ++ [c]) = ((st.execAll C calls).1 ++ [((st.execAll C calls).2.exec C c).1], ((st.execAll C calls).2.exec C c).2) := by
  rw [unstream_execAll_append]; rfl

/-- Buffering one packet. -/
theorem digest_one (hs : Streamable C.cfg) {q : DecipherStream κ} {id block : Bytes} (h1 : id.length = C.cfg.blockIdBytes) (h2 : block.length = C.cfg.blocksize)
    (hq : q.closed = false) : q.exec C (.buffer (id ++ block)) =
      match C.accept q.session id block with
      | .error .invalidBlockID => (⟨[], some .invalidBlockID, some (id, block, [])⟩, q)
      | .error e => (⟨[], some e, none⟩, q)
      | .ok (out, session) => (⟨[], none, none⟩, { q with session, queue := q.queue ++ [out] }) := by
  have hid := hs.id_pos
  have hne : ¬ (id ++ block = [] ∨ (id ++ block).length % C.cfg.packetsize ≠ 0) := by
    rintro (h | h)
    · obtain ⟨rfl, -⟩ := List.append_eq_nil_iff.1 h
      simp at h1
      omega
    · rw [List.length_append, h1, h2] at h
      apply h
      have : C.cfg.blockIdBytes + C.cfg.blocksize = C.cfg.packetsize := by simp [Sizes.packetsize]; try omega
      rw [this]; exact Nat.mod_self _
  have e1 : (id ++ block).take C.cfg.blockIdBytes = id := by rw [← h1]; simp
  have e2 : ((id ++ block).drop C.cfg.blockIdBytes).take C.cfg.blocksize = block := by
    rw [← h1, List.drop_left, ← h2]; simp
  have e3 : ((id ++ block).drop C.cfg.blockIdBytes).drop C.cfg.blocksize = [] := by
    rw [← h1, List.drop_left, ← h2]; simp
  have hidne : ¬ id = [] := by rintro rfl; simp at h1; omega
  have nil : ∀ st : DecipherStream κ, st.digestData C [] = (.ok, st) := by
    intro st; rw [DecipherStream.digestData]; simp
  simp only [DecipherStream.exec, DecipherStream.bufferData, if_neg hne, hq, Bool.false_eq_true, if_false]
  rw [DecipherStream.digestData]
  simp only [e1, e2, e3, hidne, dite_false]
  rcases C.accept q.session id block with e | ⟨out, session⟩
  · cases e <;> rfl
  · simp only [nil, hq]

/-- The test of the timestamp, at a time. -/
def TestIs (C : Cipher κ) (q : DecipherStream κ) (now : Int) (r : Except Err Unit) : Prop :=
  ∃ first rest, q.queue = first :: rest ∧ Clock.testTimestamp now (C.cfg.timestampSlice.of first) q.ttl .big = r

/-- The test is not needed, or succeeds. -/
def Passes (C : Cipher κ) (q : DecipherStream κ) (now : Int) : Prop := q.isStreaming = true ∨ TestIs C q now (.ok ())

theorem take_all (keep : Nat) : ∀ (f R : List Bytes) (n : Nat), f.length < n → (f = [] ∨ keep ≤ R.length) → R.length ≤ keep →
    DecipherStream.take keep n (f ++ R) = (f, R) := by
  intro f
  induction f with
  | nil =>
    intro R n hn _ hR
    cases n with
    | zero => simp at hn
    | succ n =>
      cases R with
      | nil => rfl
      | cons b R =>
        simp only [List.nil_append, DecipherStream.take]
        rw [if_neg (by omega)]
  | cons b f ih =>
    intro R n hn h hR
    cases n with
    | zero => simp at hn
    | succ n =>
      have hk : keep ≤ R.length := by rcases h with h | h; · simp at h
                                      · exact h
      simp only [List.cons_append, DecipherStream.take]
      rw [if_pos (by simp only [List.length_cons, List.length_append]; omega), ih R n (by simp at hn; omega) (.inr hk) hR]

theorem take_prefix (keep : Nat) : ∀ (f R : List Bytes) (n : Nat), f.length ≤ n → (f = [] ∨ keep ≤ R.length) →
    f <+: (DecipherStream.take keep n (f ++ R)).1 := by
  intro f
  induction f with
  | nil => intro R n _ _; exact List.nil_prefix
  | cons b f ih =>
    intro R n hn h
    cases n with
    | zero => simp at hn
    | succ n =>
      have hk : keep ≤ R.length := by rcases h with h | h; · simp at h
                                      · exact h
      simp only [List.cons_append, DecipherStream.take]
      rw [if_pos (by simp only [List.length_cons, List.length_append]; omega)]
      obtain ⟨t, ht⟩ := ih R n (by simp at hn; omega) (.inr hk)
      exact ⟨t, by simp [← ht]⟩

theorem pull_pass {q : DecipherStream κ} {now : Int} (h : Passes C q now) {n : Nat} (hn : n ≠ 0) {Q : List Bytes}
    (ht : DecipherStream.trim q.bytesToTrim q.queue = (0, Q)) :
    q.pull C now n = (((DecipherStream.take C.cfg.minStreamQueue n Q).1, none),
      { q with isStreaming := true, bytesToTrim := 0, queue := (DecipherStream.take C.cfg.minStreamQueue n Q).2 }) := by
  unfold DecipherStream.pull
  rw [if_neg hn]
  by_cases hst : q.isStreaming = true
  · rw [if_pos hst]
    simp only [DecipherStream.release, ht, Prod.mk.injEq, true_and]
    rw [← hst]
  · rw [if_neg hst]
    rcases h with h | ⟨first, rest, h1, h2⟩
    · exact absurd h hst
    · have : q.testTimestamp C now = (none, { q with isStreaming := true }) := by
        simp only [DecipherStream.testTimestamp, h1, h2]
      rw [this]
      simp only [DecipherStream.release, ht]

theorem pull_fails {q : DecipherStream κ} {now : Int} {e : Err} (h0 : q.isStreaming = false) (h : TestIs C q now (.error e)) {n : Nat} (hn : n ≠ 0) :
    q.pull C now n = (([], some e), q) := by
  obtain ⟨first, rest, h1, h2⟩ := h
  unfold DecipherStream.pull
  have : q.testTimestamp C now = (some e, { q with isStreaming := false }) := by
    simp only [DecipherStream.testTimestamp, h1, h2]
  rw [if_neg hn, if_neg (by simp [h0]), this]
  simp only [Prod.mk.injEq, true_and]
  rw [← h0]

theorem pull_empty {q : DecipherStream κ} (now : Int) (h0 : q.isStreaming = false) (h : q.queue = []) {n : Nat} (hn : n ≠ 0) :
    q.pull C now n = (([], some .index), { q with isStreaming := true }) := by
  unfold DecipherStream.pull
  have : q.testTimestamp C now = (some .index, { q with isStreaming := true }) := by
    simp only [DecipherStream.testTimestamp, h]
  rw [if_neg hn, if_neg (by simp [h0]), this]

/-- The state of a stream after `shmac.finalize` inside `finalize`. -/
def closing (q : DecipherStream κ) (shmac : Shmac) : DecipherStream κ :=
  { q with closed := true, session := { q.session with shmac } }

theorem finalize_shmac {q : DecipherStream κ} (now : Int) (h0 : q.closed = false) {t : Bytes} {shmac : Shmac}
    (h1 : q.session.shmac.finalize C.toEnv = .ok (t, shmac)) :
    q.finalize C now = match (closing q shmac).pull C now (q.queue.length + 1) with
      | ((outs, some e), st) => ((outs, some e), st)
      | ((outs, none), st) =>
        match st.queue.getLast? with
        | none => ((outs, some .index), st)
        | some last =>
          let plaintext := Slice.of ⟨none, some (C.cfg.depaddingEndIndex last)⟩ st.queue.flatten
          ((outs ++ Text.batch C.cfg.blocksize plaintext, none), st) := by
  unfold DecipherStream.finalize
  rw [if_neg (by simp [h0])]
  simp only [h1]
  rfl

theorem trim_length : ∀ (q : List Bytes) (n : Nat), (DecipherStream.trim n q).2.length ≤ q.length := by
  intro q
  induction q with
  | nil => intro n; cases n <;> simp [DecipherStream.trim]
  | cons b q ih =>
    intro n
    cases n with
    | zero => simp [DecipherStream.trim]
    | succ n =>
      simp only [DecipherStream.trim]
      split
      · have := ih (n + 1 - (b.take (n + 1)).length)
        simp only [List.length_cons]; omega
      · simp

theorem TestIs.append {q : DecipherStream κ} {now : Int} {r : Except Err Unit} (h : TestIs C q now r) (x : Session κ) (out : Bytes) :
    TestIs C { q with session := x, queue := q.queue ++ [out] } now r := by
  obtain ⟨a, b, h1, h2⟩ := h
  exact ⟨a, b ++ [out], by simp [h1], h2⟩

theorem Passes.append {q : DecipherStream κ} {now : Int} (h : Passes C q now) (x : Session κ) (out : Bytes) :
    Passes C { q with session := x, queue := q.queue ++ [out] } now := by
  rcases h with h | h
  · exact .inl h
  · exact .inr (h.append x out)

/-! ### many threads: how the state of the stream relates to the state after the calls of one thread -/

/-- Inside the guard. -/
def Feeder.within : Feeder → Bool
  | .inside | .reading _ | .accepted .. | .leaving _ => true
  | _ => false

def Feeder.digests : Feeder → Bool
  | .reading _ | .accepted .. => true
  | _ => false

def Feeder.pending : Feeder → Bool
  | .accepted .. => true
  | _ => false

def Taker.holds : Taker → Bool
  | .entering f | .marking f | .testing f | .expired f _ | .trimming f | .cutting f | .taking f | .popping f => f
  | .ending | .flushing => true
  | .ready _ | .yielded | .waiting => false

/-- The session, apart from a packet that was accepted but is not in the queue. -/
def Sess (C : Cipher κ) (s : State κ) (q : DecipherStream κ) : Prop :=
  (∃ i id b out rest, s.feeder i = .accepted id b out rest ∧ C.accept q.session id b = .ok (out, s.stream.session)) ∨
    ((∀ i, (s.feeder i).pending = false) ∧ s.stream.session = q.session)

def Phase (C : Cipher κ) (st : DecipherStream κ) (ss : Prop) (q : DecipherStream κ) : Bool → Prop
  | false => st.closed = q.closed ∧ ss
  | true => st.closed = true ∧ q.closed = false ∧
      ∃ t shmac, q.session.shmac.finalize C.toEnv = .ok (t, shmac) ∧ st.session = { q.session with shmac }

def Alike (st q : DecipherStream κ) : Prop := st.bytesToTrim = q.bytesToTrim ∧ st.queue = q.queue

def Tested (C : Cipher κ) (T : Int → Prop) (q : DecipherStream κ) : Prop := ∃ now, T now ∧ Passes C q now

/-- After the header was removed; `f` was given out since. -/
def Trimmed (C : Cipher κ) (st q : DecipherStream κ) (f : List Bytes) (fin : Bool) : Prop :=
  st.bytesToTrim = 0 ∧ DecipherStream.trim q.bytesToTrim q.queue = (0, f ++ st.queue) ∧ (fin = false → f = []) ∧
    (f = [] ∨ C.cfg.minStreamQueue ≤ st.queue.length)

def Rel (C : Cipher κ) (T : Int → Prop) (st : DecipherStream κ) (hp ss : Prop) (q : DecipherStream κ) (f : List Bytes) : Taker → Prop
  | .ready _ => f = [] ∧ Phase C st ss q false ∧ st.isStreaming = q.isStreaming ∧ Alike st q
  | .yielded => f = [] ∧ Phase C st ss q false ∧ st.isStreaming = q.isStreaming ∧ Alike st q ∧ q.isStreaming = true ∧ q.bytesToTrim = 0 ∧
      Tested C T q
  | .entering fin => f = [] ∧ Phase C st ss q fin ∧ st.isStreaming = q.isStreaming ∧ Alike st q ∧ (fin = false → hp)
  | .marking fin => f = [] ∧ Phase C st ss q fin ∧ q.isStreaming = false ∧ Alike st q ∧ (fin = false → hp)
  | .testing fin => f = [] ∧ Phase C st ss q fin ∧ st.isStreaming = true ∧ q.isStreaming = false ∧ Alike st q ∧ (fin = false → hp)
  | .expired fin e => f = [] ∧ Phase C st ss q fin ∧ q.isStreaming = false ∧ Alike st q ∧ ∃ now, T now ∧ TestIs C q now (.error e)
  | .trimming fin => f = [] ∧ Phase C st ss q fin ∧ st.isStreaming = true ∧ Tested C T q ∧
      (Trimmed C st q [] fin ∨ (Alike st q ∧ q.bytesToTrim ≠ 0 ∧ q.queue ≠ []))
  | .cutting fin => f = [] ∧ Phase C st ss q fin ∧ st.isStreaming = true ∧ Tested C T q ∧ Alike st q ∧ q.bytesToTrim ≠ 0 ∧ q.queue ≠ []
  | .taking fin => Phase C st ss q fin ∧ st.isStreaming = true ∧ Tested C T q ∧ Trimmed C st q f fin
  | .popping fin => Phase C st ss q fin ∧ st.isStreaming = true ∧ Tested C T q ∧ Trimmed C st q f fin ∧ C.cfg.minStreamQueue < st.queue.length
  | .waiting | .ending => f = [] ∧ st.closed = true ∧ q.closed = false ∧ ss ∧ st.isStreaming = q.isStreaming ∧ Alike st q
  | .flushing => Phase C st ss q true ∧ st.isStreaming = true ∧ Tested C T q ∧ Trimmed C st q f true ∧ st.queue.length ≤ C.cfg.minStreamQueue

variable {T : Int → Prop} {st q : DecipherStream κ} {hp hp' ss ss' : Prop} {f : List Bytes}

theorem Phase.mono (h2 : ss → ss') {fin : Bool} (h : Phase C st ss q fin) : Phase C st ss' q fin := by
  cases fin
  · exact ⟨h.1, h2 h.2⟩
  · exact h

theorem Rel.mono (h1 : hp → hp') (h2 : ss → ss') {t : Taker} (h : Rel C T st hp ss q f t) : Rel C T st hp' ss' q f t := by
  cases t with
  | ready e => exact ⟨h.1, h.2.1.mono h2, h.2.2⟩
  | yielded => exact ⟨h.1, h.2.1.mono h2, h.2.2⟩
  | entering fin => exact ⟨h.1, h.2.1.mono h2, h.2.2.1, h.2.2.2.1, fun e => h1 (h.2.2.2.2 e)⟩
  | marking fin => exact ⟨h.1, h.2.1.mono h2, h.2.2.1, h.2.2.2.1, fun e => h1 (h.2.2.2.2 e)⟩
  | testing fin => exact ⟨h.1, h.2.1.mono h2, h.2.2.1, h.2.2.2.1, h.2.2.2.2.1, fun e => h1 (h.2.2.2.2.2 e)⟩
  | expired fin e => exact ⟨h.1, h.2.1.mono h2, h.2.2⟩
  | trimming fin => exact ⟨h.1, h.2.1.mono h2, h.2.2⟩
  | cutting fin => exact ⟨h.1, h.2.1.mono h2, h.2.2⟩
  | taking fin => exact ⟨h.1.mono h2, h.2⟩
  | popping fin => exact ⟨h.1.mono h2, h.2⟩
  | waiting => exact ⟨h.1, h.2.1, h.2.2.1, h2 h.2.2.2.1, h.2.2.2.2⟩
  | ending => exact ⟨h.1, h.2.1, h.2.2.1, h2 h.2.2.2.1, h.2.2.2.2⟩
  | flushing => exact ⟨h.1.mono h2, h.2⟩

/-- A packet was accepted. -/
theorem Rel.session {t : Taker} (ht : t.holds = false) (h : Rel C T st hp ss q f t) (x : Session κ) (h2 : ss') :
    Rel C T { st with session := x } hp ss' q f t := by
  have P : Phase C st ss q false → Phase C { st with session := x } ss' q false := fun h => ⟨h.1, h2⟩
  cases t with
  | ready e => exact ⟨h.1, P h.2.1, h.2.2⟩
  | yielded => exact ⟨h.1, P h.2.1, h.2.2⟩
  | entering fin => cases (show fin = false from ht); exact ⟨h.1, P h.2.1, h.2.2⟩
  | marking fin => cases (show fin = false from ht); exact ⟨h.1, P h.2.1, h.2.2⟩
  | testing fin => cases (show fin = false from ht); exact ⟨h.1, P h.2.1, h.2.2⟩
  | expired fin e => cases (show fin = false from ht); exact ⟨h.1, P h.2.1, h.2.2⟩
  | trimming fin => cases (show fin = false from ht); exact ⟨h.1, P h.2.1, h.2.2⟩
  | cutting fin => cases (show fin = false from ht); exact ⟨h.1, P h.2.1, h.2.2⟩
  | taking fin => cases (show fin = false from ht); exact ⟨P h.1, h.2⟩
  | popping fin => cases (show fin = false from ht); exact ⟨P h.1, h.2⟩
  | waiting => exact ⟨h.1, h.2.1, h.2.2.1, h2, h.2.2.2.2⟩
  | ending => exact absurd ht (by simp [Taker.holds])
  | flushing => exact absurd ht (by simp [Taker.holds])

/-- A packet was put into the queue. -/
theorem Rel.append {t : Taker} (ht : t.holds = false) (h : Rel C T st hp ss q f t) (x : Session κ) (out : Bytes) (h1 : hp') (h2 : ss') :
    Rel C T { st with queue := st.queue ++ [out] } hp' ss' { q with session := x, queue := q.queue ++ [out] } f t := by
  have P : Phase C st ss q false → Phase C { st with queue := st.queue ++ [out] } ss' { q with session := x, queue := q.queue ++ [out] } false :=
    fun h => ⟨h.1, h2⟩
  have A : Alike st q → Alike { st with queue := st.queue ++ [out] } { q with session := x, queue := q.queue ++ [out] } :=
    fun h => ⟨h.1, by simp [h.2]⟩
  have Te : Tested C T q → Tested C T { q with session := x, queue := q.queue ++ [out] } := fun ⟨n, h, k⟩ => ⟨n, h, k.append x out⟩
  have Tr : ∀ {f : List Bytes}, Trimmed C st q f false → Trimmed C { st with queue := st.queue ++ [out] } { q with session := x, queue := q.queue ++ [out] } f false := by
    intro f h
    obtain ⟨a, b, c, d⟩ := h
    refine ⟨a, ?_, c, ?_⟩
    · show DecipherStream.trim q.bytesToTrim (q.queue ++ [out]) = _
      rw [DecipherStream.trim_append, b]
      simp [DecipherStream.trim]
    · rcases d with d | d
      · exact .inl d
      · exact .inr (by simp only [List.length_append]; omega)
  have ne : q.queue ++ [out] ≠ [] := by simp
  cases t with
  | ready e => exact ⟨h.1, P h.2.1, h.2.2.1, A h.2.2.2⟩
  | yielded => exact ⟨h.1, P h.2.1, h.2.2.1, A h.2.2.2.1, h.2.2.2.2.1, h.2.2.2.2.2.1, Te h.2.2.2.2.2.2⟩
  | entering fin => cases (show fin = false from ht); exact ⟨h.1, P h.2.1, h.2.2.1, A h.2.2.2.1, fun _ => h1⟩
  | marking fin => cases (show fin = false from ht); exact ⟨h.1, P h.2.1, h.2.2.1, A h.2.2.2.1, fun _ => h1⟩
  | testing fin => cases (show fin = false from ht); exact ⟨h.1, P h.2.1, h.2.2.1, h.2.2.2.1, A h.2.2.2.2.1, fun _ => h1⟩
  | expired fin e =>
    cases (show fin = false from ht)
    obtain ⟨n, hn, k⟩ := h.2.2.2.2
    exact ⟨h.1, P h.2.1, h.2.2.1, A h.2.2.2.1, n, hn, k.append x out⟩
  | trimming fin =>
    cases (show fin = false from ht)
    refine ⟨h.1, P h.2.1, h.2.2.1, Te h.2.2.2.1, ?_⟩
    rcases h.2.2.2.2 with k | k
    · exact .inl (Tr k)
    · exact .inr ⟨A k.1, k.2.1, ne⟩
  | cutting fin =>
    cases (show fin = false from ht)
    exact ⟨h.1, P h.2.1, h.2.2.1, Te h.2.2.2.1, A h.2.2.2.2.1, h.2.2.2.2.2.1, ne⟩
  | taking fin => cases (show fin = false from ht); exact ⟨P h.1, h.2.1, Te h.2.2.1, Tr h.2.2.2⟩
  | popping fin =>
    cases (show fin = false from ht)
    refine ⟨P h.1, h.2.1, Te h.2.2.1, Tr h.2.2.2.1, ?_⟩
    have := h.2.2.2.2
    simp only [List.length_append]; omega
  | waiting => exact ⟨h.1, h.2.1, h.2.2.1, h2, h.2.2.2.2.1, A h.2.2.2.2.2⟩
  | ending => exact absurd ht (by simp [Taker.holds])
  | flushing => exact absurd ht (by simp [Taker.holds])

/-- The state of the stream, the calls of one thread that do the same, and the blocks `f` given out by the call that is not over. -/
structure Sim (C : Cipher κ) (T : Int → Prop) (dst : DecipherStream κ) (s : State κ) (calls : List UnstreamCall) (q : DecipherStream κ)
    (f : List Bytes) : Prop where
  exec : (dst.execAll C calls).2 = q
  time : ∀ c ∈ calls, c.At T
  heard : heard calls (dst.execAll C calls).1 = s.heard
  outs : s.outs = ((dst.execAll C calls).1.map (·.outs)).flatten ++ f
  errs : ∀ e, s.taker 0 = .ready (some e) → (e = .streamClosed ∧ s.stream.closed = true) ∨ ∃ r ∈ (dst.execAll C calls).1, r.err = some e ∧ r.refusal = none
  live : q.closed = false → ∃ r : Ratchet κ, r.WF C ∧ q.session = r.session true .decryption
  busy : ∀ i, (s.feeder i).digests = true → q.closed = false
  ttl : s.stream.ttl = q.ttl
  trim : q.bytesToTrim = 0 ∨ (q.bytesToTrim = C.cfg.innerHeaderBytes ∧ ∀ b ∈ q.queue, b.length = C.cfg.blocksize)
  keep : q.bytesToTrim ≠ 0 ∨ q.isStreaming = false → s.hasPacket → q.queue ≠ []
  seen : q.closed = false → q.isStreaming = true → s.hasPacket
  packet : q.queue ≠ [] → s.hasPacket
  rel : Rel C T s.stream s.hasPacket (Sess C s q) q f (s.taker 0)

variable {dst : DecipherStream κ} {s s' : State κ} {calls : List UnstreamCall}

theorem Sim.still (h : Sim C T dst s calls q f) (e1 : s'.stream = s.stream) (e2 : s'.taker 0 = s.taker 0) (e3 : s'.out = s.out) (e4 : s'.log = s.log)
    (hs : Sess C s q → Sess C s' q) (hb : ∀ i, (s'.feeder i).digests = true → q.closed = false) : Sim C T dst s' calls q f := by
  have ep : s'.hasPacket ↔ s.hasPacket := by simp [State.hasPacket, e4]
  refine ⟨h.exec, h.time, ?_, ?_, ?_, h.live, hb, ?_, h.trim, fun a b => h.keep a (ep.1 b), fun a b => ep.2 (h.seen a b), fun a => ep.2 (h.packet a), ?_⟩
  · rw [h.heard]; simp [State.heard, e4]
  · rw [State.outs, e3]; exact h.outs
  · intro e he; rw [e1]; rw [e2] at he; exact h.errs e he
  · rw [e1]; exact h.ttl
  · rw [e1, e2]; exact h.rel.mono ep.2 hs

/-! ### the calls of `buffer` -/

/-- What was taken of a call. -/
def takenIn (log : List Entry) (i : Nat) : Bytes :=
  ((log.filter fun x => x.call = i ∧ x.taken = true).map fun x => x.blockId ++ x.block).flatten

theorem takenIn_other {log : List Entry} {x : Entry} {i : Nat} (h : x.call ≠ i) : takenIn (log ++ [x]) i = takenIn log i := by
  simp [takenIn, List.filter_append, h]

theorem takenIn_taken (log : List Entry) (i : Nat) (id b : Bytes) : takenIn (log ++ [⟨i, id, b, true⟩]) i = takenIn log i ++ (id ++ b) := by
  simp [takenIn, List.filter_append]

theorem takenIn_refused (log : List Entry) (i : Nat) (id b : Bytes) : takenIn (log ++ [⟨i, id, b, false⟩]) i = takenIn log i := by
  simp [takenIn, List.filter_append]

theorem takenIn_none {log : List Entry} {i : Nat} (h : ∀ x ∈ log, x.call ≠ i) : takenIn log i = [] := by
  have : log.filter (fun x => x.call = i ∧ x.taken = true) = [] := by
    rw [List.filter_eq_nil_iff]; intro x hx; simp [h x hx]
  rw [takenIn, this]; rfl

def NoEntry (log : List Entry) (i : Nat) : Prop := ∀ x ∈ log, x.call ≠ i

/-- The packets of the call are the last ones. -/
def Tail (log : List Entry) (i : Nat) : Prop := ∃ pre suf, log = pre ++ suf ∧ (∀ x ∈ pre, x.call ≠ i) ∧ ∀ x ∈ suf, x.call = i ∧ x.taken = true

/-- The argument is accepted by `buffer`. -/
def Fits (C : Cipher κ) (data : Bytes) : Prop := ¬ (data = [] ∨ data.length % C.cfg.packetsize ≠ 0)

def Ended (C : Cipher κ) (log : List Entry) (data : Nat → Bytes) (closed : Bool) (i : Nat) : BufferReply → Prop
  | .ok => takenIn log i = data i ∧ Fits C (data i) ∧ ∀ x ∈ log, x.call = i → x.taken = true
  | .refused id b rest => takenIn log i ++ (id ++ b ++ rest) = data i ∧ Fits C (data i) ∧ id.length = C.cfg.blockIdBytes ∧ b.length = C.cfg.blocksize ∧
      ∃ pre suf, log = pre ++ ⟨i, id, b, false⟩ :: suf ∧ NoEntry suf i ∧ ∀ x ∈ pre, x.call = i → x.taken = true
  | .raised e => NoEntry log i ∧ ((e = .value ∧ ¬ Fits C (data i)) ∨ (e = .streamClosed ∧ Fits C (data i) ∧ closed = true))

def CallOK (C : Cipher κ) (log : List Entry) (data : Nat → Bytes) (closed : Bool) (i : Nat) : Feeder → Prop
  | .outside => NoEntry log i
  | .inside => NoEntry log i ∧ Fits C (data i)
  | .reading rest => Tail log i ∧ Fits C (data i) ∧ takenIn log i ++ rest = data i ∧ rest.length % C.cfg.packetsize = 0
  | .accepted id b out rest => Tail log i ∧ Fits C (data i) ∧ takenIn log i ++ (id ++ b ++ rest) = data i ∧ rest.length % C.cfg.packetsize = 0 ∧
      id.length = C.cfg.blockIdBytes ∧ b.length = C.cfg.blocksize ∧ out.length = C.cfg.blocksize
  | .leaving r => Ended C log data closed i r
  | .done r => Ended C log data closed i r

variable {log : List Entry} {data : Nat → Bytes} {closed closed' : Bool} {i : Nat}

theorem Ended.mono (h : closed = true → closed' = true) {r : BufferReply} (hr : Ended C log data closed i r) : Ended C log data closed' i r := by
  cases r with
  | ok => exact hr
  | refused id b rest => exact hr
  | raised e =>
    refine ⟨hr.1, ?_⟩
    rcases hr.2 with k | k
    · exact .inl k
    · exact .inr ⟨k.1, k.2.1, h k.2.2⟩

theorem CallOK.mono (h : closed = true → closed' = true) {f : Feeder} (hr : CallOK C log data closed i f) : CallOK C log data closed' i f := by
  cases f with
  | leaving r => exact Ended.mono h hr
  | done r => exact Ended.mono h hr
  | outside => exact hr
  | inside => exact hr
  | reading rest => exact hr
  | accepted a b c d => exact hr

theorem NoEntry.snoc (h : NoEntry log i) {x : Entry} (hx : x.call ≠ i) : NoEntry (log ++ [x]) i := by
  intro y hy
  rcases List.mem_append.1 hy with hy | hy
  · exact h y hy
  · rw [List.mem_singleton.1 hy]; exact hx

theorem CallOK.other {f : Feeder} (hf : f.within = false) {x : Entry} (hx : x.call ≠ i) (h : CallOK C log data closed i f) :
    CallOK C (log ++ [x]) data closed i f := by
  cases f with
  | outside => exact NoEntry.snoc h hx
  | done r =>
    cases r with
    | ok =>
      refine ⟨by rw [takenIn_other hx]; exact h.1, h.2.1, ?_⟩
      intro y hy e
      rcases List.mem_append.1 hy with hy | hy
      · exact h.2.2 y hy e
      · rw [List.mem_singleton.1 hy] at e; exact absurd e hx
    | refused id b rest =>
      obtain ⟨h1, h0, h2, h3, pre, suf, h4, h5, h6⟩ := h
      exact ⟨by rw [takenIn_other hx]; exact h1, h0, h2, h3, pre, suf ++ [x], by simp [h4], NoEntry.snoc h5 hx, h6⟩
    | raised e => exact ⟨NoEntry.snoc h.1 hx, h.2⟩
  | inside => cases hf
  | reading rest => cases hf
  | accepted a b c d => cases hf
  | leaving r => cases hf

theorem Tail.snoc (h : Tail log i) (id b : Bytes) : Tail (log ++ [⟨i, id, b, true⟩]) i := by
  obtain ⟨pre, suf, h1, h2, h3⟩ := h
  refine ⟨pre, suf ++ [⟨i, id, b, true⟩], by simp [h1], h2, ?_⟩
  intro y hy
  rcases List.mem_append.1 hy with hy | hy
  · exact h3 y hy
  · rw [List.mem_singleton.1 hy]; exact ⟨rfl, rfl⟩

theorem NoEntry.tail (h : NoEntry log i) : Tail log i := ⟨log, [], by simp, h, by simp⟩

theorem Tail.taken (h : Tail log i) : ∀ x ∈ log, x.call = i → x.taken = true := by
  obtain ⟨pre, suf, rfl, h2, h3⟩ := h
  intro x hx e
  rcases List.mem_append.1 hx with hx | hx
  · exact absurd e (h2 x hx)
  · exact (h3 x hx).2

def GroupedLog (log : List Entry) : Prop :=
  ∀ before x between y after, log = before ++ x :: between ++ y :: after → x.call = y.call → ∀ z ∈ between, z.call = x.call

theorem GroupedLog.snoc (h : GroupedLog log) (ht : Tail log i) {e : Entry} (he : e.call = i) : GroupedLog (log ++ [e]) := by
  intro before x between y after h1 h2 z hz
  rcases List.eq_nil_or_concat after with rfl | ⟨after, a, rfl⟩
  · have h3 : log = before ++ x :: between ∧ [e] = [y] := List.append_inj' (by simpa using h1) rfl
    obtain ⟨h3, h4⟩ := h3
    cases h4
    obtain ⟨pre, suf, h5, h6, h7⟩ := ht
    rw [h3] at h5
    rcases List.append_eq_append_iff.1 h5 with ⟨c, h8, h9⟩ | ⟨c, h8, h9⟩
    · cases c with
      | nil => simp only [List.nil_append] at h9; rw [h2, he]; exact (h7 z (h9 ▸ List.mem_cons_of_mem _ hz)).1
      | cons w c =>
        injection h9 with h9 h10
        subst h9
        exact absurd (h2.trans he) (h6 x (by rw [h8]; simp))
    · rw [h2, he]
      exact (h7 z (by rw [h9]; exact List.mem_append_right _ (List.mem_cons_of_mem _ hz))).1
  · have h3 : log = before ++ x :: between ++ y :: after ∧ [e] = [a] := List.append_inj' (by simpa using h1) rfl
    exact h before x between y after h3.1 h2 z hz

/-! ### the guard -/

structure Users (s : State κ) : Prop where
  feeder : ∀ i, s.owner = some (.feeder i) ↔ (s.feeder i).within = true
  taker : s.owner = some (.taker 0) ↔ (s.taker 0).holds = true

theorem Users.unique (h : Users s) {i j : Nat} (hi : (s.feeder i).within = true) (hj : (s.feeder j).within = true) : i = j := by
  have h1 := (h.feeder i).2 hi
  have h2 := (h.feeder j).2 hj
  rw [h1] at h2; injection h2 with h2; injection h2

theorem Users.free (h : Users s) {i : Nat} (hi : (s.feeder i).within = true) : (s.taker 0).holds = false := by
  cases ht : (s.taker 0).holds
  · rfl
  · have h1 := (h.feeder i).2 hi
    rw [h.taker.2 ht] at h1; cases h1

theorem Users.others (h : Users s) (ht : (s.taker 0).holds = true) (i : Nat) : (s.feeder i).within = false := by
  cases hi : (s.feeder i).within
  · rfl
  · rw [h.free hi] at ht; cases ht

theorem within_of_pending {f : Feeder} (h : f.pending = true) : f.within = true := by cases f <;> simp_all [Feeder.pending, Feeder.within]

theorem within_of_digests {f : Feeder} (h : f.digests = true) : f.within = true := by cases f <;> simp_all [Feeder.digests, Feeder.within]

theorem Sess.plain (hu : Users s) {i : Nat} (hi : (s.feeder i).within = true) (hp : (s.feeder i).pending = false) (h : Sess C s q) :
    s.stream.session = q.session := by
  rcases h with ⟨j, id, b, out, rest, h1, h2⟩ | h
  · have := hu.unique hi (j := j) (by rw [h1]; rfl)
    subst this
    rw [h1] at hp; cases hp
  · exact h.2

theorem Sess.move {i : Nat} {g : Feeder} (h : Sess C s q) (hi : (s.feeder i).pending = false) (hg : g.pending = false)
    (e1 : s'.feeder = upd s.feeder i g) (e2 : s'.stream.session = s.stream.session) : Sess C s' q := by
  rcases h with ⟨j, id, b, out, rest, h1, h2⟩ | h
  · refine .inl ⟨j, id, b, out, rest, ?_, by rw [e2]; exact h2⟩
    have : j ≠ i := by rintro rfl; rw [h1] at hi; cases hi
    rw [e1]; simp [upd, this, h1]
  · refine .inr ⟨?_, by rw [e2]; exact h.2⟩
    intro j
    rw [e1]
    by_cases hj : j = i
    · simp [upd, hj, hg]
    · simp [upd, hj, h.1 j]

structure Inv (C : Cipher κ) (T : Int → Prop) (dst : DecipherStream κ) (s : State κ) : Prop where
  users : Users s
  call : ∀ i, CallOK C s.log s.data s.stream.closed i (s.feeder i)
  grouped : GroupedLog s.log
  sim : ∃ calls q f, Sim C T dst s calls q f

/-! ### steps of the calls of `buffer` -/

theorem accepts (S : Sound C) (hs : Streamable C.cfg) {r : Ratchet κ} (hr : r.WF C) {id b : Bytes} (h1 : id.length = C.cfg.blockIdBytes)
    (h2 : b.length = C.cfg.blocksize) :
    C.accept (r.session true .decryption) id b = .error .invalidBlockID ∨
      ∃ (P : Bytes) (r' : Ratchet κ), r'.WF C ∧ P.length = C.cfg.blocksize ∧ C.accept (r.session true .decryption) id b = .ok (P, r'.session true .decryption) := by
  obtain ⟨P, X, r', h, rfl⟩ := step_of S hr .decryption h2
  rw [accept_step hs h true h1]
  by_cases he : id = blockIdOf C.toEnv r.cur b
  · rw [if_pos he]; exact .inr ⟨P, r', h.wf, h.plain, rfl⟩
  · rw [if_neg he]; exact .inl rfl

theorem Rel.sess {t : Taker} (ht : t.holds = false) (h : Rel C T st hp ss q f t) : ss := by
  cases t with
  | ready e => exact h.2.1.2
  | yielded => exact h.2.1.2
  | entering fin => cases (show fin = false from ht); exact h.2.1.2
  | marking fin => cases (show fin = false from ht); exact h.2.1.2
  | testing fin => cases (show fin = false from ht); exact h.2.1.2
  | expired fin e => cases (show fin = false from ht); exact h.2.1.2
  | trimming fin => cases (show fin = false from ht); exact h.2.1.2
  | cutting fin => cases (show fin = false from ht); exact h.2.1.2
  | taking fin => cases (show fin = false from ht); exact h.1.2
  | popping fin => cases (show fin = false from ht); exact h.1.2
  | waiting => exact h.2.2.2.1
  | ending => cases ht
  | flushing => cases ht

/-- An open stream is open in both. -/
theorem Rel.open {t : Taker} (h : Rel C T st hp ss q f t) (hc : st.closed = false) : q.closed = false := by
  have P : ∀ {fin : Bool}, Phase C st ss q fin → q.closed = false := by
    intro fin h
    cases fin
    · rw [← h.1]; exact hc
    · rw [h.1] at hc; cases hc
  cases t with
  | ready e => exact P h.2.1
  | yielded => exact P h.2.1
  | entering fin => exact P h.2.1
  | marking fin => exact P h.2.1
  | testing fin => exact P h.2.1
  | expired fin e => exact P h.2.1
  | trimming fin => exact P h.2.1
  | cutting fin => exact P h.2.1
  | taking fin => exact P h.1
  | popping fin => exact P h.1
  | waiting => exact h.2.2.1
  | ending => exact h.2.2.1
  | flushing => exact P h.1

theorem upd_self' {α : Type} (f : Nat → α) (k : Nat) (a : α) : upd f k a k = a := by simp [upd]

theorem upd_other {α : Type} (f : Nat → α) {k n : Nat} (a : α) (h : n ≠ k) : upd f k a n = f n := by simp [upd, h]

theorem Users.keep (h : Users s) {i : Nat} {g : Feeder} (hg : g.within = (s.feeder i).within) (e1 : s'.feeder = upd s.feeder i g) (e2 : s'.owner = s.owner)
    (e3 : s'.taker = s.taker) : Users s' := by
  refine ⟨?_, by rw [e2, e3]; exact h.taker⟩
  intro j
  rw [e2, e1, h.feeder j]
  by_cases hj : j = i
  · subst hj; simp [upd, hg]
  · simp [upd, hj]

/-- A step of a call that changes neither the stream nor what was read. -/
theorem Inv.still (h : Inv C T dst s) {i : Nat} {g : Feeder} (hi : (s.feeder i).pending = false) (hg : g.pending = false)
    (hd : ∀ calls q f, Sim C T dst s calls q f → g.digests = true → q.closed = false) (hu : Users s') (e1 : s'.feeder = upd s.feeder i g)
    (e2 : s'.stream = s.stream) (e3 : s'.taker = s.taker) (e4 : s'.out = s.out) (e5 : s'.log = s.log) (e6 : s'.data = s.data)
    (hc : CallOK C s.log s.data s.stream.closed i g) : Inv C T dst s' := by
  refine ⟨hu, ?_, by rw [e5]; exact h.grouped, ?_⟩
  · intro j
    rw [e5, e6, e2, e1]
    by_cases hj : j = i
    · subst hj; rw [upd_self']; exact hc
    · rw [upd_other _ _ hj]; exact h.call j
  · obtain ⟨calls, q, f, hs⟩ := h.sim
    refine ⟨calls, q, f, hs.still e2 (by rw [e3]) e4 e5 (fun k => k.move hi hg e1 (by rw [e2])) ?_⟩
    intro j hj
    rw [e1] at hj
    by_cases hj' : j = i
    · subst hj'; rw [upd_self'] at hj; exact hd _ _ _ hs hj
    · rw [upd_other _ _ hj'] at hj; exact hs.busy j hj

theorem Inv.feed (S : Sound C) (hs : Streamable C.cfg) (h : Inv C T dst s) (i : Nat) : Inv C T dst (s.feed C i) := by
  have hci := h.call i
  rcases hf : s.feeder i with _ | _ | rest | ⟨id, b, out, rest⟩ | r | r
  · -- outside
    rw [hf] at hci
    simp only [State.feed, hf]
    by_cases hbad : s.data i = [] ∨ (s.data i).length % C.cfg.packetsize ≠ 0
    · rw [if_pos hbad]
      refine h.still (i := i) (g := .done (.raised .value)) (by rw [hf]; rfl) rfl (fun _ _ _ _ e => by cases e)
        (h.users.keep (i := i) (g := .done (.raised .value)) (by rw [hf]; rfl) rfl rfl rfl) rfl rfl rfl rfl rfl rfl ?_
      exact ⟨hci, .inl ⟨rfl, not_not_intro hbad⟩⟩
    · rw [if_neg hbad]
      by_cases ho : s.owner = none
      · rw [if_pos ho]
        refine h.still (i := i) (g := .inside) (by rw [hf]; rfl) rfl (fun _ _ _ _ e => by cases e) ⟨?_, ?_⟩ rfl rfl rfl rfl rfl rfl ⟨hci, hbad⟩
        · intro j
          by_cases hj : j = i
          · subst hj; simp [State.setFeeder, upd, Feeder.within]
          · have := h.users.feeder j
            rw [ho] at this
            simp only [reduceCtorEq, false_iff, Bool.not_eq_true] at this
            simp [State.setFeeder, upd, hj, this, Ne.symm hj]
        · have := h.users.taker
          rw [ho] at this
          simp only [reduceCtorEq, false_iff, Bool.not_eq_true] at this
          simp [State.setFeeder, this]
      · rw [if_neg ho]; exact h
  · -- inside
    rw [hf] at hci
    simp only [State.feed, hf]
    by_cases hc : s.stream.closed = true
    · rw [if_pos hc]
      refine h.still (i := i) (g := .leaving (.raised .streamClosed)) (by rw [hf]; rfl) rfl (fun _ _ _ _ e => by cases e)
        (h.users.keep (i := i) (g := .leaving (.raised .streamClosed)) (by rw [hf]; rfl) rfl rfl rfl) rfl rfl rfl rfl rfl rfl ?_
      exact ⟨hci.1, .inr ⟨rfl, hci.2, hc⟩⟩
    · rw [if_neg hc]
      have hc : s.stream.closed = false := by simpa using hc
      refine h.still (i := i) (g := .reading (s.data i)) (by rw [hf]; rfl) rfl (fun _ _ _ k _ => k.rel.open hc)
        (h.users.keep (i := i) (g := .reading (s.data i)) (by rw [hf]; rfl) rfl rfl rfl) rfl rfl rfl rfl rfl rfl ?_
      refine ⟨hci.1.tail, hci.2, by rw [takenIn_none hci.1]; rfl, ?_⟩
      have := hci.2
      simp only [Fits, not_or, not_not, ne_eq] at this
      exact this.2
  · -- reading
    rw [hf] at hci
    obtain ⟨k1, k2, k3, k4⟩ := hci
    have hw : (s.feeder i).within = true := by rw [hf]; rfl
    simp only [State.feed, hf]
    by_cases he : rest.take C.cfg.blockIdBytes = []
    · rw [if_pos he]
      have hr : rest = [] := by
        have := hs.id_pos
        rcases List.take_eq_nil_iff.1 he with e | e
        · omega
        · exact e
      refine h.still (i := i) (g := .leaving .ok) (by rw [hf]; rfl) rfl (fun _ _ _ _ e => by cases e)
        (h.users.keep (i := i) (g := .leaving .ok) (by rw [hf]; rfl) rfl rfl rfl) rfl rfl rfl rfl rfl rfl ?_
      refine ⟨?_, k2, k1.taken⟩
      rw [hr] at k3; simpa using k3
    · rw [if_neg he]
      have hlen : C.cfg.packetsize ≤ rest.length := by
        apply Classical.byContradiction
        intro hlt
        have h0 : rest.length = 0 := by rw [← k4, Nat.mod_eq_of_lt (by omega)]
        exact he (by rw [List.length_eq_zero_iff.1 h0]; simp)
      have hps : C.cfg.packetsize = C.cfg.blockIdBytes + C.cfg.blocksize := rfl
      have l1 : (rest.take C.cfg.blockIdBytes).length = C.cfg.blockIdBytes := by rw [List.length_take]; omega
      have l2 : ((rest.drop C.cfg.blockIdBytes).take C.cfg.blocksize).length = C.cfg.blocksize := by
        rw [List.length_take, List.length_drop]; omega
      have l3 : ((rest.drop C.cfg.blockIdBytes).drop C.cfg.blocksize).length % C.cfg.packetsize = 0 := by
        rw [List.length_drop, List.length_drop, Nat.sub_sub, ← hps, ← Nat.mod_eq_sub_mod hlen]; exact k4
      have hsplit : rest = rest.take C.cfg.blockIdBytes ++ ((rest.drop C.cfg.blockIdBytes).take C.cfg.blocksize ++ (rest.drop C.cfg.blockIdBytes).drop C.cfg.blocksize) := by
        rw [List.take_append_drop, List.take_append_drop]
      generalize rest.take C.cfg.blockIdBytes = id at *
      generalize (rest.drop C.cfg.blockIdBytes).take C.cfg.blocksize = b at *
      generalize (rest.drop C.cfg.blockIdBytes).drop C.cfg.blocksize = more at *
      obtain ⟨calls, q, f, sim⟩ := h.sim
      have hq : q.closed = false := sim.busy i (by rw [hf]; rfl)
      have hfree := h.users.free hw
      have hsess : s.stream.session = q.session := (sim.rel.sess hfree).plain h.users hw (by rw [hf]; rfl)
      obtain ⟨r, hr, hqr⟩ := sim.live hq
      rcases accepts S hs hr l1 l2 with hacc | ⟨P, r', hr', hP, hacc⟩
      · -- refused
        rw [hsess, hqr, hacc]
        have D := digest_one hs (q := q) l1 l2 hq
        rw [hqr, hacc] at D
        have X := execAll_snoc (C := C) dst calls (.buffer (id ++ b))
        rw [sim.exec, D] at X
        have ep : State.hasPacket ({ s.setFeeder i (.leaving (.refused id b more)) with log := s.log ++ [⟨i, id, b, false⟩] } : State κ) ↔ s.hasPacket := by
          simp [State.hasPacket, or_and_right, exists_or]
        refine ⟨h.users.keep (i := i) (g := .leaving (.refused id b more)) (by rw [hf]; rfl) rfl rfl rfl, ?_, h.grouped.snoc k1 rfl, calls ++ [.buffer (id ++ b)], q, f, ?_⟩
        · intro j
          show CallOK C (s.log ++ [_]) s.data s.stream.closed j (upd s.feeder i _ j)
          by_cases hj : j = i
          · subst hj
            rw [upd_self']
            refine ⟨?_, k2, l1, l2, s.log, [], rfl, by simp [NoEntry], k1.taken⟩
            rw [takenIn_refused, ← k3, hsplit]; simp
          · rw [upd_other _ _ hj]
            refine CallOK.other ?_ (Ne.symm hj) (h.call j)
            cases hwj : (s.feeder j).within
            · rfl
            · exact absurd (h.users.unique hwj hw) hj
        · refine ⟨by rw [X], ?_, ?_, ?_, ?_, sim.live, ?_, sim.ttl, sim.trim, fun a c => sim.keep a (ep.1 c), fun a c => ep.2 (sim.seen a c), fun a => ep.2 (sim.packet a), ?_⟩
          · intro c hc
            rcases List.mem_append.1 hc with hc | hc
            · exact sim.time c hc
            · rw [List.mem_singleton.1 hc]; trivial
          · rw [X, heard_append _ _ _ _ (length_execAll calls dst).symm, sim.heard]
            simp [State.heard, heard]
          · rw [X]
            have := sim.outs
            simp only [State.outs] at this
            simp [State.outs, State.setFeeder, this]
          · intro e he
            rw [X]
            rcases sim.errs e he with k | ⟨rr, k, kk⟩
            · exact .inl k
            · exact .inr ⟨rr, List.mem_append_left _ k, kk⟩
          · intro _ _; exact hq
          · refine sim.rel.mono ep.2 ?_
            exact fun k => k.move (i := i) (g := .leaving (.refused id b more)) (by rw [hf]; rfl) rfl rfl rfl
      · -- accepted
        rw [hsess, hqr, hacc]
        refine ⟨h.users.keep (i := i) (g := .accepted id b P more) (by rw [hf]; rfl) rfl rfl rfl, ?_, h.grouped, calls, q, f, ?_⟩
        · intro j
          show CallOK C s.log s.data s.stream.closed j (upd s.feeder i _ j)
          by_cases hj : j = i
          · subst hj
            rw [upd_self']
            refine ⟨k1, k2, ?_, l3, l1, l2, hP⟩
            rw [← k3, hsplit]; simp
          · rw [upd_other _ _ hj]; exact h.call j
        · refine ⟨sim.exec, sim.time, sim.heard, sim.outs, sim.errs, sim.live, fun _ _ => hq, sim.ttl, sim.trim, sim.keep, sim.seen, sim.packet, ?_⟩
          refine sim.rel.session hfree _ (.inl ⟨i, id, b, P, more, ?_, ?_⟩)
          · simp [State.setFeeder, upd]
          · rw [hqr, hacc]
  · -- accepted
    rw [hf] at hci
    obtain ⟨k1, k2, k3, k4, l1, l2, l3⟩ := hci
    have hw : (s.feeder i).within = true := by rw [hf]; rfl
    simp only [State.feed, hf]
    obtain ⟨calls, q, f, sim⟩ := h.sim
    have hq : q.closed = false := sim.busy i (by rw [hf]; rfl)
    have hfree := h.users.free hw
    have hacc : C.accept q.session id b = .ok (out, s.stream.session) := by
      rcases sim.rel.sess hfree with ⟨j, id', b', out', rest', h1, h2⟩ | ⟨h1, -⟩
      · have := h.users.unique hw (j := j) (by rw [h1]; rfl)
        subst this
        rw [hf] at h1
        cases h1
        exact h2
      · have := h1 i
        rw [hf] at this; cases this
    have D := digest_one hs (q := q) l1 l2 hq
    rw [hacc] at D
    have X := execAll_snoc (C := C) dst calls (.buffer (id ++ b))
    rw [sim.exec, D] at X
    obtain ⟨r, hr, hqr⟩ := sim.live hq
    have hnew : ∃ r' : Ratchet κ, r'.WF C ∧ s.stream.session = r'.session true .decryption := by
      rcases accepts S hs hr l1 l2 with ha | ⟨P, r', hr', -, ha⟩
      · rw [hqr, ha] at hacc; cases hacc
      · rw [hqr, ha] at hacc
        injection hacc with hacc
        injection hacc with _ hacc
        exact ⟨r', hr', hacc.symm⟩
    have hp' : State.hasPacket ({ (s.setQueue (s.stream.queue ++ [out])).setFeeder i (.reading rest) with log := s.log ++ [⟨i, id, b, true⟩] } : State κ) :=
      ⟨⟨i, id, b, true⟩, by simp, rfl⟩
    refine ⟨h.users.keep (i := i) (g := .reading rest) (by rw [hf]; rfl) rfl rfl rfl, ?_, h.grouped.snoc k1 rfl, calls ++ [.buffer (id ++ b)],
      { q with session := s.stream.session, queue := q.queue ++ [out] }, f, ?_⟩
    · intro j
      show CallOK C (s.log ++ [_]) s.data s.stream.closed j (upd s.feeder i _ j)
      by_cases hj : j = i
      · subst hj
        rw [upd_self']
        refine ⟨k1.snoc id b, k2, ?_, k4⟩
        rw [takenIn_taken, ← k3]; simp
      · rw [upd_other _ _ hj]
        refine CallOK.other ?_ (Ne.symm hj) (h.call j)
        cases hwj : (s.feeder j).within
        · rfl
        · exact absurd (h.users.unique hwj hw) hj
    · refine ⟨by rw [X], ?_, ?_, ?_, ?_, fun _ => hnew, fun _ _ => hq, sim.ttl, ?_, fun _ _ => by simp, fun _ _ => hp', fun _ => hp', ?_⟩
      · intro c hc
        rcases List.mem_append.1 hc with hc | hc
        · exact sim.time c hc
        · rw [List.mem_singleton.1 hc]; trivial
      · rw [X, heard_append _ _ _ _ (length_execAll calls dst).symm, sim.heard]
        simp [State.heard, heard]
      · rw [X]
        have := sim.outs
        simp only [State.outs] at this
        simp [State.outs, State.setFeeder, State.setQueue, this]
      · intro e he
        rw [X]
        rcases sim.errs e he with k | ⟨rr, k, kk⟩
        · exact .inl k
        · exact .inr ⟨rr, List.mem_append_left _ k, kk⟩
      · rcases sim.trim with k | k
        · exact .inl k
        · refine .inr ⟨k.1, ?_⟩
          intro x hx
          rcases List.mem_append.1 hx with hx | hx
          · exact k.2 x hx
          · rw [List.mem_singleton.1 hx]; exact l3
      · refine sim.rel.append hfree _ out hp' (.inr ⟨?_, rfl⟩)
        intro j
        show (upd s.feeder i _ j).pending = false
        by_cases hj : j = i
        · subst hj; rw [upd_self']; rfl
        · rw [upd_other _ _ hj]
          cases hwj : (s.feeder j).pending
          · rfl
          · exact absurd (h.users.unique (within_of_pending hwj) hw) hj
  · -- leaving
    rw [hf] at hci
    have hw : (s.feeder i).within = true := by rw [hf]; rfl
    simp only [State.feed, hf]
    refine h.still (i := i) (g := .done r) (by rw [hf]; rfl) rfl (fun _ _ _ _ e => by cases e) ⟨?_, ?_⟩ rfl rfl rfl rfl rfl rfl hci
    · intro j
      simp only [reduceCtorEq, false_iff, Bool.not_eq_true]
      show (upd s.feeder i _ j).within = false
      by_cases hj : j = i
      · subst hj; rw [upd_self']; rfl
      · rw [upd_other _ _ hj]
        cases hwj : (s.feeder j).within
        · rfl
        · exact absurd (h.users.unique hwj hw) hj
    · have := h.users.free hw
      simp [State.setFeeder, this]
  · simp only [State.feed, hf]; exact h

/-! ### steps of the taker -/

theorem Users.same (h : Users s) {t : Taker} (ht : t.holds = (s.taker 0).holds) (e1 : s'.feeder = s.feeder) (e2 : s'.owner = s.owner)
    (e3 : s'.taker = upd s.taker 0 t) : Users s' := by
  refine ⟨by rw [e1, e2]; exact h.feeder, ?_⟩
  rw [e2, e3, upd_self', ht]; exact h.taker

theorem Users.release (h : Users s) {t : Taker} (h0 : (s.taker 0).holds = true) (ht : t.holds = false) (e1 : s'.feeder = s.feeder) (e2 : s'.owner = none)
    (e3 : s'.taker = upd s.taker 0 t) : Users s' := by
  refine ⟨?_, ?_⟩
  · intro i; rw [e1, e2, h.others h0 i]; simp
  · rw [e2, e3, upd_self', ht]; simp

theorem Inv.taker (h : Inv C T dst s) (hu : Users s') (e1 : s'.feeder = s.feeder) (e2 : s'.log = s.log) (e3 : s'.data = s.data)
    (hc : s.stream.closed = true → s'.stream.closed = true) (hs : ∃ calls q f, Sim C T dst s' calls q f) : Inv C T dst s' :=
  ⟨hu, fun i => by rw [e1, e2, e3]; exact (h.call i).mono hc, by rw [e2]; exact h.grouped, hs⟩

theorem Sess.copy (h : Sess C s q) (e1 : s'.feeder = s.feeder) (e2 : s'.stream.session = s.stream.session) : Sess C s' q := by
  unfold Sess at *
  rw [e1, e2]; exact h

theorem sess_free (hu : Users s) (ht : (s.taker 0).holds = true) (e1 : s'.feeder = s.feeder) (e2 : s'.stream.session = q.session) : Sess C s' q := by
  refine .inr ⟨?_, e2⟩
  intro i
  rw [e1]
  cases hp : (s.feeder i).pending
  · rfl
  · rw [← hu.others ht i]; exact (within_of_pending hp).symm

/-- A step that is not the end of a call. -/
theorem Sim.step (h : Sim C T dst s calls q f) (e1 : s'.feeder = s.feeder) (e2 : s'.out = s.out) (e3 : s'.log = s.log) (e4 : s'.stream.ttl = s.stream.ttl)
    (he : ∀ e, s'.taker 0 = .ready (some e) → (e = .streamClosed ∧ s'.stream.closed = true))
    (hr : Rel C T s'.stream s'.hasPacket (Sess C s' q) q f (s'.taker 0)) : Sim C T dst s' calls q f := by
  have ep : s'.hasPacket ↔ s.hasPacket := by simp [State.hasPacket, e3]
  refine ⟨h.exec, h.time, ?_, ?_, ?_, h.live, ?_, ?_, h.trim, fun a b => h.keep a (ep.1 b), fun a b => ep.2 (h.seen a b), fun a => ep.2 (h.packet a), hr⟩
  · rw [h.heard]; simp [State.heard, e3]
  · rw [State.outs, e2]; exact h.outs
  · intro e h'; exact .inl (he e h')
  · intro i hi; rw [e1] at hi; exact h.busy i hi
  · rw [e4]; exact h.ttl

/-- The end of a call of the taker. -/
theorem Sim.next (h : Sim C T dst s calls q f) {c : UnstreamCall} {r : UnstreamReply} {q' : DecipherStream κ} (hc : q.exec C c = (r, q')) (hT : c.At T)
    (hh : SharedDec.heard [c] [r] = []) (hr0 : r.refusal = none) (e1 : s'.feeder = s.feeder)
    (e2 : s'.out = s.out ++ (r.outs.drop f.length).map (fun b => (0, b))) (hpre : f <+: r.outs) (e3 : s'.log = s.log) (e4 : s'.stream.ttl = s.stream.ttl)
    (e5 : q'.ttl = q.ttl) (he : ∀ e, s'.taker 0 = .ready (some e) → r.err = some e)
    (live : q'.closed = false → q'.session = q.session ∧ q.closed = false) (busy : ∀ i, (s.feeder i).digests = true → q'.closed = false)
    (trim : q'.bytesToTrim = 0 ∨ (q'.bytesToTrim = C.cfg.innerHeaderBytes ∧ ∀ b ∈ q'.queue, b.length = C.cfg.blocksize))
    (keep : q'.bytesToTrim ≠ 0 ∨ q'.isStreaming = false → s.hasPacket → q'.queue ≠ [])
    (seen : q'.closed = false → q'.isStreaming = true → s.hasPacket) (packet : q'.queue ≠ [] → s.hasPacket)
    (hr : Rel C T s'.stream s'.hasPacket (Sess C s' q') q' [] (s'.taker 0)) : Sim C T dst s' (calls ++ [c]) q' [] := by
  have ep : s'.hasPacket ↔ s.hasPacket := by simp [State.hasPacket, e3]
  have X := execAll_snoc (C := C) dst calls c
  rw [h.exec, hc] at X
  refine ⟨by rw [X], ?_, ?_, ?_, ?_, ?_, ?_, ?_, trim, fun a b => keep a (ep.1 b), fun a b => ep.2 (seen a b), fun a => ep.2 (packet a), hr⟩
  · intro x hx
    rcases List.mem_append.1 hx with hx | hx
    · exact h.time x hx
    · rw [List.mem_singleton.1 hx]; exact hT
  · rw [X, heard_append _ _ _ _ (length_execAll calls dst).symm, hh, h.heard]
    simp [State.heard, e3]
  · rw [X]
    obtain ⟨t, ht⟩ := hpre
    have hd : r.outs.drop f.length = t := by rw [← ht]; simp
    have ho := h.outs
    rw [State.outs] at ho
    rw [State.outs, e2, hd, List.map_append, ho]
    simp [← ht]
  · intro e h'
    rw [X]
    exact .inr ⟨r, by simp, he e h', hr0⟩
  · intro k
    obtain ⟨k1, k2⟩ := live k
    rw [k1]; exact h.live k2
  · intro i hi; rw [e1] at hi; exact busy i hi
  · rw [e4, e5]; exact h.ttl

theorem trim_one {n : Nat} {b : Bytes} {rest : List Bytes} (h0 : n ≠ 0) (h1 : n ≤ b.length) :
    DecipherStream.trim n (b :: rest) = (0, if b.drop n = [] then rest else b.drop n :: rest) := by
  cases n with
  | zero => exact absurd rfl h0
  | succ n =>
    simp only [DecipherStream.trim]
    have : n + 1 - (b.take (n + 1)).length = 0 := by rw [List.length_take]; omega
    rw [this]
    split
    · simp [DecipherStream.trim]
    · rfl

theorem Passes.packet (h : Sim C T dst s calls q f) (hq : q.closed = false ∨ s.hasPacket) {now : Int} (hp : Passes C q now) : s.hasPacket := by
  rcases hq with hq | hq
  · rcases hp with hp | ⟨a, b, hp, -⟩
    · exact h.seen hq hp
    · exact h.packet (by rw [hp]; simp)
  · exact hq

theorem Inv.next (h : Inv C T dst s) (hp : s.hasPacket) : Inv C T dst (s.next 0) := by
  obtain ⟨calls, q, f, sim⟩ := h.sim
  have hrel := sim.rel
  unfold State.next
  rcases ht : s.taker 0 with e | _ | _ | _ | _ | _ | _ | _ | _ | _ | _ | _ | _ <;> simp only [] <;> try exact h
  · rw [ht] at hrel
    refine h.taker (h.users.same (t := .entering false) (by rw [ht]; rfl) rfl rfl rfl) rfl rfl rfl id ⟨calls, q, f, sim.step rfl rfl rfl rfl ?_ ?_⟩
    · intro e he; simp [State.setTaker, upd] at he
    · simp only [State.setTaker, upd_self']
      exact ⟨hrel.1, ⟨hrel.2.1.1, hrel.2.1.2.copy rfl rfl⟩, hrel.2.2.1, hrel.2.2.2, fun _ => hp⟩
  · rw [ht] at hrel
    refine h.taker (h.users.same (t := .entering false) (by rw [ht]; rfl) rfl rfl rfl) rfl rfl rfl id ⟨calls, q, f, sim.step rfl rfl rfl rfl ?_ ?_⟩
    · intro e he; simp [State.setTaker, upd] at he
    · simp only [State.setTaker, upd_self']
      exact ⟨hrel.1, ⟨hrel.2.1.1, hrel.2.1.2.copy rfl rfl⟩, hrel.2.2.1, hrel.2.2.2.1, fun _ => hp⟩

theorem Inv.resume (h : Inv C T dst s) : Inv C T dst (s.resume 0) := by
  obtain ⟨calls, q, f, sim⟩ := h.sim
  have hrel := sim.rel
  unfold State.resume
  rcases ht : s.taker 0 with e | _ | _ | _ | _ | _ | _ | _ | _ | _ | _ | _ | _ <;> simp only [] <;> try exact h
  rw [ht] at hrel
  obtain ⟨h1, h2, h3, h4, h5, h6, h7⟩ := hrel
  refine h.taker (h.users.same (t := .taking false) (by rw [ht]; rfl) rfl rfl rfl) rfl rfl rfl id ⟨calls, q, f, sim.step rfl rfl rfl rfl ?_ ?_⟩
  · intro e he; simp [State.setTaker, upd] at he
  · simp only [State.setTaker, upd_self']
    refine ⟨⟨h2.1, h2.2.copy rfl rfl⟩, by rw [h3]; exact h5, h7, by rw [h4.1, h6], ?_, fun _ => h1, .inl h1⟩
    rw [h6, h1, h4.2]; simp [DecipherStream.trim]

theorem Inv.finalize (h : Inv C T dst s) : Inv C T dst (s.finalize 0) := by
  obtain ⟨calls, q, f, sim⟩ := h.sim
  have hrel := sim.rel
  have key : (∃ e, s.taker 0 = .ready e) ∨ s.taker 0 = .yielded →
      Inv C T dst (if s.stream.closed then s.setTaker 0 (.ready (some .streamClosed)) else { s.setTaker 0 .waiting with stream := { s.stream with closed := true } }) := by
    intro hk
    have hh : (s.taker 0).holds = false := by rcases hk with ⟨e, hk⟩ | hk <;> rw [hk] <;> rfl
    have hr : f = [] ∧ Phase C s.stream (Sess C s q) q false ∧ s.stream.isStreaming = q.isStreaming ∧ Alike s.stream q := by
      rcases hk with ⟨e, hk⟩ | hk <;> rw [hk] at hrel
      · exact hrel
      · exact ⟨hrel.1, hrel.2.1, hrel.2.2.1, hrel.2.2.2.1⟩
    by_cases hc : s.stream.closed = true
    · rw [if_pos hc]
      refine h.taker (h.users.same (t := .ready (some .streamClosed)) (by rw [hh]; rfl) rfl rfl rfl) rfl rfl rfl id ⟨calls, q, f, sim.step rfl rfl rfl rfl ?_ ?_⟩
      · intro e he
        simp only [State.setTaker, upd_self'] at he
        cases he
        exact ⟨rfl, hc⟩
      · simp only [State.setTaker, upd_self']
        exact ⟨hr.1, ⟨hr.2.1.1, hr.2.1.2.copy rfl rfl⟩, hr.2.2.1, hr.2.2.2⟩
    · rw [if_neg hc]
      refine h.taker (h.users.same (t := .waiting) (by rw [hh]; rfl) rfl rfl rfl) rfl rfl rfl (fun _ => rfl) ⟨calls, q, f, sim.step rfl rfl rfl rfl ?_ ?_⟩
      · intro e he; simp [State.setTaker, upd] at he
      · simp only [State.setTaker, upd_self']
        exact ⟨hr.1, rfl, by rw [← hr.2.1.1]; simpa using hc, hr.2.1.2.copy rfl rfl, hr.2.2.1, hr.2.2.2⟩
  unfold State.finalize
  rcases ht : s.taker 0 with e | _ | _ | _ | _ | _ | _ | _ | _ | _ | _ | _ | _ <;> simp only [] <;> try exact h
  · exact key (.inl ⟨e, ht⟩)
  · exact key (.inr ht)

theorem Phase.copy {fin : Bool} (h : Phase C s.stream (Sess C s q) q fin) (e1 : s'.feeder = s.feeder) (e2 : s'.stream.session = s.stream.session)
    (e3 : s'.stream.closed = s.stream.closed) : Phase C s'.stream (Sess C s' q) q fin := by
  cases fin
  · exact ⟨by rw [e3]; exact h.1, h.2.copy e1 e2⟩
  · exact ⟨by rw [e3]; exact h.1, h.2.1, by rw [e2]; exact h.2.2⟩

/-- A step that changes neither the packets nor the session, and is not the end of a call. -/
theorem Inv.hop (h : Inv C T dst s) (sim : Sim C T dst s calls q f) {t : Taker} (ht : t.holds = (s.taker 0).holds) (hn : ∀ e, t ≠ .ready e)
    (e0 : s'.taker = upd s.taker 0 t) (e1 : s'.feeder = s.feeder) (e2 : s'.owner = s.owner) (e3 : s'.log = s.log) (e4 : s'.data = s.data) (e5 : s'.out = s.out)
    (e6 : s'.stream.closed = s.stream.closed) (e7 : s'.stream.ttl = s.stream.ttl)
    (hr : Rel C T s'.stream s.hasPacket (Sess C s' q) q f t) : Inv C T dst s' := by
  have ep : s'.hasPacket ↔ s.hasPacket := by simp [State.hasPacket, e3]
  refine h.taker (h.users.same ht e1 e2 e0) e1 e3 e4 (by rw [e6]; exact id) ⟨calls, q, f, sim.step e1 e5 e3 e7 ?_ ?_⟩
  · intro e he; rw [e0, upd_self'] at he; exact absurd he (hn _)
  · rw [e0, upd_self']; exact hr.mono ep.2 id

theorem Inv.entering (h : Inv C T dst s) {now : Int} (hT : T now) {fin : Bool} (ht : s.taker 0 = .entering fin) : Inv C T dst (s.go C 0 now) := by
  obtain ⟨calls, q, f, sim⟩ := h.sim
  have hrel := sim.rel
  rw [ht] at hrel
  obtain ⟨h1, h2, h3, h4, h5⟩ := hrel
  simp only [State.go, ht]
  by_cases hst : s.stream.isStreaming = true
  · rw [if_pos hst]
    have hq : q.isStreaming = true := by rw [← h3]; exact hst
    refine h.hop (t := .trimming fin) sim (by rw [ht]; rfl) (by simp) rfl rfl rfl rfl rfl rfl rfl rfl ⟨h1, h2.copy rfl rfl rfl, hst, ⟨now, hT, .inl hq⟩, ?_⟩
    by_cases hb : q.bytesToTrim = 0
    · exact .inl ⟨by rw [← hb]; exact h4.1, by rw [hb, ← h4.2]; simp [DecipherStream.trim, State.setTaker], fun _ => rfl, .inl rfl⟩
    · refine .inr ⟨h4, hb, sim.keep (.inl hb) ?_⟩
      cases fin
      · exact h5 rfl
      · exact sim.seen h2.2.1 hq
  · rw [if_neg hst]
    exact h.hop (t := .marking fin) sim (by rw [ht]; rfl) (by simp) rfl rfl rfl rfl rfl rfl rfl rfl
      ⟨h1, h2.copy rfl rfl rfl, by rw [← h3]; simpa using hst, h4, h5⟩

theorem Inv.marking (h : Inv C T dst s) {now : Int} {fin : Bool} (ht : s.taker 0 = .marking fin) : Inv C T dst (s.go C 0 now) := by
  obtain ⟨calls, q, f, sim⟩ := h.sim
  have hrel := sim.rel
  rw [ht] at hrel
  obtain ⟨h1, h2, h3, h4, h5⟩ := hrel
  simp only [State.go, ht]
  exact h.hop (t := .testing fin) sim (by rw [ht]; rfl) (by simp) rfl rfl rfl rfl rfl rfl rfl rfl ⟨h1, h2.copy rfl rfl rfl, rfl, h3, h4, h5⟩

/-- The generator of `finalize` ends. -/
theorem Inv.over (h : Inv C T dst s) (sim : Sim C T dst s calls q f) (hh : (s.taker 0).holds = true) {now : Int} (hT : T now)
    {r : UnstreamReply} {q' : DecipherStream κ} (hc : q.exec C (.finalize now) = (r, q')) (hq' : q'.closed = true) (hr0 : r.refusal = none) {t : Option Err}
    (he : ∀ e, t = some e → r.err = some e) (e0 : s'.taker = upd s.taker 0 (.ready t)) (e1 : s'.feeder = s.feeder) (e2 : s'.owner = none) (e3 : s'.log = s.log)
    (e4 : s'.data = s.data) (e5 : s'.out = s.out ++ (r.outs.drop f.length).map (fun b => (0, b))) (hpre : f <+: r.outs)
    (e7 : s'.stream.ttl = s.stream.ttl) (e8 : q'.ttl = q.ttl) (a1 : s'.stream.closed = true) (a2 : s'.stream.session = q'.session)
    (a3 : s'.stream.isStreaming = q'.isStreaming) (a4 : Alike s'.stream q')
    (trim : q'.bytesToTrim = 0 ∨ (q'.bytesToTrim = C.cfg.innerHeaderBytes ∧ ∀ b ∈ q'.queue, b.length = C.cfg.blocksize))
    (keep : q'.bytesToTrim ≠ 0 ∨ q'.isStreaming = false → s.hasPacket → q'.queue ≠ []) (packet : q'.queue ≠ [] → s.hasPacket) : Inv C T dst s' := by
  refine h.taker (h.users.release hh rfl e1 e2 e0) e1 e3 e4 (fun _ => a1) ⟨calls ++ [.finalize now], q', [], ?_⟩
  refine sim.next hc hT rfl hr0 e1 e5 hpre e3 e7 e8 ?_ ?_ ?_ trim keep ?_ packet ?_
  · intro e k; rw [e0, upd_self'] at k; injection k with k; exact he e k
  · intro k; rw [hq'] at k; cases k
  · intro i hi; have := h.users.others hh i; rw [within_of_digests hi] at this; cases this
  · intro k; rw [hq'] at k; cases k
  · rw [e0, upd_self']
    exact ⟨rfl, ⟨by rw [a1, hq'], sess_free h.users hh e1 a2⟩, a3, a4⟩

theorem Inv.testing (h : Inv C T dst s) {now : Int} (hT : T now) {fin : Bool} (ht : s.taker 0 = .testing fin) : Inv C T dst (s.go C 0 now) := by
  obtain ⟨calls, q, f, sim⟩ := h.sim
  have hrel := sim.rel
  rw [ht] at hrel
  obtain ⟨h1, h2, h3, h4, h5, h6⟩ := hrel
  simp only [State.go, ht]
  rcases hqu : s.stream.queue with _ | ⟨first, rest⟩
  · have hq0 : q.queue = [] := by rw [← h5.2]; exact hqu
    cases fin
    · exact absurd hq0 (sim.keep (.inr h4) (h6 rfl))
    · have hno : ¬ s.hasPacket := fun k => sim.keep (.inr h4) k hq0
      obtain ⟨c1, c2, t, shmac, c3, c4⟩ := h2
      have F : q.exec C (.finalize now) = (⟨[], some .index, none⟩, { closing q shmac with isStreaming := true }) := by
        simp only [DecipherStream.exec]
        rw [finalize_shmac now c2 c3, pull_empty now (q := closing q shmac) h4 hq0 (Nat.succ_ne_zero _)]
      refine h.over sim (by rw [ht]; rfl) hT F rfl rfl (t := some .index) (fun _ k => k) rfl rfl rfl rfl rfl ?_ (by rw [h1]) rfl rfl c1 c4 h3
        h5 sim.trim (fun _ k => absurd k hno) sim.packet
      simp [State.raise, State.setTaker]
  · have hqu' : q.queue = first :: rest := by rw [← h5.2]; exact hqu
    simp only []
    rcases hts : Clock.testTimestamp now (C.cfg.timestampSlice.of first) s.stream.ttl .big with e | u
    · refine h.hop (t := .expired fin e) sim (by rw [ht]; rfl) (by simp) rfl rfl rfl rfl rfl rfl rfl rfl ⟨h1, h2.copy rfl rfl rfl, h4, h5, now, hT, first, rest, hqu', ?_⟩
      rw [← sim.ttl, hts]
    · refine h.hop (t := .trimming fin) sim (by rw [ht]; rfl) (by simp) rfl rfl rfl rfl rfl rfl rfl rfl
        ⟨h1, h2.copy rfl rfl rfl, h3, ⟨now, hT, .inr ⟨first, rest, hqu', by rw [← sim.ttl, hts]⟩⟩, ?_⟩
      by_cases hb : q.bytesToTrim = 0
      · exact .inl ⟨by rw [← hb]; exact h5.1, by rw [hb, ← h5.2]; simp [DecipherStream.trim, State.setTaker], fun _ => rfl, .inl rfl⟩
      · exact .inr ⟨h5, hb, by rw [hqu']; simp⟩

theorem Inv.expired (h : Inv C T dst s) {now : Int} {fin : Bool} {e : Err} (ht : s.taker 0 = .expired fin e) : Inv C T dst (s.go C 0 now) := by
  obtain ⟨calls, q, f, sim⟩ := h.sim
  have hrel := sim.rel
  rw [ht] at hrel
  obtain ⟨h1, h2, h3, h4, t0, hT0, h5⟩ := hrel
  simp only [State.go, ht]
  cases fin
  · have F : q.exec C (.pull t0 1) = (⟨[], some e, none⟩, q) := by
      simp only [DecipherStream.exec]
      rw [pull_fails h3 h5 (by omega)]
    refine h.taker (h.users.same (t := .ready (some e)) (by rw [ht]; rfl) rfl (by simp [State.raise, State.setTaker]) rfl) rfl rfl rfl id ⟨calls ++ [.pull t0 1], q, [], ?_⟩
    refine sim.next F hT0 rfl rfl rfl ?_ (by rw [h1]) rfl rfl rfl ?_ (fun k => ⟨rfl, k⟩) sim.busy sim.trim sim.keep sim.seen sim.packet ?_
    · simp [State.raise, State.setTaker]
    · intro e' k
      simp only [State.raise, State.setTaker, upd_self'] at k
      injection k with k
    · simp only [State.raise, State.setTaker, upd_self']
      exact ⟨rfl, ⟨h2.1, h2.2.copy rfl rfl⟩, h3.symm, h4⟩
  · obtain ⟨c1, c2, t, shmac, c3, c4⟩ := h2
    have F : q.exec C (.finalize t0) = (⟨[], some e, none⟩, closing q shmac) := by
      simp only [DecipherStream.exec]
      rw [finalize_shmac t0 c2 c3, pull_fails (q := closing q shmac) h3 h5 (by omega)]
    refine h.over sim (by rw [ht]; rfl) hT0 F rfl rfl (t := some e) (fun _ k => k) rfl rfl rfl rfl rfl ?_ (by rw [h1]) rfl rfl c1 c4 h3.symm
      h4 sim.trim sim.keep sim.packet
    simp [State.raise, State.setTaker]

theorem Inv.trimming (h : Inv C T dst s) {now : Int} {fin : Bool} (ht : s.taker 0 = .trimming fin) : Inv C T dst (s.go C 0 now) := by
  obtain ⟨calls, q, f, sim⟩ := h.sim
  have hrel := sim.rel
  rw [ht] at hrel
  obtain ⟨h1, h2, h3, h4, h5⟩ := hrel
  simp only [State.go, ht]
  rcases h5 with h5 | h5
  · rw [if_neg (by intro k; exact k.1 h5.1)]
    subst h1
    exact h.hop (t := .taking fin) sim (by rw [ht]; rfl) (by simp) rfl rfl rfl rfl rfl rfl rfl rfl ⟨h2.copy rfl rfl rfl, h3, h4, h5⟩
  · rw [if_pos ⟨by rw [h5.1.1]; exact h5.2.1, by rw [h5.1.2]; exact h5.2.2⟩]
    exact h.hop (t := .cutting fin) sim (by rw [ht]; rfl) (by simp) rfl rfl rfl rfl rfl rfl rfl rfl ⟨h1, h2.copy rfl rfl rfl, h3, h4, h5⟩

theorem Inv.cutting (hh : C.cfg.innerHeaderBytes ≤ C.cfg.blocksize) (h : Inv C T dst s) {now : Int} {fin : Bool} (ht : s.taker 0 = .cutting fin) :
    Inv C T dst (s.go C 0 now) := by
  obtain ⟨calls, q, f, sim⟩ := h.sim
  have hrel := sim.rel
  rw [ht] at hrel
  obtain ⟨h1, h2, h3, h4, h5, h6, h7⟩ := hrel
  simp only [State.go, ht]
  rcases hqu : s.stream.queue with _ | ⟨first, rest⟩
  · exact absurd (h5.2.symm.trans hqu) h7
  · have hqu' : q.queue = first :: rest := by rw [← h5.2]; exact hqu
    have hle : q.bytesToTrim ≤ first.length := by
      rcases sim.trim with k | k
      · exact absurd k h6
      · rw [k.1, k.2 first (by rw [hqu']; simp)]; exact hh
    refine h.hop (t := .trimming fin) sim (by rw [ht]; rfl) (by simp) rfl rfl rfl rfl rfl rfl rfl rfl ⟨h1, h2.copy rfl rfl rfl, h3, h4, .inl ⟨?_, ?_, fun _ => rfl, .inl rfl⟩⟩
    · show s.stream.bytesToTrim - (first.take s.stream.bytesToTrim).length = 0
      rw [h5.1, List.length_take]; omega
    · rw [hqu', trim_one h6 hle]
      simp [h5.1]

theorem trimmed_ne {fin : Bool} (h : Trimmed C st q f fin) (hq : st.queue ≠ []) : q.queue ≠ [] := by
  intro h0
  have h1 := trim_length q.queue q.bytesToTrim
  rw [h.2.1, h0] at h1
  simp only [List.length_append, List.length_nil] at h1
  exact hq (List.length_eq_zero_iff.1 (by omega))

theorem Inv.taking (h : Inv C T dst s) {now : Int} {fin : Bool} (ht : s.taker 0 = .taking fin) : Inv C T dst (s.go C 0 now) := by
  obtain ⟨calls, q, f, sim⟩ := h.sim
  have hrel := sim.rel
  rw [ht] at hrel
  obtain ⟨h2, h3, h4, h5⟩ := hrel
  simp only [State.go, ht]
  by_cases hl : s.stream.queue.length > C.cfg.minStreamQueue
  · rw [if_pos hl]
    exact h.hop (t := .popping fin) sim (by rw [ht]; rfl) (by simp) rfl rfl rfl rfl rfl rfl rfl rfl ⟨h2.copy rfl rfl rfl, h3, h4, h5, hl⟩
  · rw [if_neg hl]
    cases fin
    · have hf := h5.2.2.1 rfl
      subst hf
      obtain ⟨t0, hT0, hp⟩ := h4
      have K : DecipherStream.take C.cfg.minStreamQueue 1 s.stream.queue = ([], s.stream.queue) := by
        have := take_all C.cfg.minStreamQueue [] s.stream.queue 1 (by simp) (.inl rfl) (by omega)
        simpa using this
      have F : q.exec C (.pull t0 1) = (⟨[], none, none⟩, { q with isStreaming := true, bytesToTrim := 0, queue := s.stream.queue }) := by
        simp only [DecipherStream.exec]
        rw [pull_pass hp (by omega) h5.2.1]
        simp only [List.nil_append, K]
      refine h.taker (h.users.same (t := .ready none) (by rw [ht]; rfl) rfl rfl rfl) rfl rfl rfl id ⟨calls ++ [.pull t0 1], { q with isStreaming := true, bytesToTrim := 0, queue := s.stream.queue }, [], ?_⟩
      refine sim.next F hT0 rfl rfl rfl ?_ List.nil_prefix rfl rfl rfl ?_ (fun k => ⟨rfl, k⟩) sim.busy (.inl rfl) ?_ ?_ ?_ ?_
      · simp [State.setTaker]
      · intro e k
        simp only [State.setTaker, upd_self'] at k
        simp at k
      · rintro (k | k) _
        · exact absurd rfl k
        · simp at k
      · intro k _; exact hp.packet sim (.inl k)
      · intro k; exact sim.packet (trimmed_ne h5 k)
      · simp only [State.setTaker, upd_self']
        refine ⟨rfl, ⟨h2.1, ?_⟩, h3, h5.1, rfl⟩
        have := h2.2
        unfold Sess at *
        exact this
    · exact h.hop (t := .flushing) sim (by rw [ht]; rfl) (by simp) rfl rfl rfl rfl rfl rfl rfl rfl ⟨h2.copy rfl rfl rfl, h3, h4, h5, Nat.le_of_not_gt hl⟩

theorem Inv.popping (h : Inv C T dst s) {now : Int} {fin : Bool} (ht : s.taker 0 = .popping fin) : Inv C T dst (s.go C 0 now) := by
  obtain ⟨calls, q, f, sim⟩ := h.sim
  have hrel := sim.rel
  rw [ht] at hrel
  obtain ⟨h2, h3, h4, h5, h6⟩ := hrel
  simp only [State.go, ht]
  rcases hqu : s.stream.queue with _ | ⟨b, rest⟩
  · rw [hqu] at h6; simp at h6
  · rw [hqu] at h6
    cases fin
    · have hf := h5.2.2.1 rfl
      subst hf
      obtain ⟨t0, hT0, hp⟩ := h4
      have K : DecipherStream.take C.cfg.minStreamQueue 1 (b :: rest) = ([b], rest) := by
        simp only [DecipherStream.take]
        rw [if_pos h6]
      have F : q.exec C (.pull t0 1) = (⟨[b], none, none⟩, { q with isStreaming := true, bytesToTrim := 0, queue := rest }) := by
        simp only [DecipherStream.exec]
        rw [pull_pass hp (by omega) h5.2.1]
        simp only [List.nil_append, hqu, K]
      have hq0 : q.queue ≠ [] := trimmed_ne h5 (by rw [hqu]; simp)
      refine h.taker (h.users.same (t := .yielded) (by rw [ht]; rfl) rfl rfl rfl) rfl rfl rfl id ⟨calls ++ [.pull t0 1], { q with isStreaming := true, bytesToTrim := 0, queue := rest }, [], ?_⟩
      refine sim.next F hT0 rfl rfl rfl ?_ List.nil_prefix rfl rfl rfl ?_ (fun k => ⟨rfl, k⟩) sim.busy (.inl rfl) ?_ ?_ ?_ ?_
      · simp [State.setTaker, State.setQueue]
      · intro e k
        simp [State.setTaker, upd_self'] at k
      · rintro (k | k) _
        · exact absurd rfl k
        · simp at k
      · intro _ _; exact sim.packet hq0
      · intro _; exact sim.packet hq0
      · simp only [State.setTaker, upd_self']
        refine ⟨rfl, ⟨h2.1, ?_⟩, h3, ⟨h5.1, rfl⟩, rfl, rfl, t0, hT0, .inl rfl⟩
        have := h2.2
        unfold Sess at *
        exact this
    · refine h.taker (h.users.same (t := .taking true) (by rw [ht]; rfl) rfl rfl rfl) rfl rfl rfl id ⟨calls, q, f ++ [b], ?_⟩
      refine ⟨sim.exec, sim.time, sim.heard, ?_, ?_, sim.live, sim.busy, sim.ttl, sim.trim, sim.keep, sim.seen, sim.packet, ?_⟩
      · have := sim.outs
        simp only [State.outs] at this
        simp [State.outs, State.setTaker, State.setQueue, this]
      · intro e k
        simp [State.setTaker, upd_self'] at k
      · simp only [State.setTaker, if_true, upd_self']
        refine ⟨⟨h2.1, h2.2.1, h2.2.2⟩, h3, h4, h5.1, ?_, (fun k => by cases k), .inr ?_⟩
        · rw [h5.2.1, hqu]; simp [State.setQueue]
        · simp only [List.length_cons] at h6
          show _ ≤ rest.length
          omega

theorem Inv.waiting (h : Inv C T dst s) {now : Int} (ht : s.taker 0 = .waiting) : Inv C T dst (s.go C 0 now) := by
  obtain ⟨calls, q, f, sim⟩ := h.sim
  have hrel := sim.rel
  rw [ht] at hrel
  obtain ⟨h1, h2, h3, h4, h5⟩ := hrel
  simp only [State.go, ht]
  by_cases ho : s.owner = none
  · rw [if_pos ho]
    refine h.taker ⟨?_, ?_⟩ rfl rfl rfl id ⟨calls, q, f, sim.step rfl rfl rfl rfl ?_ ?_⟩
    · intro i
      have := h.users.feeder i
      rw [ho] at this
      simp only [reduceCtorEq, false_iff, Bool.not_eq_true] at this
      simp [State.setTaker, this]
    · simp [State.setTaker, upd, Taker.holds]
    · intro e he; simp [State.setTaker, upd] at he
    · simp only [State.setTaker, upd_self']
      exact ⟨h1, h2, h3, h4.copy rfl rfl, h5⟩
  · rw [if_neg ho]; exact h

theorem Inv.ending (h : Inv C T dst s) {now : Int} (ht : s.taker 0 = .ending) : Inv C T dst (s.go C 0 now) := by
  obtain ⟨calls, q, f, sim⟩ := h.sim
  have hrel := sim.rel
  rw [ht] at hrel
  obtain ⟨h1, h2, h3, h4, h5, h6⟩ := hrel
  have hh : (s.taker 0).holds = true := by rw [ht]; rfl
  have hse : s.stream.session = q.session := by
    rcases h4 with ⟨i, a, b, c, d, k, -⟩ | k
    · have := h.users.others hh i
      rw [k] at this; cases this
    · exact k.2
  obtain ⟨r, hr, hqr⟩ := sim.live h3
  have hfin : ∃ t shmac, q.session.shmac.finalize C.toEnv = .ok (t, shmac) := by
    rw [hqr]
    exact ⟨_, _, rfl⟩
  obtain ⟨t, shmac, hfin⟩ := hfin
  simp only [State.go, ht]
  rw [hse, hfin]
  exact h.hop (t := .entering true) sim (by rw [ht]; rfl) (by simp) rfl rfl rfl rfl rfl rfl rfl rfl
    ⟨h1, ⟨h2, h3, t, shmac, hfin, rfl⟩, h5, h6, (fun k => by cases k)⟩

theorem Inv.flushing (h : Inv C T dst s) {now : Int} (ht : s.taker 0 = .flushing) : Inv C T dst (s.go C 0 now) := by
  obtain ⟨calls, q, f, sim⟩ := h.sim
  have hrel := sim.rel
  rw [ht] at hrel
  obtain ⟨⟨c1, c2, t, shmac, c3, c4⟩, h3, ⟨t0, hT0, hp⟩, h5, h6⟩ := hrel
  have hh : (s.taker 0).holds = true := by rw [ht]; rfl
  have K : DecipherStream.take C.cfg.minStreamQueue (q.queue.length + 1) (f ++ s.stream.queue) = (f, s.stream.queue) := by
    refine take_all _ _ _ _ ?_ h5.2.2.2 h6
    have := trim_length q.queue q.bytesToTrim
    rw [h5.2.1] at this
    simp only [List.length_append] at this
    omega
  have hp' : Passes C (closing q shmac) t0 := hp
  have F0 := pull_pass hp' (n := q.queue.length + 1) (by omega) h5.2.1
  rw [K] at F0
  have packet : s.stream.queue ≠ [] → s.hasPacket := fun k => sim.packet (trimmed_ne h5 k)
  have keep : (0 : Nat) ≠ 0 ∨ true = false → s.hasPacket → s.stream.queue ≠ [] := by rintro (k | k) _ <;> simp at k
  simp only [State.go, ht]
  rcases hl : s.stream.queue.getLast? with _ | last
  · have F : q.exec C (.finalize t0) = (⟨f, some .index, none⟩, { closing q shmac with isStreaming := true, bytesToTrim := 0, queue := s.stream.queue }) := by
      simp only [DecipherStream.exec]
      rw [finalize_shmac t0 c2 c3, F0]
      simp only [hl]
    refine h.over sim hh hT0 F rfl rfl (t := some .index) (fun _ k => k) rfl rfl rfl rfl rfl ?_ (List.prefix_refl _) rfl rfl c1 c4 h3
      ⟨h5.1, rfl⟩ (.inl rfl) keep packet
    simp [State.raise, State.setTaker]
  · have F : q.exec C (.finalize t0) = (⟨f ++ Text.batch C.cfg.blocksize (Slice.of ⟨none, some (C.cfg.depaddingEndIndex last)⟩ s.stream.queue.flatten), none, none⟩,
        { closing q shmac with isStreaming := true, bytesToTrim := 0, queue := s.stream.queue }) := by
      simp only [DecipherStream.exec]
      rw [finalize_shmac t0 c2 c3, F0]
      simp only [hl]
    refine h.over sim hh hT0 F rfl rfl (t := none) (fun _ k => by cases k) rfl rfl rfl rfl rfl ?_ (List.prefix_append _ _) rfl rfl c1 c4 h3
      ⟨h5.1, rfl⟩ (.inl rfl) keep packet
    simp [State.setTaker]

theorem Inv.go (hh : C.cfg.innerHeaderBytes ≤ C.cfg.blocksize) (h : Inv C T dst s) {now : Int} (hT : T now) : Inv C T dst (s.go C 0 now) := by
  rcases ht : s.taker 0 with e | _ | fin | fin | fin | ⟨fin, e⟩ | fin | fin | fin | fin | _ | _ | _
  · simp only [State.go, ht]; exact h
  · simp only [State.go, ht]; exact h
  · exact h.entering hT ht
  · exact h.marking ht
  · exact h.testing hT ht
  · exact h.expired ht
  · exact h.trimming ht
  · exact h.cutting hh ht
  · exact h.taking ht
  · exact h.popping ht
  · exact h.waiting ht
  · exact h.ending ht
  · exact h.flushing ht

theorem Inv.run (S : Sound C) (hs : Streamable C.cfg) (hh : C.cfg.innerHeaderBytes ≤ C.cfg.blocksize) : ∀ (moves : List Move) (s : State κ),
    Inv C T dst s → OneTaker moves → Patient C s moves → (∀ now, .go 0 now ∈ moves → T now) → Inv C T dst (s.run C moves) := by
  intro moves
  induction moves with
  | nil => intro s h _ _ _; exact h
  | cons m moves ih =>
    intro s h h1 h2 h3
    refine ih (s.move C m) ?_ (fun x hx => h1 x (List.mem_cons_of_mem _ hx)) ?_ (fun now hx => h3 now (List.mem_cons_of_mem _ hx))
    · rcases h1 m (by simp) with ⟨i, rfl⟩ | rfl | rfl | rfl | ⟨now, rfl⟩
      · exact h.feed S hs i
      · exact h.next (h2 [] moves rfl)
      · exact h.resume
      · exact h.finalize
      · exact h.go hh (h3 now (by simp))
    · intro before after e
      exact h2 (m :: before) after (by rw [e]; rfl)

end Aiootp.Cipher.SharedDec
