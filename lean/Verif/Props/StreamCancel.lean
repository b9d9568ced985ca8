import Verif.Lemmas.StreamCancel
import Verif.Props.Stream

/-
Property C94: cancelling a coroutine that uses an asynchronous stream.
-/

namespace Aiootp.Cipher.Cancel

open Perm Cipher
open scoped List

/-! ### specification -/

/-- The call on a stream without cancellations that a call amounts to, if it ended with `o`: data is buffered as a whole or not at all, and as a whole if the call returned. -/
inductive Amounts {κ : Type} : Call κ → Outcome → StreamCall → Prop
  | buffer (d o) : Amounts (.buffer d) o (.buffer d)
  | failed (d o) : o ≠ .returned → Amounts (.buffer d) o (.pull 0)
  | all (d cut o) : Amounts (.bufferCut d cut) o (.buffer d)
  | nothing (d cut o) : Amounts (.bufferCut d cut) o (.pull 0)
  | pull (n o) : Amounts (.pull n) o (.pull n)
  | pullCut (n cut o m) : m ≤ n + 1 → Amounts (.pullCut n cut) o (.pull m)
  | finalize (o) : Amounts .finalize o .finalize
  | finalizeCut (cut o) : Amounts (.finalizeCut cut) o .finalize

/-- The same for histories. -/
inductive AmountsAll {κ : Type} : List (Call κ) → List Outcome → List StreamCall → Prop
  | nil : AmountsAll [] [] []
  | cons {call o call' calls os calls'} : Amounts call o call' → AmountsAll calls os calls' → AmountsAll (call :: calls) (o :: os) (call' :: calls')

/-- The call was cancelled while its data was divided into blocks. -/
def Call.divided {κ : Type} : Call κ → Bool
  | .bufferCut _ (.reading _) => true
  | _ => false

/-- C94, sender. Unless a call of `abuffer` is cancelled while it divides its data into blocks: whatever calls are cancelled and wherever, the packets given out are packets, in their order, of
the one stream of the data of some of the calls of `abuffer`, each taken as a whole or left out as a whole, and taken if the call returned before the stream was finalized. -/
def SenderKeepsWhole {κ : Type} (C : Cipher κ) : Prop :=
  ∀ a : StreamArgs, a.OK C.cfg → ∃ bundle st, CipherStream.new C a.key a.draws a.salt a.aad = .ok (bundle, st) ∧
    ∀ H : List (Call κ), (∀ c ∈ H, c.divided = false) →
      ∃ calls, AmountsAll H (Sender.execAll C ⟨st, false, false⟩ H).2.1 calls ∧
        (Sender.execAll C ⟨st, false, false⟩ H).1 <+ (st.execAll C [.buffer (buffered calls), .finalize]).1

/-- It is a call that buffers something. -/
def Uncall.buffers {κ : Type} : Uncall κ → Bool
  | .buffer _ => true
  | .bufferCut _ _ => true
  | _ => false

/-- The data that a call of a receiver takes, if it ended with `o`: the first part of it, and all of it if the call returned. -/
inductive Takes {κ : Type} : Uncall κ → Outcome → UnstreamCall → Prop
  | buffer (d o d') : d' <+: d → (o = .returned → d' = d) → Takes (.buffer d) o (.buffer d')
  | bufferCut (d cut o d') : d' <+: d → Takes (.bufferCut d cut) o (.buffer d')
  | other (c o) : c.buffers = false → Takes c o (.buffer [])

/-- The same for histories. -/
inductive TakesAll {κ : Type} : List (Uncall κ) → List Outcome → List UnstreamCall → Prop
  | nil : TakesAll [] [] []
  | cons {call o call' calls os calls'} : Takes call o call' → TakesAll calls os calls' → TakesAll (call :: calls) (o :: os) (call' :: calls')

/-- Everything that was given out. -/
def given (replies : List (Receiver.Reply)) : Bytes := (replies.map (·.1)).flatten.flatten

/-- C94, receiver. Whatever calls are cancelled and wherever, what is given out is the first part of what is decrypted, in one run, from the packets taken, without the inner header: nothing is
given out twice, out of order, or with a gap, and nothing of the header. -/
def ReceiverKeepsOrder {κ : Type} (C : Cipher κ) : Prop :=
  ∀ (key saltDraw : Bytes) (salt : Option Bytes) (aad iv : Bytes) (ttl : Option Int) (dst : DecipherStream κ),
    DecipherStream.new C key saltDraw salt aad iv ttl = .ok dst →
    ∀ H : List (Uncall κ), ∃ calls, TakesAll H ((Receiver.execAll C ⟨dst, false, false⟩ H).1.map (·.2)) calls ∧
      given (Receiver.execAll C ⟨dst, false, false⟩ H).1 <+: ((dst.execAll C calls).2.queue.flatten).drop C.cfg.innerHeaderBytes

/-- What one would expect of senders: if the stream was finalized, then a recipient who gets all its packets and finalizes without an exception gets the data of some of the calls of `abuffer`, each
taken as a whole or left out as a whole. -/
def RecipientGetsWhole {κ : Type} (C : Cipher κ) : Prop :=
  ∀ (a : StreamArgs), a.OK C.cfg → ∀ bundle st, CipherStream.new C a.key a.draws a.salt a.aad = .ok (bundle, st) →
  ∀ (H : List (Call κ)), (Sender.execAll C ⟨st, false, false⟩ (H ++ [.finalize])).2.1.getLast? = some .returned →
  ∀ dst, DecipherStream.new C a.key a.draws.salt (some bundle.salt) a.aad bundle.iv none = .ok dst →
  ∀ now, (let calls := [.buffer (wire (Sender.execAll C ⟨st, false, false⟩ (H ++ [.finalize])).1), .finalize now]
    (dst.execAll C calls).1.map (·.err) = [none, none] →
    ∃ whole, AmountsAll (H ++ [.finalize]) (Sender.execAll C ⟨st, false, false⟩ (H ++ [.finalize])).2.1 whole ∧ released (dst.execAll C calls).1 = buffered whole)

/-- The packets of the first part of the data of a cancelled call of `abuffer`, as if there were no more: the tag is right, and the recipient gets that part. -/
def PartSent {κ : Type} (C : Cipher κ) : Prop :=
  ∀ a : StreamArgs, a.OK C.cfg → ∃ bundle st, CipherStream.new C a.key a.draws a.salt a.aad = .ok (bundle, st) ∧
    ∀ d1 d2 : Bytes, C.cfg.innerHeaderBytes + d1.length = C.cfg.blocksize → d2.length % C.cfg.paddingFrame = 0 →
      (Sender.execAll C ⟨st, false, false⟩ [.bufferCut (d1 ++ d2) (.reading 1), .finalize]).1 = (st.execAll C [.buffer d1, .finalize]).1 ∧
      (Sender.execAll C ⟨st, false, false⟩ [.bufferCut (d1 ++ d2) (.reading 1), .finalize]).2.1 = [.cancelled, .returned] ∧
      (Sender.execAll C ⟨st, false, false⟩ [.bufferCut (d1 ++ d2) (.reading 1), .finalize]).2.2.stream.session = (st.execAll C [.buffer d1, .finalize]).2.2.session

/-- An iteration that is cancelled while it tests the timestamp makes that no test is made any more: the whole plaintext of the stream is given out, however late it is. -/
def TtlForgotten {κ : Type} (C : Cipher κ) : Prop :=
  ∀ (a : StreamArgs) (t : Int), a.OK C.cfg →
    ∃ dst bundle st, DecipherStream.new C a.key a.draws.salt (some (usedSalt a.salt a.draws.salt)) a.aad a.draws.iv (some t) = .ok dst ∧
      CipherStream.new C a.key a.draws a.salt a.aad = .ok (bundle, st) ∧
      ∀ (data : Bytes) (early late : Int),
        (let H : List (Uncall κ) := [.buffer (wire (st.execAll C [.buffer data, .finalize]).1), .pullCut early .testing, .finalize late]
         (Receiver.execAll C ⟨dst, false, false⟩ H).1.map (·.2) = [.returned, .cancelled, .returned] ∧
         given (Receiver.execAll C ⟨dst, false, false⟩ H).1 = data)

/-! ### senders -/

section
variable {κ : Type} {C : Cipher κ}

theorem amountsAll_exists : ∀ (H : List (Call κ)) (s : Sender κ), ∃ calls, AmountsAll H (s.execAll C H).2.1 calls := by
  intro H
  induction H with
  | nil => intro s; exact ⟨[], .nil⟩
  | cons c H ih =>
    intro s
    obtain ⟨calls, h⟩ := ih (s.exec C c).2
    have : ∃ c', Amounts c (s.exec C c).1.2 c' := by
      cases c with
      | buffer d => exact ⟨_, .buffer ..⟩
      | bufferCut d cut => exact ⟨_, .all ..⟩
      | pull n => exact ⟨_, .pull ..⟩
      | pullCut n cut => exact ⟨_, .pullCut n cut _ n (by omega)⟩
      | finalize => exact ⟨_, .finalize ..⟩
      | finalizeCut cut => exact ⟨_, .finalizeCut ..⟩
    obtain ⟨c', hc⟩ := this
    exact ⟨c' :: calls, .cons hc h⟩

theorem digestData_ne_nil {n : Nat} {buffer : List Bytes} {data : Bytes} (h : buffer ≠ []) : CipherStream.digestData n buffer data ≠ [] := by
  unfold CipherStream.digestData
  split
  · simp [h]
  · split
    · simp [h]
    · split
      · simp
      · simp only; split <;> simp

theorem digestData_cut_ne_nil {n k : Nat} {buffer : List Bytes} {data : Bytes} (h : buffer ≠ []) : digestData n buffer data k ≠ [] := by
  unfold digestData
  split
  · simp [h]
  · split
    · simp [h]
    · split
      · exact h
      · split
        · simp
        · simp only; split <;> simp

/-- The last blocks of a stream that is closed. -/
theorem padded_ok (hF : 0 < C.cfg.paddingFrame) {st : CipherStream κ} (hb : st.buffer ≠ []) :
    ∃ endp last, C.cfg.endPadding st.extra st.byteCount = .ok endp ∧ st.buffer.getLast? = some last ∧ st.buffer = st.buffer.dropLast ++ [last] ∧
      Sender.padded C st = (none, st.buffer.dropLast, Text.batch C.cfg.blocksize (last ++ endp)) := by
  have hend := Sizes.endPadding_eq (c := C.cfg) hF st.extra st.byteCount
  have hl : st.buffer.getLast? = some (st.buffer.getLast hb) := List.getLast?_eq_some_getLast hb
  refine ⟨_, _, hend, hl, (List.dropLast_concat_getLast hb).symm, ?_⟩
  simp only [Sender.padded, hend, hl]

/-- What is given out from the call that closes the stream on. -/
theorem finalize_gives (hids : IdsMade C) (hF : 0 < C.cfg.paddingFrame) {s : Sender κ} (hc : s.stream.closed = false) (he : s.ended = false)
    (hb : s.stream.buffer ≠ []) {c : Call κ} (h : c = .finalize ∨ ∃ cut, c = .finalizeCut cut) (H : List (Call κ)) :
    (s.exec C c).1.1 ++ ((s.exec C c).2.execAll C H).1 <+ (s.stream.exec C .finalize).1.1 := by
  have hkeep : 1 ≤ C.cfg.minStreamQueue := by simp [Sizes.minStreamQueue]
  obtain ⟨endp, last, p1, p2, p3, p4⟩ := padded_ok (C := C) hF hb
  let full : Sender κ := { s with stream := { s.stream with closed := true, buffer := s.stream.buffer.dropLast ++ Text.batch C.cfg.blocksize (last ++ endp) } }
  have hplain : (s.stream.exec C .finalize).1.1 = full.left C 0 := by
    simp only [CipherStream.exec, CipherStream.finalize, hc, Bool.false_eq_true, if_false, p1, p2, Sender.left, full, he, rest]
    split <;> rfl
  rw [hplain]
  have p4' : Sender.padded C { s.stream with closed := true } = (none, s.stream.buffer.dropLast, Text.batch C.cfg.blocksize (last ++ endp)) := p4
  have hinit : ∀ X, X.length ≤ C.cfg.minStreamQueue → ∀ F, F <+: s.stream.buffer.dropLast ++ Text.batch C.cfg.blocksize (last ++ endp) → ∀ stuck,
      (Sender.left C C.cfg.minStreamQueue (⟨{ s.stream with closed := true, buffer := F ++ X }, s.ended, stuck⟩ : Sender κ)) <+ full.left C 0 := by
    intro X hX F hF stuck
    obtain ⟨Y, hY⟩ := hF
    simp only [Sender.left, full, he, Bool.false_eq_true, if_false]
    apply List.IsPrefix.sublist
    exact rest_prefix (Y := Y) hX F _ _ rfl rfl hY.symm
  have hself : ∀ stuck, (Sender.left C C.cfg.minStreamQueue (⟨{ s.stream with closed := true }, s.ended, stuck⟩ : Sender κ)) <+ full.left C 0 := by
    intro stuck
    have := hinit [last] (by simpa using hkeep) s.stream.buffer.dropLast (List.prefix_append ..) stuck
    rwa [← p3] at this
  -- what remains after a drain
  have hrun : ∀ (r : (List Packet × Outcome) × Sender κ), r.2.stream.closed = true → r.1.1 ++ r.2.left C 0 <+ full.left C 0 →
      r.1.1 ++ (r.2.execAll C H).1 <+ full.left C 0 := by
    intro r h1 h2
    refine ((List.Sublist.refl _).append ?_).trans h2
    exact (Sender.closed_gives hids H r.2 h1).trans (Sender.left_keep _ _).sublist
  have hempty : ∀ (r : (List Packet × Outcome) × Sender κ) (s' : Sender κ), s'.stream.closed = true → s'.stream.buffer.length ≤ 0 →
      r.1.1 ++ r.2.left C 0 <+ full.left C 0 → r.1.1 ++ (s'.execAll C H).1 <+ full.left C 0 := by
    intro r s' h1 h2 h3
    have h4 := Sender.closed_gives hids H s' h1
    rw [Sender.left_small (by omega)] at h4
    rw [List.sublist_nil.1 h4]
    exact ((List.Sublist.refl _).append (List.nil_sublist _)).trans h3
  have htag : ∀ (s : Sender κ), (s.tag C).2.stream.closed = s.stream.closed ∧ (s.tag C).2.stream.buffer = s.stream.buffer := by
    intro s; unfold Sender.tag; split <;> exact ⟨rfl, rfl⟩
  have hdrain := Sender.drain_left (C := C) 0 full.stream.buffer.length full
  have hret := Sender.drain_returned (C := C) (keep := 0) (n := full.stream.buffer.length) (s := full) (Nat.le_refl _)
  rcases h with rfl | ⟨cut, rfl⟩
  · simp only [Sender.exec, Sender.finalize, hc, Bool.false_eq_true, if_false]
    split
    · rw [List.nil_append]
      exact (Sender.closed_gives hids H _ rfl).trans (hself _)
    · rw [p4']
      simp only
      change _ ++ _ <+ _
      split
      · next hne => exact hrun (full.drain C 0 full.stream.buffer.length) hdrain.1 hdrain.2
      · next hne =>
        have hr : (full.drain C 0 full.stream.buffer.length).1.2 = .returned := Classical.not_not.1 hne
        exact hempty (full.drain C 0 full.stream.buffer.length) _ ((htag _).1.trans hdrain.1) (by rw [(htag _).2]; exact hret hr) hdrain.2
  · simp only [Sender.exec, Sender.finalizeCut, hc, Bool.false_eq_true, if_false]
    split
    · rw [List.nil_append]
      exact (Sender.closed_gives hids H _ rfl).trans (hself _)
    · rw [p4']
      simp only
      cases cut with
      | padding =>
        rw [List.nil_append]
        exact (Sender.closed_gives hids H _ rfl).trans (hself _)
      | appending k =>
        rw [List.nil_append]
        refine (Sender.closed_gives hids H _ rfl).trans ?_
        have := hinit [] (Nat.zero_le _) (s.stream.buffer.dropLast ++ (Text.batch C.cfg.blocksize (last ++ endp)).take k)
          (List.prefix_append_right_inj _ |>.2 (List.take_prefix ..)) s.stuck
        simpa using this
      | taking n cut =>
        simp only
        have hcut := Sender.drainCut_left hids 0 n cut full
        split
        · exact hrun (full.drainCut C 0 n cut) hcut.1 hcut.2
        · next hne =>
          have hr : (full.drainCut C 0 n cut).1.2 = .returned := Classical.not_not.1 hne
          exact hempty (full.drainCut C 0 n cut) _ ((htag _).1.trans hcut.1)
            (by rw [(htag _).2]; exact Sender.drainCut_returned hr) hcut.2
      | tag =>
        simp only
        split
        · exact hrun (full.drain C 0 full.stream.buffer.length) hdrain.1 hdrain.2
        · next hne =>
          have hr : (full.drain C 0 full.stream.buffer.length).1.2 = .returned := Classical.not_not.1 hne
          exact hempty (full.drain C 0 full.stream.buffer.length) _ (by exact hdrain.1) (by exact hret hr) hdrain.2
      | leaving =>
        simp only
        split
        · next hne =>
          exact hrun (((full.drain C 0 full.stream.buffer.length).1.1, .cancelled), { (full.drain C 0 full.stream.buffer.length).2 with stuck := true })
            hdrain.1 hdrain.2
        · next hne =>
          have hr : (full.drain C 0 full.stream.buffer.length).1.2 = .returned := Classical.not_not.1 hne
          exact hempty (full.drain C 0 full.stream.buffer.length) _ (by exact (htag _).1.trans hdrain.1) (by
            show ((full.drain C 0 full.stream.buffer.length).2.tag C).2.stream.buffer.length ≤ 0
            rw [(htag _).2]; exact hret hr) hdrain.2

/-- The packets given out by a history with cancellations are packets that a history without them gives out, in its order. -/
theorem open_gives (hids : IdsMade C) (hF : 0 < C.cfg.paddingFrame) : ∀ (H : List (Call κ)) (s : Sender κ), s.stream.closed = false → s.ended = false →
    s.stream.buffer ≠ [] → (∀ c ∈ H, c.divided = false) →
    ∃ calls, AmountsAll H (s.execAll C H).2.1 calls ∧ (s.execAll C H).1 <+ (s.stream.execAll C calls).1 := by
  have hkeep : 1 ≤ C.cfg.minStreamQueue := by simp [Sizes.minStreamQueue]
  intro H
  induction H with
  | nil => intro s _ _ _ _; exact ⟨[], .nil, List.Sublist.refl _⟩
  | cons c H ih =>
    intro s hc he hb hH
    -- a call after which the states agree
    have same : ∀ c', Amounts c (s.exec C c).1.2 c' → (s.exec C c).2.stream = (s.stream.exec C c').2 → (s.exec C c).1.1 <+ (s.stream.exec C c').1.1 →
        (s.exec C c).2.stream.closed = false → (s.exec C c).2.ended = false → (s.exec C c).2.stream.buffer ≠ [] →
        ∃ calls, AmountsAll (c :: H) (s.execAll C (c :: H)).2.1 calls ∧ (s.execAll C (c :: H)).1 <+ (s.stream.execAll C calls).1 := by
      intro c' h1 h2 h3 h4 h5 h6
      obtain ⟨calls, i1, i2⟩ := ih _ h4 h5 h6 (fun x hx => hH x (by simp [hx]))
      refine ⟨c' :: calls, .cons h1 i1, ?_⟩
      simp only [Sender.execAll, CipherStream.execAll]
      rw [h2] at i2
      exact h3.append i2
    -- a call that ends the stream
    have ends : ∀ c', Amounts c (s.exec C c).1.2 c' → (s.exec C c).1.1 <+ (s.stream.exec C c').1.1 → (s.exec C c).2.ended = true →
        ∃ calls, AmountsAll (c :: H) (s.execAll C (c :: H)).2.1 calls ∧ (s.execAll C (c :: H)).1 <+ (s.stream.execAll C calls).1 := by
      intro c' h1 h2 h3
      obtain ⟨calls, i1⟩ := amountsAll_exists (C := C) H (s.exec C c).2
      refine ⟨c' :: calls, .cons h1 i1, ?_⟩
      simp only [Sender.execAll, CipherStream.execAll, Sender.ended_gives H _ h3, List.append_nil]
      exact h2.trans (List.sublist_append_left ..)
    have h0 : s.stream.exec C (.pull 0) = (([], none), s.stream) := rfl
    have hbuf : ∀ d, s.stream.exec C (.buffer d) = (([], none), (s.stream.bufferData C d).2) := by
      intro d; simp [CipherStream.exec, CipherStream.bufferData, hc]
    have hbd : ∀ d, s.stream.bufferData C d = (.ok (), { s.stream with byteCount := s.stream.byteCount + d.length
                                                                       buffer := CipherStream.digestData C.cfg.blocksize s.stream.buffer d }) := by
      intro d; simp [CipherStream.bufferData, hc]
    cases c with
    | buffer d =>
      by_cases hs : s.stuck = true
      · have hx : s.exec C (.buffer d) = (([], .hangs), s) := by simp [Sender.exec, Sender.buffer, hs]
        exact same (.pull 0) (by rw [hx]; exact .failed _ _ (by simp)) (by rw [hx]; rfl) (by rw [hx]; exact List.nil_sublist _) (by rw [hx]; exact hc)
          (by rw [hx]; exact he) (by rw [hx]; exact hb)
      · have hx : s.exec C (.buffer d) = (([], .returned), { s with stream := (s.stream.bufferData C d).2 }) := by
          simp [Sender.exec, Sender.buffer, hs, hbd]
        exact same (.buffer d) (.buffer ..) (by rw [hx, hbuf]) (by rw [hx]; exact List.nil_sublist _) (by rw [hx, hbd]; exact hc)
          (by rw [hx]; exact he) (by rw [hx, hbd]; exact digestData_ne_nil hb)
    | bufferCut d cut =>
      have nothing : s.exec C (.bufferCut d cut) = (([], .cancelled), s) → _ := fun hx =>
        same (.pull 0) (.nothing ..) (by rw [hx]; rfl) (by rw [hx]; exact List.nil_sublist _) (by rw [hx]; exact hc)
          (by rw [hx]; exact he) (by rw [hx]; exact hb)
      cases cut with
      | entering => exact nothing rfl
      | reading k => have := hH _ (List.mem_cons_self ..); cases this
      | leaving =>
        by_cases hs : s.stuck = true
        · exact nothing (by simp [Sender.exec, Sender.bufferCut, hs])
        · have hx : s.exec C (.bufferCut d .leaving) = (([], .cancelled), { s with stream := (s.stream.bufferData C d).2, stuck := true }) := by
            simp [Sender.exec, Sender.bufferCut, hs]
          exact same (.buffer d) (.all ..) (by rw [hx, hbuf]) (by rw [hx]; exact List.nil_sublist _) (by rw [hx, hbd]; exact hc)
            (by rw [hx]; exact he) (by rw [hx, hbd]; exact digestData_ne_nil hb)
    | pull n =>
      have hx : s.exec C (.pull n) = (((s.stream.drain C C.cfg.minStreamQueue n).1.1, .of (s.stream.drain C C.cfg.minStreamQueue n).1.2),
          { s with stream := (s.stream.drain C C.cfg.minStreamQueue n).2, ended := (s.stream.drain C C.cfg.minStreamQueue n).1.2.isSome }) := by
        simp [Sender.exec, Sender.drain, he]
      cases hd : (s.stream.drain C C.cfg.minStreamQueue n).1.2 with
      | some e =>
        exact ends (.pull n) (.pull ..) (by rw [hx]; exact List.Sublist.refl _) (by rw [hx]; simp [hd])
      | none =>
        refine same (.pull n) (.pull ..) (by rw [hx]; rfl) (by rw [hx]; exact List.Sublist.refl _) ?_ ?_ ?_
        · rw [hx]; exact (drain_closed ..).trans hc
        · rw [hx]; simp [hd]
        · rw [hx]
          exact drain_ne_nil hkeep n hb
    | pullCut n cut =>
      let D := s.stream.drain C C.cfg.minStreamQueue n
      have hx : s.drain C C.cfg.minStreamQueue n = ((D.1.1, .of D.1.2), { s with stream := D.2, ended := D.1.2.isSome }) := by
        simp [Sender.drain, he, D]
      have hpull : s.stream.exec C (.pull n) = D := rfl
      have hm : ∀ o, Amounts (Call.pullCut n cut) o (.pull n) := fun o => .pullCut n cut o n (by omega)
      cases hd : D.1.2 with
      | some e =>
        have hy : s.exec C (.pullCut n cut) = ((D.1.1, .raised e), { s with stream := D.2, ended := true }) := by
          simp [Sender.exec, Sender.drainCut, hx, hd, Outcome.of]
        exact ends (.pull n) (hm _) (by rw [hy, hpull]) (by rw [hy])
      | none =>
        have hcl : D.2.closed = false := (drain_closed ..).trans hc
        have hne : D.2.buffer ≠ [] := drain_ne_nil hkeep n hb
        obtain ⟨b, bs, hbs⟩ := List.exists_cons_of_ne_nil hne
        by_cases hl : D.2.buffer.length ≤ C.cfg.minStreamQueue
        · have hy : s.exec C (.pullCut n cut) = ((D.1.1, .returned), { s with stream := D.2, ended := false }) := by
            rw [hbs] at hl
            simp only [Sender.exec, Sender.drainCut, hx, hd, Outcome.of, ne_eq, not_true_eq_false, if_false, hbs, if_pos hl]
            rfl
          exact same (.pull n) (hm _) (by rw [hy, hpull]) (by rw [hy, hpull]) (by rw [hy]; exact hcl) (by rw [hy]) (by rw [hy]; exact hne)
        · have hl' : ¬ (b :: bs).length ≤ C.cfg.minStreamQueue := by rw [← hbs]; exact hl
          cases cut with
          | cipher popped session =>
            have hy : (s.exec C (.pullCut n (.cipher popped session))).1.1 = D.1.1 ∧ (s.exec C (.pullCut n (.cipher popped session))).2.ended = true := by
              simp only [Sender.exec, Sender.drainCut, hx, hd, Outcome.of, ne_eq, not_true_eq_false, if_false, hbs, if_neg hl', Option.isSome, Bool.false_eq_true]
              exact ⟨trivial, trivial⟩
            exact ends (.pull n) (hm _) (by rw [hy.1, hpull]) hy.2
          | blockId =>
            cases ht : C.turn D.2.session.shmac D.2.session.keys b with
            | error e =>
              have hy : (s.exec C (.pullCut n .blockId)).1.1 = D.1.1 ∧ (s.exec C (.pullCut n .blockId)).2.ended = true := by
                simp only [Sender.exec, Sender.drainCut, hx, hd, Outcome.of, ne_eq, not_true_eq_false, if_false, hbs, if_neg hl', Option.isSome, Bool.false_eq_true, ht]
                exact ⟨trivial, trivial⟩
              exact ends (.pull n) (hm _) (by rw [hy.1, hpull]) hy.2
            | ok x =>
              obtain ⟨out, shmac, keys⟩ := x
              obtain ⟨id, hid⟩ := hids _ _ _ _ _ _ ht
              have hem : C.emit D.2.session b = .ok ((id, out), ⟨shmac, keys⟩) := by
                simp [Cipher.emit, ht, hid, bind, Except.bind, pure, Except.pure]
              have hsucc := drain_succ C.cfg.minStreamQueue n s.stream hd hbs (by show _ < D.2.buffer.length; omega) hem
              have hpull1 : s.stream.exec C (.pull (n + 1)) = ((D.1.1 ++ [(id, out)], none), { D.2 with buffer := bs, session := ⟨shmac, keys⟩ }) := hsucc
              have hy : s.exec C (.pullCut n .blockId) = ((D.1.1, .cancelled),
                  { s with stream := { D.2 with buffer := bs, session := ⟨shmac, keys⟩ }, ended := false }) := by
                simp only [Sender.exec, Sender.drainCut, hx, hd, Outcome.of, ne_eq, not_true_eq_false, if_false, hbs, if_neg hl', Option.isSome, Bool.false_eq_true, ht]
              refine same (.pull (n + 1)) (.pullCut _ _ _ _ (by omega)) (by rw [hy, hpull1]) (by rw [hy, hpull1]; simp) (by rw [hy]; exact hcl) (by rw [hy]) ?_
              rw [hy]
              rintro rfl
              simp only [List.length_singleton] at hl'
              omega
    | finalize =>
      obtain ⟨calls, i1⟩ := amountsAll_exists (C := C) H (s.exec C .finalize).2
      refine ⟨.finalize :: calls, .cons (.finalize _) i1, ?_⟩
      exact (finalize_gives hids hF hc he hb (.inl rfl) H).trans (List.sublist_append_left ..)
    | finalizeCut cut =>
      obtain ⟨calls, i1⟩ := amountsAll_exists (C := C) H (s.exec C (.finalizeCut cut)).2
      refine ⟨.finalize :: calls, .cons (.finalizeCut cut _) i1, ?_⟩
      exact (finalize_gives hids hF hc he hb (.inr ⟨cut, rfl⟩) H).trans (List.sublist_append_left ..)

theorem buffered_append_finalize : ∀ (calls : List StreamCall), buffered (calls ++ [.finalize]) = buffered calls := by
  intro calls
  induction calls with
  | nil => rfl
  | cons c calls ih => cases c <;> simp [buffered, ih]

theorem stream_execAll_append : ∀ (as bs : List StreamCall) (st : CipherStream κ),
    (st.execAll C (as ++ bs)).1 = (st.execAll C as).1 ++ ((st.execAll C as).2.2.execAll C bs).1 := by
  intro as
  induction as with
  | nil => intro bs st; rfl
  | cons a as ih => intro bs st; simp only [List.cons_append, CipherStream.execAll, ih, List.append_assoc]

theorem sender_keeps_whole (S : Sound C) (u : Usable C) (hs : Streamable C.cfg) (hids : IdsMade C) : SenderKeepsWhole C := by
  intro a ha
  obtain ⟨bundle, st, h1, h2⟩ := chunking_irrelevant S u hs a ha
  refine ⟨bundle, st, h1, fun H hH => ?_⟩
  obtain ⟨r0, hr, _, _, hlen, hnew, _⟩ := stream_start S u ha
  rw [hnew] at h1
  simp only [Except.ok.injEq, Prod.mk.injEq] at h1
  obtain ⟨calls, i1, i2⟩ := open_gives hids u.accepted.frame_pos H ⟨st, false, false⟩ (by rw [← h1.2]) rfl (by rw [← h1.2]; simp) hH
  refine ⟨calls, i1, i2.trans ?_⟩
  obtain ⟨e1, _⟩ := h2 (calls ++ [.finalize]) (by simp)
  rw [buffered_append_finalize, stream_execAll_append] at e1
  rw [← e1]
  exact List.sublist_append_left ..

/-! ### receivers -/

theorem Receiver.Tied.exec (hB : 0 < C.cfg.blocksize) {h : Nat} {s : Receiver κ} {p : DecipherStream κ} {R : Bytes} (t : s.Tied C h p R) (c : Uncall κ) :
    ∃ c', Takes c (s.exec C c).1.2 c' ∧ (s.exec C c).2.Tied C h (p.exec C c').2 (R ++ (s.exec C c).1.1.flatten) := by
  -- calls that buffer nothing
  have other : c.buffers = false → (s.exec C c).2.Tied C h p (R ++ (s.exec C c).1.1.flatten) →
      ∃ c', Takes c (s.exec C c).1.2 c' ∧ (s.exec C c).2.Tied C h (p.exec C c').2 (R ++ (s.exec C c).1.1.flatten) := fun hb h1 =>
    ⟨.buffer [], .other _ _ hb, by rw [plain_nil]; exact h1⟩
  have setStuck : ∀ {s : Receiver κ} {p : DecipherStream κ} {R : Bytes} (b : Bool), s.Tied C h p R → Receiver.Tied C h { s with stuck := b } p R :=
    fun b t => ⟨t.opened, t.session, t.state⟩
  have setEnded : ∀ {s : Receiver κ} {p : DecipherStream κ} {R : Bytes} (session : Session κ), s.Tied C h p R →
      Receiver.Tied C h { s with stream := { s.stream with session }, ended := true } p R :=
    fun session t => ⟨t.opened, fun h => (by cases h), t.state⟩
  have setClosed : ∀ {s : Receiver κ} {p : DecipherStream κ} {R : Bytes} (session : Session κ), s.stream.closed = false → s.Tied C h p R →
      Receiver.Tied C h { s with stream := { s.stream with closed := true, session } } p R ∧ Balance h p.queue.flatten R s.stream.bytesToTrim s.stream.queue := by
    intro s p R session hc t
    rcases t.state with b | b
    · exact ⟨⟨t.opened, fun _ h => (by cases h), .inl b⟩, b⟩
    · rw [hc] at b; cases b.1
  have nothing : ∀ {s : Receiver κ} {p : DecipherStream κ} {R : Bytes}, s.Tied C h p R → s.Tied C h p (R ++ ([] : List Bytes).flatten) := by
    intro s p R t; simpa using t
  -- iterations that are cancelled
  have pullCut : ∀ (s : Receiver κ), s.Tied C h p R → ∀ now cut, (s.pullCut C now cut).2.Tied C h p (R ++ (s.pullCut C now cut).1.1.flatten) := by
    intro s t now cut
    cases cut with
    | testing =>
      simp only [Receiver.pullCut]
      split
      · exact (t.pull now 1).1
      · split <;> exact nothing (t.streaming true fun _ => rfl)
    | trimming k =>
      simp only [Receiver.pullCut]
      by_cases hst : s.stream.isStreaming = true
      · simp only [hst, if_true]
        refine nothing ⟨t.opened, t.session, ?_⟩
        rcases t.state with b | ⟨b1, b2, b3, b4, b5⟩
        · exact .inl (b.steps k _ _)
        · have : trimSteps k s.stream.bytesToTrim s.stream.queue = (s.stream.bytesToTrim, s.stream.queue) := by
            rcases b4 with b4 | b4
            · rw [b4]; cases k <;> rfl
            · rw [b4]; cases k <;> cases s.stream.bytesToTrim <;> rfl
          rw [this]
          exact .inr ⟨b1, by first | exact b2 | rfl, b3, b4, b5⟩
      · have hst' : s.stream.isStreaming = false := by simpa using hst
        simp only [hst', Bool.false_eq_true, if_false]
        obtain ⟨b, e1, e2⟩ := testTimestamp_fields (C := C) s.stream now
        have t' := t.streaming b (fun h => absurd h hst)
        cases hx : s.stream.testTimestamp C now with
        | mk o st =>
          rw [hx] at e1
          simp only at e1
          subst e1
          cases o with
          | some e => exact nothing t'
          | none =>
            refine nothing ⟨t'.opened, t'.session, ?_⟩
            rcases t.state with b | ⟨_, b2, _⟩
            · exact .inl (b.steps k _ _)
            · exact absurd b2 hst
    | after n =>
      simp only [Receiver.pullCut]
      split
      · exact (t.pull now (n + 1)).1
      · exact (t.pull now (n + 1)).1
  -- the last blocks
  have last : ∀ (s : Receiver κ), s.stream.closed = true → s.Tied C h p R → Balance h p.queue.flatten R s.stream.bytesToTrim s.stream.queue → ∀ now blocks k,
      (s.pull C now (s.stream.queue.length + 1)).1.2 = .returned → (s.pull C now (s.stream.queue.length + 1)).2.lastBlocks C = (none, blocks) →
      Receiver.Tied C h (s.pull C now (s.stream.queue.length + 1)).2 p
        (R ++ ((s.pull C now (s.stream.queue.length + 1)).1.1 ++ blocks.take k).flatten) := by
    intro s hc t bal now blocks k hr hl
    obtain ⟨t1, t2, t3, t4⟩ := t.pull now (s.stream.queue.length + 1)
    obtain ⟨f1, f2, f3⟩ := t2 hr (by omega)
    rw [List.flatten_append, ← List.append_assoc]
    generalize hs' : (s.pull C now (s.stream.queue.length + 1)).2 = s' at *
    generalize hR' : R ++ (s.pull C now (s.stream.queue.length + 1)).1.1.flatten = R' at *
    unfold Receiver.lastBlocks at hl
    split at hl
    · cases hl
    · next l hlast =>
      simp only [Prod.mk.injEq, true_and] at hl
      have hpre : (blocks.take k).flatten <+: s'.stream.queue.flatten := by
        have h1 : (blocks.take k).flatten <+: blocks.flatten := by
          conv => rhs; rw [← List.take_append_drop k blocks]
          rw [List.flatten_append]
          exact List.prefix_append ..
        refine h1.trans ?_
        rw [← hl, Text.batch_flatten _ hB]
        exact slice_prefix ..
      have hne : s'.stream.queue ≠ [] := by rintro h0; rw [h0] at hlast; cases hlast
      have h0 : s'.stream.bytesToTrim = 0 := f2.resolve_right hne
      refine ⟨t1.opened, t1.session, .inr ⟨t3.trans hc, f1, f3, f2, ?_⟩⟩
      obtain ⟨w, hw⟩ := hpre
      refine ⟨w, ?_⟩
      have := (t4 bal).flat
      rw [h0, Nat.sub_zero] at this
      rw [List.append_assoc, hw, this]
  -- what happens before the iteration of `afinalize`
  have close : (∀ o s', s.close C = (some o, s') → s'.Tied C h p R) ∧
      (∀ s', s.close C = (none, s') → s'.stream.closed = true ∧ s'.Tied C h p R ∧ Balance h p.queue.flatten R s'.stream.bytesToTrim s'.stream.queue) := by
    by_cases hc : s.stream.closed = true
    · refine ⟨fun o s' h => ?_, fun s' h => ?_⟩
      · simp only [Receiver.close, hc, if_true, Prod.mk.injEq] at h
        obtain ⟨_, rfl⟩ := h
        exact t
      · simp only [Receiver.close, hc, if_true, Prod.mk.injEq] at h
        cases h.1
    · have hc' : s.stream.closed = false := by simpa using hc
      simp only [Receiver.close, hc', Bool.false_eq_true, if_false]
      obtain ⟨c1, c2⟩ := setClosed s.stream.session hc' t
      by_cases hs : s.stuck = true
      · simp only [hs, if_true, Prod.mk.injEq]
        refine ⟨?_, fun s' h => (by cases h.1)⟩
        rintro _ _ ⟨_, rfl⟩
        have := c1
        simpa [hs] using this
      · simp only [hs, Bool.false_eq_true, if_false]
        cases s.stream.session.shmac.finalize C.toEnv with
        | error e =>
          simp only [Prod.mk.injEq]
          refine ⟨?_, fun s' h => (by cases h.1)⟩
          rintro _ _ ⟨_, rfl⟩
          exact ⟨c1.opened, c1.session, c1.state⟩
        | ok x =>
          simp only [Prod.mk.injEq]
          refine ⟨fun o s' h => (by cases h.1), ?_⟩
          rintro _ ⟨_, rfl⟩
          have c3 := (setClosed { s.stream.session with shmac := x.2 } hc' t).1
          exact ⟨rfl, ⟨c3.opened, c3.session, c3.state⟩, c2⟩
  cases c with
  | buffer d =>
    obtain ⟨h1, d', h2, h3, h4⟩ := t.buffer d
    refine ⟨.buffer d', .buffer _ _ _ h2 h3, ?_⟩
    simp only [Receiver.exec, h1]
    exact nothing h4
  | bufferCut d cut =>
    -- the first `k` packets are taken
    have part : ∀ k, (s.buffer C (d.take (C.cfg.packetsize * k))).1.1 = [] ∧ ∃ d', d' <+: d ∧
        (s.buffer C (d.take (C.cfg.packetsize * k))).2.Tied C h (p.exec C (.buffer d')).2 R := by
      intro k
      obtain ⟨h1, d', h2, _, h4⟩ := t.buffer (d.take (C.cfg.packetsize * k))
      exact ⟨h1, d', h2.trans (List.take_prefix ..), h4⟩
    have zero : ∀ {o s'}, s'.Tied C h p R → (s.exec C (.bufferCut d cut)) = (([], o), s') →
        ∃ c', Takes (.bufferCut d cut) (s.exec C (.bufferCut d cut)).1.2 c' ∧
          (s.exec C (.bufferCut d cut)).2.Tied C h (p.exec C c').2 (R ++ (s.exec C (.bufferCut d cut)).1.1.flatten) := by
      intro o s' t' hx
      rw [hx]
      exact ⟨.buffer [], .bufferCut _ _ _ _ List.nil_prefix, by rw [plain_nil]; exact nothing t'⟩
    have some_ : ∀ {o s' d'}, d' <+: d → s'.Tied C h (p.exec C (.buffer d')).2 R → (s.exec C (.bufferCut d cut)) = (([], o), s') →
        ∃ c', Takes (.bufferCut d cut) (s.exec C (.bufferCut d cut)).1.2 c' ∧
          (s.exec C (.bufferCut d cut)).2.Tied C h (p.exec C c').2 (R ++ (s.exec C (.bufferCut d cut)).1.1.flatten) := by
      intro o s' d' hd t' hx
      rw [hx]
      exact ⟨.buffer d', .bufferCut _ _ _ _ hd, nothing t'⟩
    by_cases h1 : d = [] ∨ d.length % C.cfg.packetsize ≠ 0
    · exact zero t (by simp only [Receiver.exec, Receiver.bufferCut, if_pos h1]; rfl)
    cases cut with
    | entering => exact zero t (by simp only [Receiver.exec, Receiver.bufferCut, if_neg h1]; rfl)
    | leaving =>
      by_cases h2 : s.stuck = true
      · exact zero t (by simp only [Receiver.exec, Receiver.bufferCut, if_neg h1, h2, if_true]; rfl)
      · obtain ⟨_, d', e2, _, e4⟩ := t.buffer d
        exact some_ e2 (setStuck true e4) (by simp only [Receiver.exec, Receiver.bufferCut, if_neg h1, h2, Bool.false_eq_true, if_false]; rfl)
    | testing k =>
      by_cases h2 : s.stuck = true
      · exact zero t (by simp only [Receiver.exec, Receiver.bufferCut, if_neg h1, h2, if_true]; rfl)
      by_cases h3 : k = 0
      · subst h3
        by_cases h4 : s.stream.closed = true
        · exact zero t (by simp only [Receiver.exec, Receiver.bufferCut, if_neg h1, h2, h4, Bool.false_eq_true, if_false, if_true]; rfl)
        · exact zero t (by simp only [Receiver.exec, Receiver.bufferCut, if_neg h1, h2, h4, Bool.false_eq_true, if_false, if_true]; rfl)
      · obtain ⟨e1, d', e2, e3⟩ := part k
        by_cases h4 : (s.buffer C (d.take (C.cfg.packetsize * k))).1.2 ≠ .returned ∨ d.length ≤ C.cfg.packetsize * k
        · exact some_ (o := (s.buffer C (d.take (C.cfg.packetsize * k))).1.2) e2 e3 (by
            simp only [Receiver.exec, Receiver.bufferCut, if_neg h1, h2, if_neg h3, if_pos h4, Bool.false_eq_true, if_false, ← e1])
        · exact some_ e2 e3 (by simp only [Receiver.exec, Receiver.bufferCut, if_neg h1, h2, if_neg h3, if_neg h4, Bool.false_eq_true, if_false]; rfl)
    | cipher k session =>
      by_cases h2 : s.stuck = true
      · exact zero t (by simp only [Receiver.exec, Receiver.bufferCut, if_neg h1, h2, if_true]; rfl)
      by_cases h3 : k = 0
      · subst h3
        by_cases h4 : s.stream.closed = true
        · exact zero t (by simp only [Receiver.exec, Receiver.bufferCut, if_neg h1, h2, h4, Bool.false_eq_true, if_false, if_true]; rfl)
        · exact zero (setEnded session t) (by simp only [Receiver.exec, Receiver.bufferCut, if_neg h1, h2, h4, Bool.false_eq_true, if_false, if_true]; rfl)
      · obtain ⟨e1, d', e2, e3⟩ := part k
        by_cases h4 : (s.buffer C (d.take (C.cfg.packetsize * k))).1.2 ≠ .returned ∨ d.length ≤ C.cfg.packetsize * k
        · exact some_ (o := (s.buffer C (d.take (C.cfg.packetsize * k))).1.2) e2 e3 (by
            simp only [Receiver.exec, Receiver.bufferCut, if_neg h1, h2, if_neg h3, if_pos h4, Bool.false_eq_true, if_false, ← e1])
        · exact some_ e2 (setEnded session e3) (by simp only [Receiver.exec, Receiver.bufferCut, if_neg h1, h2, if_neg h3, if_neg h4, Bool.false_eq_true, if_false]; rfl)
  | pull now n => exact other rfl (t.pull now n).1
  | pullCut now cut => exact other rfl (pullCut s t now cut)
  | finalize now =>
    refine other rfl ?_
    simp only [Receiver.exec, Receiver.finalize]
    cases hcl : s.close C with
    | mk o s' =>
      cases o with
      | some o => exact nothing (close.1 o s' hcl)
      | none =>
        obtain ⟨c1, c2, c3⟩ := close.2 s' hcl
        simp only
        split
        · exact (c2.pull now _).1
        · next hr =>
          cases hl : (s'.pull C now (s'.stream.queue.length + 1)).2.lastBlocks C with
          | mk e blocks =>
            cases e with
            | some e => exact (c2.pull now _).1
            | none =>
              have := last s' c1 c2 c3 now blocks blocks.length (Classical.not_not.1 hr) hl
              rwa [List.take_length] at this
  | finalizeCut now shmac =>
    refine other rfl ?_
    simp only [Receiver.exec, Receiver.finalizeCut]
    by_cases hc : s.stream.closed = true
    · simp only [hc, if_true]
      exact nothing t
    · have hc' : s.stream.closed = false := by simpa using hc
      simp only [hc', Bool.false_eq_true, if_false]
      split
      · exact nothing (setClosed _ hc' t).1
      · exact nothing (setClosed _ hc' t).1
  | finalizeRelease now cut =>
    refine other rfl ?_
    simp only [Receiver.exec]
    cases hcl : s.close C with
    | mk o s' =>
      cases o with
      | some o => exact nothing (close.1 o s' hcl)
      | none => exact pullCut s' (close.2 s' hcl).2.1 now cut
  | finalizeRest now k left =>
    refine other rfl ?_
    simp only [Receiver.exec]
    cases hcl : s.close C with
    | mk o s' =>
      cases o with
      | some o => exact nothing (close.1 o s' hcl)
      | none =>
        obtain ⟨c1, c2, c3⟩ := close.2 s' hcl
        simp only
        split
        · exact setStuck left (c2.pull now _).1
        · next hr =>
          cases hl : (s'.pull C now (s'.stream.queue.length + 1)).2.lastBlocks C with
          | mk e blocks =>
            cases e with
            | some e => exact setStuck left (c2.pull now _).1
            | none => exact setStuck left (last s' c1 c2 c3 now blocks k (Classical.not_not.1 hr) hl)

theorem Receiver.Tied.execAll (hB : 0 < C.cfg.blocksize) {h : Nat} : ∀ (H : List (Uncall κ)) {s : Receiver κ} {p : DecipherStream κ} {R : Bytes}, s.Tied C h p R →
    ∃ calls, TakesAll H ((s.execAll C H).1.map (·.2)) calls ∧ (s.execAll C H).2.Tied C h (p.execAll C calls).2 (R ++ given (s.execAll C H).1) := by
  intro H
  induction H with
  | nil => intro s p R t; exact ⟨[], .nil, by simpa [given, Receiver.execAll, DecipherStream.execAll] using t⟩
  | cons c H ih =>
    intro s p R t
    obtain ⟨c', h1, h2⟩ := t.exec hB c
    obtain ⟨calls, i1, i2⟩ := ih h2
    refine ⟨c' :: calls, .cons h1 i1, ?_⟩
    simpa [given, Receiver.execAll, DecipherStream.execAll] using i2

theorem receiver_keeps_order (hB : 0 < C.cfg.blocksize) : ReceiverKeepsOrder C := by
  intro key saltDraw salt aad iv ttl dst hdst H
  simp only [DecipherStream.new, bind_eq_ok, pure, Except.pure, Except.ok.injEq] at hdst
  obtain ⟨bundle, _, session, _, rfl⟩ := hdst
  have t : Receiver.Tied C C.cfg.innerHeaderBytes ⟨⟨session, ttl, false, [], C.cfg.innerHeaderBytes, false⟩, false, false⟩
      ⟨session, ttl, false, [], C.cfg.innerHeaderBytes, false⟩ [] :=
    ⟨rfl, fun _ _ => rfl, .inl ⟨by simp, Nat.le_refl _, by simp, fun _ => rfl⟩⟩
  obtain ⟨calls, h1, h2⟩ := t.execAll hB H
  exact ⟨calls, h1, by simpa using h2.prefix_⟩

/-! ### what goes wrong -/

theorem Sender.finalize_plain {s : Sender κ} (hs : s.stuck = false) (he : s.ended = false) :
    (s.finalize C).1 = ((s.stream.finalize C).1.1, .of (s.stream.finalize C).1.2) ∧ (s.finalize C).2.stream = (s.stream.finalize C).2 := by
  by_cases hc : s.stream.closed = true
  · simp [Sender.finalize, CipherStream.finalize, hc, Outcome.of]
  · have hc' : s.stream.closed = false := by simpa using hc
    simp only [Sender.finalize, CipherStream.finalize, hc', hs, Bool.false_eq_true, if_false, Sender.padded]
    cases C.cfg.endPadding s.stream.extra s.stream.byteCount with
    | error e => exact ⟨rfl, rfl⟩
    | ok endp =>
      cases s.stream.buffer.getLast? with
      | none => exact ⟨rfl, rfl⟩
      | some last =>
        simp only [Sender.drain, he, Bool.false_eq_true, if_false, Sender.tag]
        generalize CipherStream.drain C 0 _ _ = r
        obtain ⟨⟨G, e⟩, st⟩ := r
        cases e with
        | some e => simp [Outcome.of]
        | none =>
          simp only [Outcome.of, ne_eq, not_true_eq_false, if_false]
          cases st.session.shmac.finalize C.toEnv <;> exact ⟨rfl, rfl⟩

theorem part_sent (S : Sound C) (u : Usable C) (hs : Streamable C.cfg) (hh : C.cfg.innerHeaderBytes < C.cfg.blocksize) : PartSent C := by
  intro a ha
  obtain ⟨bundle, st, h1, h2⟩ := chunking_irrelevant S u hs a ha
  refine ⟨bundle, st, h1, fun d1 d2 hd1 hd2 => ?_⟩
  obtain ⟨_, herr, _⟩ := h2 [.buffer d1, .finalize] (by simp)
  obtain ⟨r0, hr, _, _, hlen, hnew, _⟩ := stream_start S u ha
  rw [hnew] at h1
  simp only [Except.ok.injEq, Prod.mk.injEq] at h1
  obtain ⟨_, rfl⟩ := h1
  generalize hstart : beDigits C.cfg.timestampBytes a.draws.reading.toNat ++ a.draws.sivKey = start at *
  have hB : 0 < C.cfg.blocksize := S.block_pos
  have hmiss : C.cfg.blocksize - start.length = d1.length := by omega
  have hcut : digestData C.cfg.blocksize [start] (d1 ++ d2) 1 = [start ++ d1] := by
    simp only [digestData, List.getLast?_singleton]
    rw [if_neg (by omega), if_neg (by omega), hmiss, List.take_left]
    simp [readBlocks]
  have hplain : CipherStream.digestData C.cfg.blocksize [start] d1 = [start ++ d1, []] := by
    simp only [CipherStream.digestData, List.getLast?_singleton]
    rw [if_neg (by omega), if_neg (by omega), hmiss, List.take_length, List.drop_length]
    rw [CipherStream.readBlocks]
    simp [hB]
  have hend : C.cfg.endPadding a.draws.extra (0 + (d1 ++ d2).length) = C.cfg.endPadding a.draws.extra (0 + d1.length) := by
    have : C.cfg.padSize (0 + (d1 ++ d2).length) = C.cfg.padSize (0 + d1.length) := by
      simp only [Sizes.padSize, List.length_append, Nat.zero_add]
      rw [← Nat.add_assoc, Nat.add_mod, hd2, Nat.add_zero, Nat.mod_mod]
    rw [Sizes.endPadding_eq u.accepted.frame_pos, Sizes.endPadding_eq u.accepted.frame_pos, this]
  have hbatch : ∀ x, Text.batch C.cfg.blocksize (start ++ d1 ++ x) = [start ++ d1] ++ Text.batch C.cfg.blocksize x := by
    intro x
    have := batch_append hB [start ++ d1] (by simp; omega) x
    simpa using this
  -- the streams before `finalize`
  have hfin : ∀ session : Session κ, (CipherStream.finalize C ⟨session, [start ++ d1], 0 + (d1 ++ d2).length, false, a.draws.extra⟩).1 =
        (CipherStream.finalize C ⟨session, [start ++ d1, []], 0 + d1.length, false, a.draws.extra⟩).1 ∧
      (CipherStream.finalize C ⟨session, [start ++ d1], 0 + (d1 ++ d2).length, false, a.draws.extra⟩).2.session =
        (CipherStream.finalize C ⟨session, [start ++ d1, []], 0 + d1.length, false, a.draws.extra⟩).2.session := by
    intro session
    simp only [CipherStream.finalize, Bool.false_eq_true, if_false, hend]
    cases C.cfg.endPadding a.draws.extra (0 + d1.length) with
    | error e => exact ⟨rfl, rfl⟩
    | ok endp =>
      simp only [List.getLast?_singleton, List.getLast?_cons_cons, List.dropLast_singleton, List.dropLast_cons₂, List.nil_append, hbatch]
      generalize hX : [start ++ d1] ++ Text.batch C.cfg.blocksize endp = X
      have := drain_byteCount (C := C) 0 (0 + (d1 ++ d2).length) X.length ⟨session, X, 0 + d1.length, true, a.draws.extra⟩
      simp only at this
      rw [this]
      generalize CipherStream.drain C 0 _ _ = r
      obtain ⟨⟨G, e⟩, st⟩ := r
      cases e with
      | some e => exact ⟨rfl, rfl⟩
      | none => simp only; cases st.session.shmac.finalize C.toEnv <;> exact ⟨rfl, rfl⟩
  obtain ⟨f1, f2⟩ := hfin (r0.session false .encryption)
  have hp := Sender.finalize_plain (C := C) (s := ⟨⟨r0.session false .encryption, [start ++ d1], 0 + (d1 ++ d2).length, false, a.draws.extra⟩, false, false⟩) rfl rfl
  simp only [CipherStream.execAll, CipherStream.exec, CipherStream.bufferData, Bool.false_eq_true, if_false, hplain, expectedErrors,
    List.cons.injEq, and_true, true_and] at herr
  simp only [Sender.execAll, Sender.exec, Sender.bufferCut, Bool.false_eq_true, if_false, hcut, List.nil_append, List.append_nil, CipherStream.execAll,
    CipherStream.exec, CipherStream.bufferData, hplain]
  rw [hp.1, hp.2]
  refine ⟨congrArg Prod.fst f1, ?_, f2⟩
  simp only [f1, herr, Outcome.of]

theorem not_recipient_gets_whole (S : Sound C) (u : Usable C) (hs : Streamable C.cfg) (hframe : C.cfg.paddingFrame ≤ 256)
    (hh : C.cfg.innerHeaderBytes < C.cfg.blocksize) {a : StreamArgs} (ha : a.OK C.cfg) : ¬ RecipientGetsWhole C := by
  intro h
  obtain ⟨bundle, st, h1, h2⟩ := part_sent S u hs hh a ha
  let d1 : Bytes := List.replicate (C.cfg.blocksize - C.cfg.innerHeaderBytes) 0
  let d2 : Bytes := List.replicate C.cfg.paddingFrame 0
  have l1 : d1.length = C.cfg.blocksize - C.cfg.innerHeaderBytes := by simp [d1]
  have l2 : d2.length = C.cfg.paddingFrame := by simp [d2]
  obtain ⟨p1, p2, p3⟩ := h2 d1 d2 (by omega) (by rw [l2]; exact Nat.mod_self _)
  obtain ⟨dst, c1, c2⟩ := stream_comes_back S u hs hframe a d1 ha bundle st h1 a.draws.salt none ha.draws.salt
  have hne : (st.execAll C [.buffer d1, .finalize]).1 ≠ [] := by
    obtain ⟨dst', b', st', e1, e2, e3⟩ := expired_released S u hs hframe a none ha
    rw [h1] at e2
    simp only [Except.ok.injEq, Prod.mk.injEq] at e2
    rw [e2.2]
    exact (e3 d1).1
  obtain ⟨replies, last, dst', r1, r2, r3, r4, r5, r6, r7⟩ := c2 [.buffer (wire (st.execAll C [.buffer d1, .finalize]).1)] 0
    (by simpa using Feeds.buffer (time := NotExpired C.cfg a.draws.reading none) (st.execAll C [.buffer d1, .finalize]).1 hne .nil) (.inl rfl)
  obtain ⟨x, rfl⟩ := List.length_eq_one_iff.1 r5
  have hx := r6 (.buffer (wire (st.execAll C [.buffer d1, .finalize]).1), x) (by simp)
  have hx0 : x.err = none := by
    rcases hx.1 with h0 | ⟨_, now, n, h0⟩
    · exact h0
    · cases h0
  obtain ⟨whole, w1, w2⟩ := h a ha bundle st h1 [.bufferCut (d1 ++ d2) (.reading 1)] (by rw [List.singleton_append, p2]; rfl) dst c1 0 (by
    rw [List.singleton_append, p1]
    simp only [List.singleton_append] at r1
    rw [r1]
    simp [hx0, r3])
  rw [List.singleton_append] at w1 w2
  rw [p1] at w2
  simp only [List.singleton_append] at r1 r2
  rw [r1, r2] at w2
  rw [p2] at w1
  have hF := u.accepted.frame_pos
  cases w1 with
  | cons g1 g2 =>
    cases g2 with
    | cons g3 g4 =>
      cases g4
      cases g3
      cases g1 with
      | all =>
        have := congrArg List.length w2
        simp only [buffered, List.append_nil, List.length_append, l1, l2] at this
        omega
      | nothing =>
        have := congrArg List.length w2
        simp only [buffered, List.length_nil, l1] at this
        omega

theorem Receiver.finalize_plain {s : Receiver κ} (hs : s.stuck = false) (now : Int) :
    (s.finalize C now).1 = ((s.stream.finalize C now).1.1, .of (s.stream.finalize C now).1.2) := by
  by_cases hc : s.stream.closed = true
  · simp [Receiver.finalize, Receiver.close, DecipherStream.finalize, hc, Outcome.of]
  · have hc' : s.stream.closed = false := by simpa using hc
    simp only [Receiver.finalize, Receiver.close, DecipherStream.finalize, hc', hs, Bool.false_eq_true, if_false]
    cases s.stream.session.shmac.finalize C.toEnv with
    | error e => rfl
    | ok x =>
      simp only [Receiver.pull]
      obtain ⟨⟨⟨outs, e⟩, st⟩, hr⟩ : ∃ r, DecipherStream.pull C
        ⟨⟨x.2, s.stream.session.keys⟩, s.stream.ttl, s.stream.isStreaming, s.stream.queue, s.stream.bytesToTrim, true⟩ now (s.stream.queue.length + 1) = r := ⟨_, rfl⟩
      simp only [hr]
      cases e with
      | some e => simp [Outcome.of]
      | none =>
        simp only [Outcome.of, ne_eq, not_true_eq_false, if_false, Receiver.lastBlocks]
        cases st.queue.getLast? <;> rfl

theorem ttl_forgotten (S : Sound C) (u : Usable C) (hs : Streamable C.cfg) (hframe : C.cfg.paddingFrame ≤ 256) : TtlForgotten C := by
  intro a t ha
  obtain ⟨r0, hr, _, _, hlen, hnew, hdec, _⟩ := stream_start S u ha
  refine ⟨_, _, _, hdec _ (some t) ha.draws.salt, hnew, ?_⟩
  intro data early late
  obtain ⟨endp, G, r, st', e1, e2, e3, e4⟩ := reference_run (S := S) u hs ha hr data hlen
  rw [e3]
  have hflat : (Text.batch C.cfg.blocksize (beDigits C.cfg.timestampBytes a.draws.reading.toNat ++ a.draws.sivKey ++ data ++ endp)).flatten
      = beDigits C.cfg.timestampBytes a.draws.reading.toNat ++ a.draws.sivKey ++ data ++ endp := Text.batch_flatten _ S.block_pos _
  have hG : G ≠ [] := by
    rintro rfl
    generalize hb : Text.batch C.cfg.blocksize (beDigits C.cfg.timestampBytes a.draws.reading.toNat ++ a.draws.sivKey ++ data ++ endp) = Ps at *
    cases e2
    have h1 := congrArg List.length hflat
    have h2 := Sizes.length_endPadding u.accepted.frame_pos ha.draws.extra e1
    have h3 := (Sizes.padSize_bounds (c := C.cfg) u.accepted.frame_pos data.length).1
    simp only [List.flatten_nil, List.length_nil, List.length_append] at h1
    omega
  obtain ⟨st1, f1, f2, f3⟩ := (decipher_inv_init S r0 (some t)).buffer hs hr (.nil r0) e2 hG
  simp only [List.nil_append] at f2
  obtain ⟨new, dst2, r', g1, g2, g3, g4⟩ := f2.streaming.finalize (now := late) u.accepted.frame_pos (.inr rfl) hlen ha.draws.extra e1
    hflat ((sentinel_le_block u.accepted hframe).2 _) (sentinel_le_block u.accepted hframe).1
  have hw : st1.isStreaming = false := f3
  obtain ⟨_, _, hq⟩ := f2.fresh hw
  have hqne : ∃ b q, st1.queue = b :: q := by
    rw [hq]
    refine List.exists_cons_of_ne_nil ?_
    intro h0
    rw [h0] at e2
    cases e2
    exact hG rfl
  obtain ⟨b, q, hbq⟩ := hqne
  have hbuf : Receiver.buffer C ⟨⟨r0.session true .decryption, some t, false, [], C.cfg.innerHeaderBytes, false⟩, false, false⟩ (wire G) = (([], .returned), ⟨st1, false, false⟩) := by
    simp only [DecipherStream.exec] at f1
    have hok : (DecipherStream.bufferData C ⟨r0.session true .decryption, some t, false, [], C.cfg.innerHeaderBytes, false⟩ (wire G)) = (.ok, st1) := by
      split at f1 <;> simp_all
    simp only [Receiver.buffer, hok, Bool.false_eq_true, if_false]
    have : ¬(wire G = [] ∨ (wire G).length % C.cfg.packetsize ≠ 0) := by
      intro h0
      simp [DecipherStream.bufferData, h0] at hok
    rw [if_neg this]
  have hcut : Receiver.pullCut C ⟨st1, false, false⟩ early .testing = (([], .cancelled), ⟨{ st1 with isStreaming := true }, false, false⟩) := by
    simp [Receiver.pullCut, hw, f2.ttl, hbq]
  have hlast := Receiver.finalize_plain (C := C) (s := ⟨{ st1 with isStreaming := true }, false, false⟩) rfl late
  simp only [DecipherStream.exec, Prod.mk.injEq, UnstreamReply.mk.injEq] at g1
  simp only [g1.1.1, g1.1.2.1, Outcome.of] at hlast
  simp only [Receiver.execAll, Receiver.exec, hbuf, hcut, hlast, List.map_cons, List.map_nil, given]
  exact ⟨trivial, by simpa using g2⟩

theorem Sender.exec_stuck {s : Sender κ} (h : s.stuck = true) (c : Call κ) : (s.exec C c).2.stuck = true := by
  have hd : ∀ (s : Sender κ) keep n, s.stuck = true → (s.drain C keep n).2.stuck = true := by
    intro s keep n h; simp only [Sender.drain]; split <;> exact h
  have hdc : ∀ (s : Sender κ) keep n cut, s.stuck = true → (s.drainCut C keep n cut).2.stuck = true := by
    intro s keep n cut h
    have := hd s keep n h
    simp only [Sender.drainCut]
    repeat' split
    all_goals exact this
  cases c with
  | buffer d => simpa [Sender.exec, Sender.buffer, h] using h
  | bufferCut d cut => cases cut <;> simpa [Sender.exec, Sender.bufferCut, h] using h
  | pull n => exact hd s _ _ h
  | pullCut n cut => exact hdc s _ _ _ h
  | finalize => by_cases hc : s.stream.closed = true <;> simp [Sender.exec, Sender.finalize, h, hc]
  | finalizeCut cut => by_cases hc : s.stream.closed = true <;> simp [Sender.exec, Sender.finalizeCut, h, hc]

theorem Sender.execAll_stuck : ∀ (H : List (Call κ)) {s : Sender κ}, s.stuck = true → (s.execAll C H).2.2.stuck = true := by
  intro H
  induction H with
  | nil => exact fun h => h
  | cons c H ih => exact fun h => ih (s := (Sender.exec C _ c).2) (exec_stuck h c)

theorem Receiver.exec_stuck {s : Receiver κ} (h : s.stuck = true) (c : Uncall κ) : (s.exec C c).2.stuck = true := by
  have hp : ∀ now n, (s.pull C now n).2.stuck = true := fun now n => h
  have hclose : ∃ o s', s.close C = (some o, s') ∧ s'.stuck = true := by
    by_cases hc : s.stream.closed = true
    · exact ⟨_, _, by simp only [Receiver.close, hc, if_true]; rfl, h⟩
    · exact ⟨_, _, by simp only [Receiver.close, hc, Bool.false_eq_true, if_false, h, if_true]; rfl, rfl⟩
  obtain ⟨o, s', e1, e2⟩ := hclose
  cases c with
  | buffer d =>
    simp only [Receiver.exec, Receiver.buffer, h, if_true]
    split <;> exact h
  | bufferCut d cut =>
    simp only [Receiver.exec, Receiver.bufferCut]
    split
    · exact h
    · cases cut <;> simpa [h] using h
  | pull now n => exact h
  | pullCut now cut =>
    cases cut with
    | testing =>
      simp only [Receiver.exec, Receiver.pullCut]
      split
      · exact h
      · split <;> exact h
    | trimming k => simp only [Receiver.exec, Receiver.pullCut]; split <;> exact h
    | after n => simp only [Receiver.exec, Receiver.pullCut]; split <;> exact h
  | finalize now => simpa only [Receiver.exec, Receiver.finalize, e1] using e2
  | finalizeCut now b =>
    simp only [Receiver.exec, Receiver.finalizeCut, h, true_or, if_true]
    split
    · exact h
    · rfl
  | finalizeRelease now cut => simpa only [Receiver.exec, e1] using e2
  | finalizeRest now k b => simpa only [Receiver.exec, e1] using e2

theorem Receiver.execAll_stuck : ∀ (H : List (Uncall κ)) {s : Receiver κ}, s.stuck = true → (s.execAll C H).2.stuck = true := by
  intro H
  induction H with
  | nil => exact fun h => h
  | cons c H ih => exact fun h => ih (s := (Receiver.exec C _ c).2) (exec_stuck h c)

theorem Sender.exec_closed {s : Sender κ} (h : s.stream.closed = true) (c : Call κ) : (s.exec C c).2.stream.closed = true := by
  have hd : ∀ keep n, (s.drain C keep n).2.stream.closed = true := by
    intro keep n
    simp only [Sender.drain]
    split
    · exact h
    · exact (drain_closed ..).trans h
  cases c with
  | buffer d =>
    simp only [Sender.exec, Sender.buffer, CipherStream.bufferData, h, if_true]
    split <;> exact h
  | bufferCut d cut =>
    cases cut with
    | entering => exact h
    | reading k => simp only [Sender.exec, Sender.bufferCut, h, if_true]; split <;> exact h
    | leaving => simp only [Sender.exec, Sender.bufferCut, CipherStream.bufferData, h, if_true]; split <;> exact h
  | pull n => exact hd _ _
  | pullCut n cut =>
    have := hd C.cfg.minStreamQueue n
    simp only [Sender.exec, Sender.drainCut]
    repeat' split
    all_goals exact this
  | finalize => simpa [Sender.exec, Sender.finalize, h] using h
  | finalizeCut cut => simpa [Sender.exec, Sender.finalizeCut, h] using h

theorem Sender.execAll_closed : ∀ (H : List (Call κ)) {s : Sender κ}, s.stream.closed = true → (s.execAll C H).2.2.stream.closed = true := by
  intro H
  induction H with
  | nil => exact fun h => h
  | cons c H ih => exact fun h => ih (s := (Sender.exec C _ c).2) (exec_closed h c)

theorem Sender.finalizeCut_closed (s : Sender κ) (cut : FinalizeCut κ) : (s.exec C (.finalizeCut cut)).2.stream.closed = true := by
  by_cases h : s.stream.closed = true
  · exact exec_closed h _
  · have hd : ∀ (s : Sender κ) keep n, s.stream.closed = true → (s.drain C keep n).2.stream.closed = true := by
      intro s keep n h
      simp only [Sender.drain]
      split
      · exact h
      · exact (drain_closed ..).trans h
    have ht : ∀ (s : Sender κ), s.stream.closed = true → (s.tag C).2.stream.closed = true := by
      intro s h; simp only [Sender.tag]; split <;> exact h
    simp only [Sender.exec, Sender.finalizeCut, h, Bool.false_eq_true, if_false]
    split
    · rfl
    · split
      · rfl
      · cases cut with
        | padding => rfl
        | appending k => rfl
        | taking n cut =>
          simp only
          have hdc : ∀ (s : Sender κ) keep, s.stream.closed = true → (s.drainCut C keep n cut).2.stream.closed = true := by
            intro s keep h
            have hx := hd s keep n h
            simp only [Sender.drainCut]
            repeat' split
            all_goals exact hx
          split
          · exact hdc _ _ rfl
          · exact ht _ (hdc _ _ rfl)
        | tag => simp only; split <;> exact hd _ _ _ rfl
        | leaving =>
          simp only
          split
          · exact hd _ _ _ rfl
          · exact ht _ (hd _ _ _ rfl)

/-- **C94** After a call of `afinalize` was cancelled, wherever it was, there is no second try: every later call of `afinalize` raises `CipherStreamIsClosed` and gives out nothing. -/
theorem C94_no_second_try (s : Sender κ) (cut : FinalizeCut κ) (H : List (Call κ)) :
    (((s.exec C (.finalizeCut cut)).2.execAll C H).2.2.exec C .finalize).1 = ([], .raised .streamClosed) := by
  have h := Sender.execAll_closed (C := C) H (Sender.finalizeCut_closed (C := C) s cut)
  generalize ((s.exec C (.finalizeCut cut)).2.execAll C H).2.2 = s' at h
  simp [Sender.exec, Sender.finalize, h]

/-- **C94** A call of `abuffer` that is cancelled when it leaves the guard has buffered its data, and all later calls of `abuffer` wait for ever; so does `afinalize`, unless the stream is closed. -/
theorem C94_sender_stuck {s : Sender κ} (hs : s.stuck = false) (d d' : Bytes) (H : List (Call κ)) :
    (s.exec C (.bufferCut d .leaving)).2.stream = (s.exec C (.buffer d)).2.stream ∧
    (((s.exec C (.bufferCut d .leaving)).2.execAll C H).2.2.exec C (.buffer d')).1 = ([], .hangs) ∧
    ((((s.exec C (.bufferCut d .leaving)).2.execAll C H).2.2.exec C .finalize).1 = ([], .hangs) ∨
      (((s.exec C (.bufferCut d .leaving)).2.execAll C H).2.2.exec C .finalize).1 = ([], .raised .streamClosed)) := by
  have hst : (s.exec C (.bufferCut d .leaving)).2.stuck = true := by simp [Sender.exec, Sender.bufferCut, hs]
  refine ⟨?_, ?_⟩
  · simp only [Sender.exec, Sender.bufferCut, Sender.buffer, hs, Bool.false_eq_true, if_false]
    split <;> simp_all
  · have h := Sender.execAll_stuck (C := C) H hst
    generalize ((s.exec C (.bufferCut d .leaving)).2.execAll C H).2.2 = s' at h
    refine ⟨by simp [Sender.exec, Sender.buffer, h], ?_⟩
    by_cases hc : s'.stream.closed = true
    · exact .inr (by simp [Sender.exec, Sender.finalize, hc])
    · exact .inl (by simp [Sender.exec, Sender.finalize, h, hc])

theorem C94_receiver_stuck {s : Receiver κ} (hs : s.stuck = false) {d d' : Bytes} (hd : d ≠ [] ∧ d.length % C.cfg.packetsize = 0)
    (hd' : d' ≠ [] ∧ d'.length % C.cfg.packetsize = 0) (H : List (Uncall κ)) (now : Int) :
    (s.exec C (.bufferCut d .leaving)).2.stream = (s.exec C (.buffer d)).2.stream ∧
    (((s.exec C (.bufferCut d .leaving)).2.execAll C H).2.exec C (.buffer d')).1 = ([], .hangs) ∧
    ((((s.exec C (.bufferCut d .leaving)).2.execAll C H).2.exec C (.finalize now)).1 = ([], .hangs) ∨
      (((s.exec C (.bufferCut d .leaving)).2.execAll C H).2.exec C (.finalize now)).1 = ([], .raised .streamClosed)) := by
  have hst : (s.exec C (.bufferCut d .leaving)).2.stuck = true := by simp [Receiver.exec, Receiver.bufferCut, hs, hd.1, hd.2]
  refine ⟨?_, ?_⟩
  · simp [Receiver.exec, Receiver.bufferCut, hs, hd.1, hd.2]
  · have h := Receiver.execAll_stuck (C := C) H hst
    generalize ((s.exec C (.bufferCut d .leaving)).2.execAll C H).2 = s' at h
    refine ⟨by simp [Receiver.exec, Receiver.buffer, h, hd'.1, hd'.2], ?_⟩
    by_cases hc : s'.stream.closed = true
    · exact .inr (by simp [Receiver.exec, Receiver.finalize, Receiver.close, hc])
    · exact .inl (by simp [Receiver.exec, Receiver.finalize, Receiver.close, h, hc])

theorem testTimestamp_closed (st : DecipherStream κ) (now : Int) : (st.testTimestamp C now).2.closed = st.closed := by
  simp only [DecipherStream.testTimestamp]
  split
  · rfl
  · split <;> rfl

theorem pull_closed (st : DecipherStream κ) (now : Int) (n : Nat) : (st.pull C now n).2.closed = st.closed := by
  have hr : ∀ st : DecipherStream κ, (st.release C n).2.closed = st.closed := fun st => rfl
  have ht := testTimestamp_closed (C := C) st now
  simp only [DecipherStream.pull]
  split
  · rfl
  · split
    · exact hr _
    · split
      · next h => rw [h] at ht; exact ht
      · next h => rw [h] at ht; exact (hr _).trans ht

theorem Receiver.pullCut_closed {s : Receiver κ} (h : s.stream.closed = true) (now : Int) (cut : ReleaseCut) : (s.pullCut C now cut).2.stream.closed = true := by
  have hp : ∀ n, (s.pull C now n).2.stream.closed = true := fun n => (pull_closed s.stream now n).trans h
  cases cut with
  | testing =>
    simp only [Receiver.pullCut]
    split
    · exact hp 1
    · split <;> exact h
  | trimming k =>
    have ht := (testTimestamp_closed (C := C) s.stream now).trans h
    simp only [Receiver.pullCut]
    split
    · next e => split at e <;> simp_all
    · next e => split at e <;> simp_all
  | after n =>
    simp only [Receiver.pullCut]
    split <;> exact hp _

theorem Receiver.close_closed (s : Receiver κ) : (s.close C).2.stream.closed = true := by
  simp only [Receiver.close]
  split
  · assumption
  · split
    · rfl
    · split <;> rfl

/-- It is a call of `afinalize`. -/
def Uncall.finalizes : Uncall κ → Bool
  | .finalize _ => true
  | .finalizeCut .. => true
  | .finalizeRelease .. => true
  | .finalizeRest .. => true
  | _ => false

theorem Receiver.finalizes_closed (s : Receiver κ) {c : Uncall κ} (h : c.finalizes = true) : (s.exec C c).2.stream.closed = true := by
  have hc := Receiver.close_closed (C := C) s
  cases c with
  | finalize now =>
    simp only [Receiver.exec, Receiver.finalize]
    split
    · next e => rw [e] at hc; exact hc
    · next s' e =>
      rw [e] at hc
      have hp : ∀ n, (s'.pull C now n).2.stream.closed = true := fun n => (pull_closed s'.stream now n).trans hc
      repeat' split
      all_goals exact hp _
  | finalizeCut now b =>
    simp only [Receiver.exec, Receiver.finalizeCut]
    split
    · assumption
    · split <;> rfl
  | finalizeRelease now cut =>
    simp only [Receiver.exec]
    split
    · next e => rw [e] at hc; exact hc
    · next s' e => rw [e] at hc; exact Receiver.pullCut_closed hc now cut
  | finalizeRest now k b =>
    simp only [Receiver.exec]
    split
    · next e => rw [e] at hc; exact hc
    · next s' e =>
      rw [e] at hc
      have hp : ∀ n, (s'.pull C now n).2.stream.closed = true := fun n => (pull_closed s'.stream now n).trans hc
      repeat' split
      all_goals exact hp _
  | _ => cases h

theorem Receiver.exec_closed {s : Receiver κ} (h : s.stream.closed = true) (c : Uncall κ) : (s.exec C c).2.stream.closed = true := by
  have hb : ∀ d, (s.buffer C d).2.stream.closed = true := by
    intro d
    simp only [Receiver.buffer, h, if_true]
    repeat' split
    all_goals exact h
  by_cases hf : c.finalizes = true
  · exact finalizes_closed s hf
  cases c with
  | buffer d => exact hb d
  | bufferCut d cut =>
    cases cut <;> simp only [Receiver.exec, Receiver.bufferCut, h, if_true]
    all_goals repeat' split
    all_goals first | exact h | exact hb _
  | pull now n => exact (pull_closed s.stream now n).trans h
  | pullCut now cut => exact pullCut_closed h now cut
  | _ => exact absurd rfl hf

theorem Receiver.execAll_closed : ∀ (H : List (Uncall κ)) {s : Receiver κ}, s.stream.closed = true → (s.execAll C H).2.stream.closed = true := by
  intro H
  induction H with
  | nil => exact fun h => h
  | cons c H ih => exact fun h => ih (s := (Receiver.exec C _ c).2) (exec_closed h c)

/-- **C94** The same for receivers: after any call of `afinalize`, cancelled or not, every later one raises `CipherStreamIsClosed` and gives out nothing. -/
theorem C94_receiver_no_second_try (s : Receiver κ) {c : Uncall κ} (hc : c.finalizes = true) (H : List (Uncall κ)) (now : Int) :
    (((s.exec C c).2.execAll C H).2.exec C (.finalize now)).1 = ([], .raised .streamClosed) := by
  have h := Receiver.execAll_closed (C := C) H (Receiver.finalizes_closed (C := C) s hc)
  generalize ((s.exec C c).2.execAll C H).2 = s' at h
  simp [Receiver.exec, Receiver.finalize, Receiver.close, h]

theorem Sender.drainCut_ended (s : Sender κ) (keep n : Nat) (popped : Bool) (session : Session κ)
    (h : (s.drainCut C keep n (.cipher popped session)).1.2 = .cancelled) : (s.drainCut C keep n (.cipher popped session)).2.ended = true := by
  have hn : (s.drain C keep n).1.2 ≠ .cancelled := by
    simp only [Sender.drain]
    split
    · split <;> simp
    · cases (CipherStream.drain C keep s.stream n).1.2 <;> simp [Outcome.of]
  simp only [Sender.drainCut] at h ⊢
  split at h
  · exact absurd h hn
  · next h1 =>
    rw [if_neg h1]
    split at h
    · exact absurd h hn
    · next h2 =>
      split at h
      · exact absurd h hn
      · next h3 =>
        split at h
        · cases h
        · next h4 => simp only [h2] at h3 ⊢; simp only [if_neg h3, h4, Bool.false_eq_true, if_false]

/-- **C94** After taking a packet was cancelled inside of the cipher, nothing is given out any more: the packet is lost, and no later one follows it. -/
theorem C94_cipher_ends {s : Sender κ} (hs : s.stuck = false) (n : Nat) (popped : Bool) (session : Session κ) {c : Call κ}
    (hc : c = .pullCut n (.cipher popped session) ∨ c = .finalizeCut (.taking n (.cipher popped session)))
    (h : (s.exec C c).1.2 = .cancelled) (H : List (Call κ)) : ((s.exec C c).2.execAll C H).1 = [] := by
  refine Sender.ended_gives H _ ?_
  rcases hc with rfl | rfl
  · exact Sender.drainCut_ended s _ _ _ _ h
  · simp only [Sender.exec, Sender.finalizeCut, hs, Bool.false_eq_true, if_false] at h ⊢
    split at h
    · cases h
    · next h1 =>
      rw [if_neg h1]
      split at h
      · cases h
      · next front blocks h2 =>
        split at h
        · next h3 =>
          rw [if_pos h3]
          exact Sender.drainCut_ended _ _ _ _ _ h
        · next h3 =>
          have ht : ∀ s : Sender κ, (s.tag C).1 ≠ .cancelled := by intro s; simp only [Sender.tag]; split <;> simp
          exact absurd h (ht _)

end

/-- **C94** Senders. What is missing: calls of `abuffer` that are cancelled while they divide their data. -/
theorem C94_permute_sender_partial {E : Env} (h : PermuteSetup E) (hs : Streamable E.cfg) : SenderKeepsWhole (permuteCipher E) :=
  sender_keeps_whole (permuteSound E h.permuteWF) h.usable hs (idsMade_permute hs)

theorem C94_dual_sender_partial {E : DualEnv} (h : DualSetup E) (hs : Streamable E.cfg) (hle : E.cfg.innerHeaderBytes ≤ E.cfg.blocksize) : SenderKeepsWhole (dualCipher E) :=
  sender_keeps_whole (dualSound E h.wf h.sides.1 h.sides.2) h.usable hs (idsMade_dual hs hle)

/-- **C94** Receivers. -/
theorem C94_permute_receiver {E : Env} (h : PermuteSetup E) : ReceiverKeepsOrder (permuteCipher E) :=
  receiver_keeps_order (permuteSound E h.permuteWF).block_pos

theorem C94_dual_receiver {E : DualEnv} (h : DualSetup E) : ReceiverKeepsOrder (dualCipher E) :=
  receiver_keeps_order (dualSound E h.wf h.sides.1 h.sides.2).block_pos

theorem readBlocks_all {n : Nat} (hn : 0 < n) : ∀ (k : Nat) (d : Bytes), d.length < k → readBlocks n k d = CipherStream.readBlocks n d
  | 0, _, h => absurd h (Nat.not_lt_zero _)
  | k + 1, d, h => by
    rw [CipherStream.readBlocks, readBlocks]
    by_cases hd : d.length < n
    · rw [if_pos hd, dif_pos (.inr hd)]
    · rw [if_neg hd, dif_neg (by omega), readBlocks_all hn k _ (by rw [List.length_drop]; omega)]

theorem readBlocks_prefix (n : Nat) : ∀ (k : Nat) (d : Bytes), (readBlocks n k d).flatten <+: d
  | 0, _ => List.nil_prefix
  | k + 1, d => by
    rw [readBlocks]
    split
    · simp
    · rw [List.flatten_cons]
      obtain ⟨w, hw⟩ := readBlocks_prefix n k (d.drop n)
      exact ⟨w, by rw [List.append_assoc, hw, List.take_append_drop]⟩

theorem digestData_all {n : Nat} (hn : 0 < n) (buffer : List Bytes) (d : Bytes) {k : Nat} (hk : d.length + 1 < k) :
    digestData n buffer d k = CipherStream.digestData n buffer d := by
  unfold digestData CipherStream.digestData
  obtain ⟨k, rfl⟩ : ∃ j, k = j + 1 := ⟨k - 1, by omega⟩
  cases buffer.getLast? with
  | none => simp only [readBlocks_all hn _ d (show d.length < k + 1 by omega)]
  | some last =>
    simp only [readBlocks_all hn _ d (show d.length < k + 1 by omega)]
    rw [readBlocks_all hn k (d.drop _) (by rw [List.length_drop]; omega)]

theorem digestData_prefix (n : Nat) (buffer : List Bytes) (d : Bytes) (k : Nat) :
    ∃ part, part <+: d ∧ (digestData n buffer d k).flatten = buffer.flatten ++ part := by
  have hr : ∀ k, ∃ part, part <+: d ∧ (buffer ++ readBlocks n k d).flatten = buffer.flatten ++ part := fun k =>
    ⟨_, readBlocks_prefix n k d, List.flatten_append⟩
  unfold digestData
  cases hb : buffer.getLast? with
  | none => exact hr k
  | some last =>
    have hsplit : buffer.dropLast ++ [last] = buffer := by
      rw [List.getLast?_eq_some_iff] at hb
      obtain ⟨ys, rfl⟩ := hb
      simp
    have hfl : ∀ x : Bytes, (buffer.dropLast ++ [last ++ x]).flatten = buffer.flatten ++ x := fun x => by
      conv_rhs => rw [← hsplit]
      simp
    simp only
    split
    · exact hr k
    · cases k with
      | zero => exact ⟨[], List.nil_prefix, by simp⟩
      | succ k =>
        simp only
        split
        · exact ⟨d, List.prefix_rfl, hfl d⟩
        · split
          · exact ⟨_, List.take_prefix _ _, hfl _⟩
          · refine ⟨d.take (n - last.length) ++ (readBlocks n k (d.drop (n - last.length))).flatten, ?_, ?_⟩
            · obtain ⟨w, hw⟩ := readBlocks_prefix n k (d.drop (n - last.length))
              exact ⟨w, by rw [List.append_assoc, hw, List.take_append_drop]⟩
            · rw [List.flatten_append, hfl, List.append_assoc]

/-- **C94** A call of `abuffer` that is cancelled while it divides its data has put the first part of it, and nothing else, behind what was in the stream; if all was read
then it did what a call does that is not cancelled. -/
theorem C94_part_buffered {C : Cipher κ} (hB : 0 < C.cfg.blocksize) {s : Sender κ} (hs : s.stuck = false) (hc : s.stream.closed = false) (d : Bytes) (k : Nat) :
    (∃ part, part <+: d ∧ (s.exec C (.bufferCut d (.reading k))).2.stream.buffer.flatten = s.stream.buffer.flatten ++ part) ∧
    (s.exec C (.bufferCut d (.reading k))).2.stuck = false ∧
    (d.length + 1 < k → (s.exec C (.bufferCut d (.reading k))).2.stream = (s.exec C (.buffer d)).2.stream) := by
  simp only [Sender.exec, Sender.bufferCut, Sender.buffer, CipherStream.bufferData, hs, hc, Bool.false_eq_true, if_false, true_and]
  refine ⟨digestData_prefix .., fun hk => ?_⟩
  rw [digestData_all hB _ _ hk]

/-- **C94** A call of `abuffer` that is cancelled while it divides its data leaves the first part of it in the stream, and the recipient cannot tell. -/
theorem C94_permute_part_sent {E : Env} (h : PermuteSetup E) (hs : Streamable E.cfg) (hframe : E.cfg.paddingFrame ≤ 256) (hh : E.cfg.innerHeaderBytes < E.cfg.blocksize)
    {a : StreamArgs} (ha : a.OK E.cfg) : PartSent (permuteCipher E) ∧ ¬ RecipientGetsWhole (permuteCipher E) :=
  ⟨part_sent (permuteSound E h.permuteWF) h.usable hs hh, not_recipient_gets_whole (permuteSound E h.permuteWF) h.usable hs hframe hh ha⟩

theorem C94_dual_part_sent {E : DualEnv} (h : DualSetup E) (hs : Streamable E.cfg) (hframe : E.cfg.paddingFrame ≤ 256) (hh : E.cfg.innerHeaderBytes < E.cfg.blocksize)
    {a : StreamArgs} (ha : a.OK E.cfg) : PartSent (dualCipher E) ∧ ¬ RecipientGetsWhole (dualCipher E) :=
  ⟨part_sent (dualSound E h.wf h.sides.1 h.sides.2) h.usable hs hh, not_recipient_gets_whole (dualSound E h.wf h.sides.1 h.sides.2) h.usable hs hframe hh ha⟩

/-- **C94** An iteration that is cancelled while it tests the timestamp switches the test off. -/
theorem C94_permute_ttl_forgotten {E : Env} (h : PermuteSetup E) (hs : Streamable E.cfg) (hframe : E.cfg.paddingFrame ≤ 256) : TtlForgotten (permuteCipher E) :=
  ttl_forgotten (permuteSound E h.permuteWF) h.usable hs hframe

theorem C94_dual_ttl_forgotten {E : DualEnv} (h : DualSetup E) (hs : Streamable E.cfg) (hframe : E.cfg.paddingFrame ≤ 256) : TtlForgotten (dualCipher E) :=
  ttl_forgotten (dualSound E h.wf h.sides.1 h.sides.2) h.usable hs hframe

/-- The shipped ciphers are covered, and there are arguments. -/
example : SenderKeepsWhole (permuteCipher sampleSlick) ∧ ReceiverKeepsOrder (permuteCipher sampleSlick) ∧ ¬ RecipientGetsWhole (permuteCipher sampleSlick) ∧
    TtlForgotten (permuteCipher sampleSlick) ∧ SenderKeepsWhole (dualCipher sampleChunky) ∧ ReceiverKeepsOrder (dualCipher sampleChunky) ∧ TtlForgotten (dualCipher sampleChunky) ∧
    PartSent (dualCipher sampleChunky) :=
  ⟨C94_permute_sender_partial sampleSlick_setup sampleSlick_streamable, C94_permute_receiver sampleSlick_setup,
    (C94_permute_part_sent sampleSlick_setup sampleSlick_streamable (by decide) (by decide) sampleArgs_ok).2,
    C94_permute_ttl_forgotten sampleSlick_setup sampleSlick_streamable (by decide),
    C94_dual_sender_partial sampleChunky_setup sampleChunky_streamable (by decide), C94_dual_receiver sampleChunky_setup,
    C94_dual_ttl_forgotten sampleChunky_setup sampleChunky_streamable (by decide),
    part_sent (dualSound _ sampleChunky_setup.wf sampleChunky_setup.sides.1 sampleChunky_setup.sides.2) sampleChunky_setup.usable sampleChunky_streamable (by decide)⟩

end Aiootp.Cipher.Cancel
