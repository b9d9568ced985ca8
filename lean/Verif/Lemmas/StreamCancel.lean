import Verif.Model.StreamCancel
import Verif.Lemmas.Stream

/-
Lemmas about cancelled calls on asynchronous streams.
-/

namespace Aiootp.Cipher.Cancel

open Perm Cipher
open scoped List

variable {κ : Type} {C : Cipher κ}

/-! ### senders -/

/-- Whatever the cipher makes of a block, the stream-hmac makes a block id for it. -/
def IdsMade (C : Cipher κ) : Prop :=
  ∀ (s s' : Shmac) (k k' : κ) (block out : Bytes), C.turn s k block = .ok (out, s', k') → ∃ id, s'.nextBlockId C.toEnv out 0 [] = .ok id

/-- All packets that can still be taken while more than `keep` blocks are left. -/
def rest (C : Cipher κ) (keep : Nat) (st : CipherStream κ) : List Packet := (st.drain C keep st.buffer.length).1.1

theorem rest_small {keep : Nat} {st : CipherStream κ} (h : st.buffer.length ≤ keep) : rest C keep st = [] := by
  unfold rest
  cases hb : st.buffer with
  | nil => rfl
  | cons b bs =>
    simp only [List.length_cons, CipherStream.drain, hb]
    rw [hb, List.length_cons] at h
    rw [if_neg (by omega)]

theorem rest_cons {keep : Nat} {st : CipherStream κ} {b : Bytes} {bs : List Bytes} (hb : st.buffer = b :: bs) (h : keep < st.buffer.length) :
    rest C keep st = match C.emit st.session b with
      | .error _ => []
      | .ok (p, session) => p :: rest C keep { st with buffer := bs, session } := by
  unfold rest
  rw [hb, List.length_cons] at h
  simp only [hb, List.length_cons, CipherStream.drain]
  rw [if_pos (by omega)]
  cases C.emit st.session b with
  | error e => rfl
  | ok x => rfl

theorem drain_rest (keep : Nat) : ∀ (n : Nat) (st : CipherStream κ),
    ((st.drain C keep n).1.2 = none → rest C keep st = (st.drain C keep n).1.1 ++ rest C keep (st.drain C keep n).2) ∧
    ((st.drain C keep n).1.2 ≠ none → rest C keep st = (st.drain C keep n).1.1) := by
  intro n
  induction n with
  | zero => intro st; exact ⟨fun _ => rfl, fun h => (by simp [CipherStream.drain] at h)⟩
  | succ n ih =>
    intro st
    cases hb : st.buffer with
    | nil => simp [CipherStream.drain, hb]
    | cons b bs =>
      by_cases hk : st.buffer.length > keep
      · have hk' := hk
        rw [hb] at hk'
        rw [rest_cons hb hk]
        simp only [CipherStream.drain, hb, if_pos hk']
        cases C.emit st.session b with
        | error e => simp
        | ok x =>
          obtain ⟨h1, h2⟩ := ih { st with buffer := bs, session := x.2 }
          refine ⟨fun h => ?_, fun h => ?_⟩
          · simp only at h ⊢
            rw [h1 h]; rfl
          · simp only at h ⊢
            rw [h2 h]
      · have hk' := hk
        rw [hb] at hk'
        simp only [CipherStream.drain, hb, if_neg hk']
        exact ⟨fun _ => rfl, fun h => absurd rfl h⟩

theorem drain_closed (keep : Nat) : ∀ (n : Nat) (st : CipherStream κ), (st.drain C keep n).2.closed = st.closed := by
  intro n
  induction n with
  | zero => intro st; rfl
  | succ n ih =>
    intro st
    simp only [CipherStream.drain]
    split
    · rfl
    · split
      · split
        · rfl
        · simp only [ih]
      · rfl

theorem drain_none (keep : Nat) : ∀ (n : Nat) (st : CipherStream κ), st.buffer.length ≤ n → (st.drain C keep n).1.2 = none →
    (st.drain C keep n).2.buffer.length ≤ keep := by
  intro n
  induction n with
  | zero => intro st h _; simp only [CipherStream.drain]; omega
  | succ n ih =>
    intro st h h0
    cases hb : st.buffer with
    | nil => simp [CipherStream.drain, hb]
    | cons b bs =>
      by_cases hk : st.buffer.length > keep
      · rw [hb] at hk h
        simp only [CipherStream.drain, hb, if_pos hk] at h0 ⊢
        cases hx : C.emit st.session b with
        | error e => simp [hx] at h0
        | ok x =>
          simp only [hx] at h0 ⊢
          exact ih _ (by simpa using h) h0
      · have hk' := hk
        rw [hb] at hk'
        simp only [CipherStream.drain, hb, if_neg hk']
        omega

/-- Taking never empties the queue further than `keep`. -/
theorem drain_keep (keep : Nat) : ∀ (n : Nat) (st : CipherStream κ), keep ≤ st.buffer.length → keep ≤ (st.drain C keep n).2.buffer.length := by
  intro n
  induction n with
  | zero => intro st h; exact h
  | succ n ih =>
    intro st h
    cases hb : st.buffer with
    | nil => rw [hb] at h; simpa [CipherStream.drain, hb] using h
    | cons b bs =>
      by_cases hk : st.buffer.length > keep
      · rw [hb] at hk
        have : keep ≤ bs.length := by simp only [List.length_cons] at hk; omega
        simp only [CipherStream.drain, hb, if_pos hk]
        cases C.emit st.session b with
        | error e => exact this
        | ok x => exact ih _ this
      · rw [hb] at hk h
        simpa only [CipherStream.drain, hb, if_neg hk] using h

theorem drain_cons {keep : Nat} {st : CipherStream κ} {b : Bytes} {bs : List Bytes} (hb : st.buffer = b :: bs) (h : (b :: bs).length > keep) (n : Nat) :
    st.drain C keep (n + 1) = match C.emit st.session b with
      | .error e => (([], some e), { st with buffer := bs })
      | .ok (p, session) =>
        ((p :: (CipherStream.drain C keep { st with buffer := bs, session } n).1.1, (CipherStream.drain C keep { st with buffer := bs, session } n).1.2),
          (CipherStream.drain C keep { st with buffer := bs, session } n).2) := by
  simp only [CipherStream.drain, hb, if_pos h]
  cases C.emit st.session b <;> rfl

/-- One more packet. -/
theorem drain_succ (keep : Nat) {b : Bytes} {bs : List Bytes} {p : Packet} {session : Session κ} : ∀ (n : Nat) (st : CipherStream κ),
    (st.drain C keep n).1.2 = none → (st.drain C keep n).2.buffer = b :: bs → keep < (st.drain C keep n).2.buffer.length →
    C.emit (st.drain C keep n).2.session b = .ok (p, session) →
    st.drain C keep (n + 1) = (((st.drain C keep n).1.1 ++ [p], none), { (st.drain C keep n).2 with buffer := bs, session }) := by
  intro n
  induction n with
  | zero =>
    intro st _ h1 h2 h3
    simp only [CipherStream.drain] at h1 h2 h3
    rw [h1] at h2
    have h2' : (b :: bs).length > keep := h2
    simp only [CipherStream.drain, h1, if_pos h2', h3, List.nil_append]
  | succ n ih =>
    intro st h0 h1 h2 h3
    cases hb : st.buffer with
    | nil => simp [CipherStream.drain, hb] at h1
    | cons b' bs' =>
      by_cases hk : (b' :: bs').length > keep
      · rw [drain_cons hb hk] at h0 h1 h2 h3 ⊢
        rw [drain_cons hb hk]
        cases hx : C.emit st.session b' with
        | error e => simp [hx] at h0
        | ok x =>
          simp only [hx] at h0 h1 h2 h3 ⊢
          rw [ih _ h0 h1 h2 h3]
          rfl
      · simp only [CipherStream.drain, hb, if_neg hk] at h2
        omega

theorem drain_ne_nil {keep : Nat} (hkeep : 1 ≤ keep) (n : Nat) {st : CipherStream κ} (hb : st.buffer ≠ []) : (st.drain C keep n).2.buffer ≠ [] := by
  by_cases hl : st.buffer.length ≤ keep
  · have : (st.drain C keep n).2 = st := by
      cases n with
      | zero => rfl
      | succ n =>
        cases hbb : st.buffer with
        | nil => simp [CipherStream.drain, hbb]
        | cons b bs =>
          have : ¬ (b :: bs).length > keep := by rw [← hbb]; omega
          simp only [CipherStream.drain, hbb, if_neg this]
    rw [this]; exact hb
  · have := drain_keep (C := C) keep n st (by omega)
    intro h'
    rw [h'] at this
    simp only [List.length_nil] at this
    omega

theorem rest_prefix {keep : Nat} {X Y : List Bytes} (hX : X.length ≤ keep) : ∀ (F : List Bytes) (st st' : CipherStream κ),
    st.session = st'.session → st.buffer = F ++ X → st'.buffer = F ++ Y → rest C keep st <+: rest C 0 st' := by
  intro F
  induction F with
  | nil =>
    intro st st' _ h _
    rw [rest_small (by rw [h]; simpa using hX)]
    exact List.nil_prefix
  | cons b F ih =>
    intro st st' hs h h'
    by_cases hk : st.buffer.length ≤ keep
    · rw [rest_small hk]; exact List.nil_prefix
    · rw [rest_cons (b := b) (bs := F ++ X) h (by omega), rest_cons (b := b) (bs := F ++ Y) h' (by rw [h']; simp), hs]
      cases C.emit st'.session b with
      | error e => exact List.nil_prefix
      | ok x =>
        exact List.prefix_cons_inj x.1 |>.2 (ih _ _ rfl rfl rfl)

theorem rest_keep (keep : Nat) (st : CipherStream κ) : rest C keep st <+: rest C 0 st :=
  rest_prefix (X := []) (Y := []) (Nat.zero_le _) st.buffer st st rfl (by simp) (by simp)

namespace Sender

/-- What can still be given out. -/
def left (C : Cipher κ) (keep : Nat) (s : Sender κ) : List Packet := if s.ended then [] else rest C keep s.stream

theorem left_keep (keep : Nat) (s : Sender κ) : s.left C keep <+: s.left C 0 := by
  unfold left
  split
  · exact List.nil_prefix
  · exact rest_keep keep s.stream

theorem left_small {keep : Nat} {s : Sender κ} (h : s.stream.buffer.length ≤ keep) : s.left C keep = [] := by
  unfold left
  split
  · rfl
  · exact rest_small h

theorem drain_left (keep n : Nat) (s : Sender κ) :
    ((s.drain C keep n).2.stream.closed = s.stream.closed) ∧ (s.drain C keep n).1.1 ++ (s.drain C keep n).2.left C keep <+ s.left C keep := by
  unfold drain
  by_cases he : s.ended
  · simp [he, left]
  · simp only [he]
    refine ⟨by simpa using drain_closed keep n s.stream, ?_⟩
    obtain ⟨h1, h2⟩ := drain_rest (C := C) keep n s.stream
    simp only [left, he, Bool.false_eq_true, if_false]
    cases hx : (s.stream.drain C keep n).1.2 with
    | none => simp [← h1 hx]
    | some e => simp [h2 (by simp [hx])]

theorem drain_returned {keep n : Nat} {s : Sender κ} (hn : s.stream.buffer.length ≤ n) (h : (s.drain C keep n).1.2 = .returned) :
    (s.drain C keep n).2.stream.buffer.length ≤ keep := by
  unfold drain at h ⊢
  by_cases he : s.ended
  · simp only [he, if_true] at h ⊢
    by_cases h2 : n ≠ 0 ∧ s.stream.buffer.length > keep
    · simp [h2] at h
    · omega
  · simp only [he, Bool.false_eq_true, if_false] at h ⊢
    apply drain_none keep n s.stream hn
    cases hx : (s.stream.drain C keep n).1.2 with
    | none => rfl
    | some e => simp [hx, Outcome.of] at h

theorem drainCut_returned {keep n : Nat} {cut : TakeCut κ} {s : Sender κ} (h : (s.drainCut C keep n cut).1.2 = .returned) :
    (s.drainCut C keep n cut).2.stream.buffer.length ≤ keep := by
  unfold drainCut at h ⊢
  simp only at h ⊢
  split at h
  · next h1 => exact absurd h h1
  · next h1 =>
    rw [if_neg h1]
    split at h
    · next hb => simp [hb]
    · next b bs hb =>
      split at h
      · next h2 => rwa [if_pos h2]
      · next h2 =>
        exfalso
        split at h
        · cases h
        · split at h
          · cases h
          · split at h <;> cases h

theorem drainCut_left (hids : IdsMade C) (keep n : Nat) (cut : TakeCut κ) (s : Sender κ) :
    ((s.drainCut C keep n cut).2.stream.closed = s.stream.closed) ∧
    (s.drainCut C keep n cut).1.1 ++ (s.drainCut C keep n cut).2.left C keep <+ s.left C keep := by
  obtain ⟨d1, d2⟩ := drain_left (C := C) keep n s
  unfold drainCut
  simp only
  split
  · exact ⟨d1, d2⟩
  · split
    · exact ⟨d1, d2⟩
    · next b bs hb =>
      split
      · exact ⟨d1, d2⟩
      · next hk =>
        split
        · next he => exact ⟨d1, d2⟩
        · next he =>
          have hnil : (s.drain C keep n).1.1 ++ [] <+ s.left C keep :=
            ((List.Sublist.refl _).append (List.nil_sublist _)).trans d2
          cases cut with
          | cipher popped session => exact ⟨d1, by simpa [left] using hnil⟩
          | blockId =>
            have hl : (s.drain C keep n).2.left C keep = rest C keep (s.drain C keep n).2.stream := by simp [left, he]
            simp only
            split
            · exact ⟨d1, by simpa [left] using hnil⟩
            · next out shmac keys ht =>
              refine ⟨d1, ?_⟩
              obtain ⟨id, hid⟩ := hids _ _ _ _ _ _ ht
              have hem : C.emit (s.drain C keep n).2.stream.session b = .ok ((id, out), ⟨shmac, keys⟩) := by
                simp [Cipher.emit, ht, hid, bind, Except.bind, pure, Except.pure]
              rw [hl, rest_cons hb (by omega), hem] at d2
              refine List.Sublist.trans ?_ d2
              refine (List.Sublist.refl _).append ?_
              simp only [left, he]
              exact List.sublist_cons_self _ _

/-- After `_stream` has ended, no packet is given out. -/
theorem ended_gives : ∀ (H : List (Call κ)) (s : Sender κ), s.ended = true → (s.execAll C H).1 = [] := by
  intro H
  induction H with
  | nil => intro s _; rfl
  | cons c H ih =>
    intro s he
    have key : (s.exec C c).1.1 = [] ∧ (s.exec C c).2.ended = true := by
      have hd : ∀ (s : Sender κ) keep n, s.ended = true → (s.drain C keep n).1.1 = [] ∧ (s.drain C keep n).2.ended = true := by
        intro s keep n he; simp [drain, he]
      have hdc : ∀ (s : Sender κ) keep n cut, s.ended = true → (s.drainCut C keep n cut).1.1 = [] ∧ (s.drainCut C keep n cut).2.ended = true := by
        intro s keep n cut he
        obtain ⟨h1, h2⟩ := hd s keep n he
        unfold drainCut
        simp only
        split
        · exact ⟨h1, h2⟩
        · split
          · exact ⟨h1, h2⟩
          · split
            · exact ⟨h1, h2⟩
            · exact ⟨h1, h2⟩
      have ht : ∀ (s : Sender κ), (s.tag C).2.ended = s.ended := by
        intro s; unfold tag; split <;> rfl
      cases c with
      | buffer d =>
        simp only [exec, buffer]
        split
        · exact ⟨rfl, he⟩
        · split <;> exact ⟨rfl, he⟩
      | bufferCut d cut =>
        simp only [exec, bufferCut]
        cases cut with
        | entering => exact ⟨rfl, he⟩
        | reading k =>
          simp only
          split
          · exact ⟨rfl, he⟩
          · split <;> exact ⟨rfl, he⟩
        | leaving => simp only; split <;> exact ⟨rfl, he⟩
      | pull n => exact hd s _ n he
      | pullCut n cut => exact hdc s _ n cut he
      | finalize =>
        simp only [exec, finalize]
        split
        · exact ⟨rfl, he⟩
        · split
          · exact ⟨rfl, he⟩
          · split
            · exact ⟨rfl, he⟩
            · split
              · exact hd _ _ _ (by exact he)
              · exact ⟨(hd _ _ _ (by exact he)).1, (ht _).trans (hd _ _ _ (by exact he)).2⟩
      | finalizeCut cut =>
        simp only [exec, finalizeCut]
        split
        · exact ⟨rfl, he⟩
        · split
          · exact ⟨rfl, he⟩
          · split
            · exact ⟨rfl, he⟩
            · cases cut with
              | padding => exact ⟨rfl, he⟩
              | appending k => exact ⟨rfl, he⟩
              | taking n cut =>
                simp only
                split
                · exact hdc _ _ _ _ (by exact he)
                · exact ⟨(hdc _ _ _ _ (by exact he)).1, (ht _).trans (hdc _ _ _ _ (by exact he)).2⟩
              | tag =>
                simp only
                split
                · exact hd _ _ _ (by exact he)
                · exact hd _ _ _ (by exact he)
              | leaving =>
                simp only
                refine ⟨(hd _ _ _ (by exact he)).1, ?_⟩
                split
                · exact (hd _ _ _ (by exact he)).2
                · exact (ht _).trans (hd _ _ _ (by exact he)).2
    simp only [execAll, key.1, ih _ key.2, List.append_nil]

/-- From a stream that is closed, what was left can be taken. -/
theorem closed_gives (hids : IdsMade C) : ∀ (H : List (Call κ)) (s : Sender κ), s.stream.closed = true →
    (s.execAll C H).1 <+ s.left C C.cfg.minStreamQueue := by
  intro H
  induction H with
  | nil => intro s _; exact List.nil_sublist _
  | cons c H ih =>
    intro s hc
    have key : (s.exec C c).2.stream.closed = true ∧
        (s.exec C c).1.1 ++ (s.exec C c).2.left C C.cfg.minStreamQueue <+ s.left C C.cfg.minStreamQueue := by
      cases c with
      | buffer d =>
        simp only [exec, buffer]
        split
        · exact ⟨hc, List.Sublist.refl _⟩
        · simp only [CipherStream.bufferData, hc, if_true]
          exact ⟨trivial, by simp [left]⟩
      | bufferCut d cut =>
        simp only [exec, bufferCut]
        cases cut with
        | entering => exact ⟨hc, List.Sublist.refl _⟩
        | reading k => simp only [hc, if_true]; split <;> exact ⟨hc, List.Sublist.refl _⟩
        | leaving =>
          simp only
          split
          · exact ⟨hc, List.Sublist.refl _⟩
          · simp only [CipherStream.bufferData, hc, if_true]
            exact ⟨trivial, by simp [left]⟩
      | pull n =>
        obtain ⟨h1, h2⟩ := drain_left (C := C) C.cfg.minStreamQueue n s
        exact ⟨h1.trans hc, h2⟩
      | pullCut n cut =>
        obtain ⟨h1, h2⟩ := drainCut_left hids C.cfg.minStreamQueue n cut s
        exact ⟨h1.trans hc, h2⟩
      | finalize => simp only [exec, finalize, hc, if_true]; exact ⟨trivial, by simp⟩
      | finalizeCut cut => simp only [exec, finalizeCut, hc, if_true]; exact ⟨trivial, by simp⟩
    simp only [execAll]
    exact (List.Sublist.append (List.Sublist.refl _) (ih _ key.1)).trans key.2

end Sender

/-! ### block ids are made -/

theorem update_some {E : Env} {s s' : Shmac} {b : Bytes} (h : s.update E b = .ok s') : ∃ p c, s'.previous = some p ∧ s'.current = some c := by
  simp only [Shmac.update, bind_eq_ok, pure, Except.pure, Except.ok.injEq] at h
  obtain ⟨_, _, mac, _, cur, _, rfl⟩ := h
  exact ⟨_, _, rfl, rfl⟩

theorem id_made {E : Env} (hs : Streamable E.cfg) {s s' : Shmac} {b out : Bytes} (h : s.update E b = .ok s') (ho : out.length = E.cfg.blocksize) :
    ∃ id, s'.nextBlockId E out 0 [] = .ok id := by
  obtain ⟨p, c, hp, hc⟩ := update_some h
  have : ∃ mac, s'.blockIdMac = .ok mac := by
    unfold Shmac.blockIdMac
    split
    · exact ⟨p, by rw [hp]; rfl⟩
    · exact ⟨c, by rw [hc]; rfl⟩
  obtain ⟨mac, hm⟩ := this
  exact ⟨_, nextBlockId_eq rfl hs hm ho (.inl rfl)⟩

theorem idsMade_permute {E : Env} (hs : Streamable E.cfg) : IdsMade (permuteCipher E) := by
  intro s s' k k' block out h
  cases hm : s.mode with
  | none =>
    simp only [permuteCipher, permuteTurn, hm, bind_eq_ok] at h
    obtain ⟨_, h, _⟩ := h
    cases h
  | some d =>
    cases d with
    | encryption =>
      simp only [permuteCipher, permuteTurn, hm, permuteEncipher, bind_eq_ok, pure, Except.pure, Except.ok.injEq, Prod.mk.injEq] at h
      obtain ⟨_, ⟨_, _, _, _, x, hx, s2, hu, rfl⟩, rfl, rfl, _⟩ := h
      obtain ⟨_, rfl⟩ := toBytesBE_ok.1 hx
      exact id_made hs hu (length_beDigits ..)
    | decryption =>
      simp only [permuteCipher, permuteTurn, hm, permuteDecipher, bind_eq_ok, pure, Except.pure, Except.ok.injEq, Prod.mk.injEq] at h
      obtain ⟨_, ⟨_, _, _, _, x, hx, s2, hu, rfl⟩, rfl, rfl, _⟩ := h
      obtain ⟨_, rfl⟩ := toBytesBE_ok.1 hx
      exact id_made hs hu (length_beDigits ..)

theorem length_content {c : Sizes} (hle : c.innerHeaderBytes ≤ c.blocksize) {n : Nat} {b : Bytes} (h : Sizes.toBytesSigned c.firstContentBytes n = .ok b) :
    b.length = c.blocksize - c.innerHeaderBytes := by
  unfold Sizes.toBytesSigned at h
  split at h
  · cases h
  · obtain ⟨_, rfl⟩ := toBytesBE_ok.1 h
    rw [length_beDigits]
    unfold Sizes.firstContentBytes
    omega

theorem idsMade_dual {E : DualEnv} (hs : Streamable E.cfg) (hle : E.cfg.innerHeaderBytes ≤ E.cfg.blocksize) : IdsMade (dualCipher E) := by
  intro s s' k k' block out h
  simp only [dualCipher, dualTurn] at h
  split at h
  · cases h
  · simp only [uniqueCipher, bind_eq_ok, pure, Except.pure, Except.ok.injEq, Prod.mk.injEq] at h
    obtain ⟨_, _, mh, hmh, _, _, _, _, content, hc, s2, hu, rfl, rfl, _⟩ := h
    obtain ⟨_, rfl⟩ := toBytesBE_ok.1 hmh
    exact id_made hs hu (by rw [List.length_append, length_beDigits, length_content hle hc]; omega)
  · simp only [uniqueDecipher, bind_eq_ok, pure, Except.pure, Except.ok.injEq, Prod.mk.injEq] at h
    obtain ⟨_, _, mh, hmh, _, _, _, _, content, hc, s2, hu, rfl, rfl, _⟩ := h
    obtain ⟨_, rfl⟩ := toBytesBE_ok.1 hmh
    exact id_made hs hu (by rw [List.length_append, length_beDigits, length_content hle hc]; omega)
  · simp only [dualEncipher, bind_eq_ok, pure, Except.pure, Except.ok.injEq, Prod.mk.injEq] at h
    obtain ⟨_, _, _, ⟨x, hx, s2, hu, rfl⟩, rfl, rfl, _⟩ := h
    obtain ⟨_, rfl⟩ := toBytesBE_ok.1 hx
    exact id_made hs hu (length_beDigits ..)
  · simp only [dualDecipher, bind_eq_ok, pure, Except.pure, Except.ok.injEq, Prod.mk.injEq] at h
    obtain ⟨_, _, _, ⟨s2, hu, x, hx, rfl⟩, rfl, rfl, _⟩ := h
    obtain ⟨_, rfl⟩ := toBytesBE_ok.1 hx
    exact id_made hs hu (length_beDigits ..)

/-- The count of the bytes does not matter for taking packets. -/
theorem drain_byteCount (keep m : Nat) : ∀ (n : Nat) (st : CipherStream κ),
    CipherStream.drain C keep { st with byteCount := m } n = ((st.drain C keep n).1, { (st.drain C keep n).2 with byteCount := m }) := by
  intro n
  induction n with
  | zero => intro st; rfl
  | succ n ih =>
    intro st
    obtain ⟨ss, bu, bc, cl, ex⟩ := st
    cases bu with
    | nil => rfl
    | cons b bs =>
      by_cases hk : (b :: bs).length > keep
      · simp only [CipherStream.drain, if_pos hk]
        cases C.emit ss b with
        | error e => rfl
        | ok x =>
          have := ih ⟨x.2, bs, bc, cl, ex⟩
          simp only at this ⊢
          rw [this]
      · simp only [CipherStream.drain, if_neg hk]

/-! ### receivers -/

/-- What was decrypted, `q`, is what was given out, `R`, and what is in the queue, apart from the `h` bytes of the header, of which `n` are still to be removed. -/
structure Balance (h : Nat) (q R : Bytes) (n : Nat) (queue : List Bytes) : Prop where
  flat : R ++ queue.flatten = q.drop (h - n)
  le : n ≤ h
  have_le : h - n ≤ q.length
  first : n ≠ 0 → R = []

namespace Balance

theorem skip {h n n' j : Nat} {q R : Bytes} {queue queue' : List Bytes} (b : Balance h q R n queue) (h1 : queue'.flatten = queue.flatten.drop j)
    (h2 : n' = n - j) (h3 : j ≤ n) (h4 : j ≤ queue.flatten.length) : Balance h q R n' queue' := by
  subst h2
  by_cases hj : j = 0
  · subst hj
    rw [List.drop_zero] at h1
    exact ⟨by rw [h1]; exact b.flat, b.le, b.have_le, b.first⟩
  · have hR : R = [] := b.first (by omega)
    subst hR
    have hf := b.flat
    rw [List.nil_append] at hf
    have hle := b.le
    have hl := b.have_le
    have hlen := congrArg List.length hf
    rw [List.length_drop] at hlen
    refine ⟨?_, by omega, by omega, fun _ => rfl⟩
    rw [h1, hf, List.drop_drop, List.nil_append]
    congr 1
    omega

theorem trim {h n : Nat} {q R : Bytes} {queue : List Bytes} (b : Balance h q R n queue) :
    Balance h q R (DecipherStream.trim n queue).1 (DecipherStream.trim n queue).2 := by
  obtain ⟨h1, h2⟩ := DecipherStream.trim_flatten queue n
  refine b.skip (j := min n queue.flatten.length) ?_ (by omega) (by omega) (by omega)
  rw [h1, drop_min]

theorem steps {h : Nat} {q R : Bytes} : ∀ (k n : Nat) (queue : List Bytes), Balance h q R n queue → Balance h q R (trimSteps k n queue).1 (trimSteps k n queue).2 := by
  intro k
  induction k with
  | zero => intro n queue b; exact b
  | succ k ih =>
    intro n queue b
    cases n with
    | zero => exact b
    | succ n =>
      cases queue with
      | nil => exact b
      | cons x queue =>
        simp only [trimSteps]
        apply ih
        refine b.skip (j := min (n + 1) x.length) ?_ (by rw [List.length_take]) (by omega) (by simp)
        by_cases hx : x.drop (n + 1) = []
        · rw [if_pos hx]
          have : x.length ≤ n + 1 := by simpa using hx
          rw [Nat.min_eq_right this, List.flatten_cons, List.drop_left]
        · rw [if_neg hx]
          have : n + 1 ≤ x.length := by
            have : ¬ x.length ≤ n + 1 := fun h => hx (by simpa using h)
            omega
          rw [Nat.min_eq_left this, List.flatten_cons, List.flatten_cons, List.drop_append_of_le_length this]

theorem give {h n : Nat} {q R : Bytes} {queue : List Bytes} (b : Balance h q R n queue) (hn : n = 0 ∨ queue = []) (j : Nat) :
    Balance h q (R ++ (queue.take j).flatten) n (queue.drop j) := by
  refine ⟨?_, b.le, b.have_le, fun h0 => ?_⟩
  · rw [List.append_assoc, ← List.flatten_append, List.take_append_drop]; exact b.flat
  · rcases hn with hn | hn
    · exact absurd hn h0
    · rw [b.first h0, hn]; simp

theorem add {h n : Nat} {q R : Bytes} {queue : List Bytes} (b : Balance h q R n queue) (new : List Bytes) :
    Balance h (q ++ new.flatten) R n (queue ++ new) := by
  refine ⟨?_, b.le, by rw [List.length_append]; have := b.have_le; omega, b.first⟩
  rw [List.flatten_append, ← List.append_assoc, b.flat, List.drop_append_of_le_length b.have_le]

theorem prefix_ {h n : Nat} {q R : Bytes} {queue : List Bytes} (b : Balance h q R n queue) : R <+: q.drop h := by
  by_cases hn : n = 0
  · subst hn
    exact ⟨_, b.flat⟩
  · rw [b.first hn]; exact List.nil_prefix

end Balance

theorem slice_prefix {α} (e : Int) (l : List α) : Slice.of ⟨none, some e⟩ l <+: l := by
  simp only [Slice.of, List.drop_zero]
  exact List.take_prefix ..

/-- Two streams with the same hash objects decrypt the same. -/
theorem digest_same : ∀ (m : Nat) (data : Bytes), data.length ≤ m → ∀ (st st' : DecipherStream κ), st.session = st'.session →
    ∃ (reply : BufferReply) (session : Session κ) (new : List Bytes), DecipherStream.digestData C st data = (reply, { st with session, queue := st.queue ++ new }) ∧
      DecipherStream.digestData C st' data = (reply, { st' with session, queue := st'.queue ++ new }) := by
  intro m
  induction m with
  | zero =>
    intro data hd st st' hs
    have : data = [] := List.length_eq_zero_iff.1 (by omega)
    subst this
    obtain ⟨ss, a, b, c, d, e⟩ := st
    obtain ⟨ss', a', b', c', d', e'⟩ := st'
    simp only at hs
    subst hs
    refine ⟨.ok, ss, [], ?_, ?_⟩ <;> · rw [DecipherStream.digestData]; simp
  | succ m ih =>
    intro data hd st st' hs
    obtain ⟨ss, a, b, c, d, e⟩ := st
    obtain ⟨ss', a', b', c', d', e'⟩ := st'
    simp only at hs
    subst hs
    rw [DecipherStream.digestData, DecipherStream.digestData]
    simp only
    by_cases h0 : data.take C.cfg.blockIdBytes = []
    · simp only [dif_pos h0]
      exact ⟨.ok, ss, [], by simp, by simp⟩
    · simp only [dif_neg h0]
      cases hx : C.accept ss (data.take C.cfg.blockIdBytes) ((data.drop C.cfg.blockIdBytes).take C.cfg.blocksize) with
      | error er =>
        by_cases he : er = .invalidBlockID
        · subst he
          exact ⟨.refused (data.take C.cfg.blockIdBytes) ((data.drop C.cfg.blockIdBytes).take C.cfg.blocksize)
            ((data.drop C.cfg.blockIdBytes).drop C.cfg.blocksize), ss, [], by simp, by simp⟩
        · refine ⟨.raised er, ss, [], ?_, ?_⟩
          all_goals cases er <;> first | exact absurd rfl he | simp
      | ok x =>
        simp only
        have hlen : ((data.drop C.cfg.blockIdBytes).drop C.cfg.blocksize).length ≤ m := by
          have h1 : data ≠ [] := by rintro rfl; simp at h0
          have h2 : C.cfg.blockIdBytes ≠ 0 := by intro h; rw [h] at h0; simp at h0
          have : 0 < data.length := List.length_pos_iff.2 h1
          simp only [List.length_drop]
          omega
        obtain ⟨reply, session, new, i1, i2⟩ := ih _ hlen ⟨x.2, a, b, c ++ [x.1], d, e⟩ ⟨x.2, a', b', c' ++ [x.1], d', e'⟩ rfl
        refine ⟨reply, session, x.1 :: new, ?_, ?_⟩
        · rw [i1]; simp
        · rw [i2]; simp

namespace Receiver

/-- What relates a receiver to one that buffers the packets taken and does nothing else: `R` was given out. -/
structure Tied (C : Cipher κ) (h : Nat) (s : Receiver κ) (p : DecipherStream κ) (R : Bytes) : Prop where
  opened : p.closed = false
  session : s.ended = false → s.stream.closed = false → s.stream.session = p.session
  state : Balance h p.queue.flatten R s.stream.bytesToTrim s.stream.queue ∨
    (s.stream.closed = true ∧ s.stream.isStreaming = true ∧ s.stream.queue.length ≤ C.cfg.minStreamQueue ∧
      (s.stream.bytesToTrim = 0 ∨ s.stream.queue = []) ∧ R <+: p.queue.flatten.drop h)

theorem Tied.prefix_ {h : Nat} {s : Receiver κ} {p : DecipherStream κ} {R : Bytes} (t : Tied C h s p R) : R <+: p.queue.flatten.drop h := by
  rcases t.state with b | b
  · exact b.prefix_
  · exact b.2.2.2.2

theorem plain_nil (p : DecipherStream κ) : (p.exec C (.buffer [])).2 = p := by
  simp [DecipherStream.exec, DecipherStream.bufferData]

theorem Tied.buffer {h : Nat} {s : Receiver κ} {p : DecipherStream κ} {R : Bytes} (t : Tied C h s p R) (data : Bytes) :
    (s.buffer C data).1.1 = [] ∧ ∃ d', d' <+: data ∧ ((s.buffer C data).1.2 = .returned → d' = data) ∧
      Tied C h (s.buffer C data).2 (p.exec C (.buffer d')).2 R := by
  have same : ∀ o, o ≠ .returned → s.buffer C data = (([], o), s) → (s.buffer C data).1.1 = [] ∧ ∃ d', d' <+: data ∧
      ((s.buffer C data).1.2 = .returned → d' = data) ∧ Tied C h (s.buffer C data).2 (p.exec C (.buffer d')).2 R := by
    intro o ho hx
    rw [hx]
    exact ⟨rfl, [], List.nil_prefix, fun h => absurd h ho, by rw [plain_nil]; exact t⟩
  by_cases h1 : data = [] ∨ data.length % C.cfg.packetsize ≠ 0
  · exact same (.raised .value) (by simp) (by simp only [Receiver.buffer, if_pos h1])
  by_cases h2 : s.stuck = true
  · exact same .hangs (by simp) (by simp only [Receiver.buffer, if_neg h1, h2, if_true])
  by_cases h3 : s.stream.closed = true
  · exact same (.raised .streamClosed) (by simp) (by simp only [Receiver.buffer, if_neg h1, h2, h3, if_true, if_false, Bool.false_eq_true])
  by_cases h4 : s.ended = true
  · cases hx : s.stream.session.shmac.testNextBlockId C.toEnv (data.take C.cfg.blockIdBytes) ((data.drop C.cfg.blockIdBytes).take C.cfg.blocksize) [] with
    | error e => exact same (.raised e) (by simp) (by simp only [Receiver.buffer, if_neg h1, h2, h3, h4, if_true, if_false, Bool.false_eq_true, hx])
    | ok _ => exact same .ended (by simp) (by simp only [Receiver.buffer, if_neg h1, h2, h3, h4, if_true, if_false, Bool.false_eq_true, hx])
  have h3' : s.stream.closed = false := by simpa using h3
  have h4' : s.ended = false := by simpa using h4
  obtain ⟨reply, session, new, i1, i2⟩ := digest_same (C := C) data.length data (Nat.le_refl _) s.stream p (t.session h4' h3')
  have hb : s.stream.bufferData C data = (reply, { s.stream with session, queue := s.stream.queue ++ new }) := by
    simp only [DecipherStream.bufferData, if_neg h1, h3', Bool.false_eq_true, if_false, i1]
  have hp : p.bufferData C data = (reply, { p with session, queue := p.queue ++ new }) := by
    simp only [DecipherStream.bufferData, if_neg h1, t.opened, Bool.false_eq_true, if_false, i2]
  have hp' : (p.exec C (.buffer data)).2 = { p with session, queue := p.queue ++ new } := by
    simp only [DecipherStream.exec, hp]
    cases reply <;> rfl
  have hs : (s.buffer C data).2 = { s with stream := { s.stream with session, queue := s.stream.queue ++ new } } ∧ (s.buffer C data).1.1 = [] := by
    simp only [Receiver.buffer, if_neg h1, h2, h3, h4, if_false, Bool.false_eq_true, hb]
    cases reply <;> exact ⟨rfl, rfl⟩
  refine ⟨hs.2, data, List.prefix_refl _, fun _ => rfl, ?_⟩
  rw [hs.1, hp']
  refine ⟨t.opened, fun _ _ => rfl, .inl ?_⟩
  rcases t.state with b | b
  · have := b.add new
    simpa [List.flatten_append] using this
  · rw [h3'] at b
    cases b.1

/-- A part of an iteration that raised nothing. -/
theorem release_balance {h n : Nat} {q R : Bytes} {st : DecipherStream κ} (b : Balance h q R st.bytesToTrim st.queue) :
    Balance h q (R ++ (st.release C n).1.flatten) (st.release C n).2.bytesToTrim (st.release C n).2.queue ∧
      ((st.release C n).2.bytesToTrim = 0 ∨ (st.release C n).2.queue = []) ∧
      (st.queue.length ≤ n → (st.release C n).2.queue.length ≤ C.cfg.minStreamQueue) := by
  obtain ⟨j, h1, _, h3⟩ := DecipherStream.take_spec C.cfg.minStreamQueue n (DecipherStream.trim st.bytesToTrim st.queue).2
  have hd := DecipherStream.trim_done st.queue st.bytesToTrim
  simp only [DecipherStream.release, h1]
  refine ⟨b.trim.give hd j, ?_, fun hn => h3 ?_⟩
  · rcases hd with hd | hd
    · exact .inl hd
    · exact .inr (by rw [hd]; simp)
  · refine Nat.le_trans ?_ hn
    have hlen : ∀ (q : List Bytes) (n : Nat), (DecipherStream.trim n q).2.length ≤ q.length := by
      intro q
      induction q with
      | nil => intro n; cases n <;> simp [DecipherStream.trim]
      | cons x q ih =>
        intro n
        cases n with
        | zero => simp [DecipherStream.trim]
        | succ n =>
          simp only [DecipherStream.trim]
          split
          · exact Nat.le_trans (ih _) (by simp)
          · simp
    exact hlen ..

theorem release_done {n : Nat} {st : DecipherStream κ} (h1 : st.queue.length ≤ C.cfg.minStreamQueue) (h2 : st.bytesToTrim = 0 ∨ st.queue = []) :
    st.release C n = ([], st) := by
  have ht : DecipherStream.trim st.bytesToTrim st.queue = (st.bytesToTrim, st.queue) := by
    rcases h2 with h2 | h2
    · rw [h2]; cases st.queue <;> rfl
    · rw [h2]; cases st.bytesToTrim <;> rfl
  have htk : DecipherStream.take C.cfg.minStreamQueue n st.queue = ([], st.queue) := by
    cases n with
    | zero => rfl
    | succ n =>
      cases hq : st.queue with
      | nil => rfl
      | cons b bs =>
        rw [hq] at h1
        simp only [DecipherStream.take]
        rw [if_neg (by omega)]
  simp only [DecipherStream.release, ht, htk]

theorem testTimestamp_fields (st : DecipherStream κ) (now : Int) :
    ∃ b, (st.testTimestamp C now).2 = { st with isStreaming := b } ∧ ((st.testTimestamp C now).1 = none → b = true) := by
  unfold DecipherStream.testTimestamp
  split
  · exact ⟨true, rfl, fun _ => rfl⟩
  · split
    · exact ⟨false, rfl, fun h => by cases h⟩
    · exact ⟨true, rfl, fun _ => rfl⟩

theorem release_fields (st : DecipherStream κ) (n : Nat) : (st.release C n).2.session = st.session ∧ (st.release C n).2.closed = st.closed ∧
    (st.release C n).2.isStreaming = st.isStreaming := ⟨rfl, rfl, rfl⟩

theorem Tied.streaming {h : Nat} {s : Receiver κ} {p : DecipherStream κ} {R : Bytes} (b : Bool) (hb : s.stream.isStreaming = true → b = true)
    (t : Tied C h s p R) : Tied C h { s with stream := { s.stream with isStreaming := b } } p R := by
  refine ⟨t.opened, t.session, ?_⟩
  rcases t.state with x | x
  · exact .inl x
  · exact .inr ⟨x.1, hb x.2.1, x.2.2⟩

/-- An iteration. -/
theorem Tied.pull {h : Nat} {s : Receiver κ} {p : DecipherStream κ} {R : Bytes} (t : Tied C h s p R) (now : Int) (n : Nat) :
    Tied C h (s.pull C now n).2 p (R ++ (s.pull C now n).1.1.flatten) ∧
    ((s.pull C now n).1.2 = .returned → s.stream.queue.length < n → (s.pull C now n).2.stream.isStreaming = true ∧
      ((s.pull C now n).2.stream.bytesToTrim = 0 ∨ (s.pull C now n).2.stream.queue = []) ∧
      (s.pull C now n).2.stream.queue.length ≤ C.cfg.minStreamQueue) ∧
    (s.pull C now n).2.stream.closed = s.stream.closed ∧
    (Balance h p.queue.flatten R s.stream.bytesToTrim s.stream.queue →
      Balance h p.queue.flatten (R ++ (s.pull C now n).1.1.flatten) (s.pull C now n).2.stream.bytesToTrim (s.pull C now n).2.stream.queue) := by
  -- after the timestamp was tested
  have go : ∀ (s : Receiver κ), s.stream.isStreaming = true → Tied C h s p R →
      Tied C h { s with stream := (s.stream.release C n).2 } p (R ++ (s.stream.release C n).1.flatten) ∧
      (s.stream.queue.length < n → ((s.stream.release C n).2.bytesToTrim = 0 ∨ (s.stream.release C n).2.queue = []) ∧
        (s.stream.release C n).2.queue.length ≤ C.cfg.minStreamQueue) ∧
      (Balance h p.queue.flatten R s.stream.bytesToTrim s.stream.queue →
        Balance h p.queue.flatten (R ++ (s.stream.release C n).1.flatten) (s.stream.release C n).2.bytesToTrim (s.stream.release C n).2.queue) := by
    intro s hst t
    refine ⟨?_, ?_, fun b => (release_balance (C := C) (n := n) b).1⟩ <;>
      rcases t.state with b | ⟨b1, b2, b3, b4, b5⟩
    · exact ⟨t.opened, t.session, .inl (release_balance (C := C) (n := n) b).1⟩
    · rw [release_done b3 b4]
      exact ⟨t.opened, t.session, .inr ⟨b1, b2, b3, b4, by simpa using b5⟩⟩
    · obtain ⟨_, r2, r3⟩ := release_balance (C := C) (n := n) b
      exact fun hn => ⟨r2, r3 (by omega)⟩
    · rw [release_done b3 b4]
      exact fun _ => ⟨b4, b3⟩
  unfold Receiver.pull DecipherStream.pull
  by_cases h0 : n = 0
  · subst h0
    simp only [if_true, List.flatten_nil, List.append_nil]
    exact ⟨⟨t.opened, t.session, t.state⟩, fun _ hn => absurd hn (by omega), trivial, fun b => b⟩
  · simp only [if_neg h0]
    by_cases h1 : s.stream.isStreaming = true
    · obtain ⟨g1, g2, g3⟩ := go s h1 t
      simp only [h1, if_true]
      exact ⟨g1, fun _ hn => ⟨(release_fields ..).2.2.trans h1, g2 hn⟩, (release_fields ..).2.1, g3⟩
    · have h1' : s.stream.isStreaming = false := by simpa using h1
      simp only [h1', Bool.false_eq_true, if_false]
      obtain ⟨b, e1, e2⟩ := testTimestamp_fields (C := C) s.stream now
      have t' := t.streaming b (fun h => absurd h h1)
      cases hx : s.stream.testTimestamp C now with
      | mk o st =>
        rw [hx] at e1 e2
        simp only at e1 e2
        subst e1
        cases o with
        | some e =>
          simp only [List.flatten_nil, List.append_nil]
          exact ⟨t', fun hr => (by simp [Outcome.of] at hr), trivial, fun b => b⟩
        | none =>
          have hb := e2 rfl
          subst hb
          obtain ⟨g1, g2, g3⟩ := go { s with stream := { s.stream with isStreaming := true } } rfl t'
          simp only
          exact ⟨g1, fun _ hn => ⟨rfl, g2 hn⟩, rfl, g3⟩

end Receiver

end Aiootp.Cipher.Cancel
