import Verif.Lemmas.Stream
import Verif.Model.StreamShared

namespace Aiootp.Cipher.Shared

open Perm Cipher

/-- The call has the guard. -/
def Feeder.within : Feeder → Bool
  | .outside | .done _ => false
  | _ => true

/-- The call was let in. -/
def Feeder.entered : Feeder → Bool
  | .outside | .inside | .leaving (some _) | .done (some _) => false
  | _ => true

/-- The call is about to change the stream. -/
def Feeder.digests : Feeder → Bool
  | .admitted | .counted | .filling | .reading _ => true
  | _ => false

/-- What the call has yet to put into the queue. -/
def Feeder.rest (d : Bytes) : Feeder → Bytes
  | .admitted | .counted | .filling => d
  | .reading r => r
  | _ => []

/-- What the call has yet to count. -/
def Feeder.uncounted (d : Bytes) : Feeder → Nat
  | .admitted => d.length
  | _ => 0

/-- The taker has the guard. -/
def Taker.holds : Taker → Bool
  | .checked fin | .started fin | .popped fin _ | .turned fin _ => fin
  | .padding | .appending _ | .flushing | .closing => true
  | _ => false

/-- The taker runs the generator. -/
def Taker.runs : Taker → Bool
  | .started _ | .popped _ _ => true
  | _ => false

theorem upd_self {α : Type} (f : Nat → α) (k : Nat) (a : α) : upd f k a k = a := by simp [upd]

theorem upd_ne {α : Type} (f : Nat → α) {k n : Nat} (a : α) (h : n ≠ k) : upd f k a n = f n := by simp [upd, h]

variable {κ : Type} {C : Cipher κ}

/-- What all calls that were let in want to send. -/
def State.sent (s : State κ) : Bytes := (s.log.map s.data).flatten

def State.rest (s : State κ) : Bytes :=
  match s.owner with
  | some (.feeder i) => (s.feeder i).rest (s.data i)
  | _ => []

def State.uncounted (s : State κ) : Nat :=
  match s.owner with
  | some (.feeder i) => (s.feeder i).uncounted (s.data i)
  | _ => 0

structure Users (s : State κ) : Prop where
  feeder : ∀ i, (s.feeder i).within = true ↔ s.owner = some (.feeder i)
  taker : (s.taker 0).holds = true ↔ s.owner = some (.taker 0)
  others : ∀ j, s.owner = some (.taker j) → j = 0
  log : ∀ i, i ∈ s.log ↔ (s.feeder i).entered = true
  nodup : s.log.Nodup
  refused : ∀ i e, s.feeder i = .leaving (some e) ∨ s.feeder i = .done (some e) → e = .streamClosed ∧ s.stream.closed = true
  busy : s.busy = true ↔ (s.taker 0).runs = true

/-- A step of a call that had the guard and keeps it. -/
theorem Users.within {s s' : State κ} (h : Users s) {i : Nat} {f : Feeder} (h1 : s'.feeder = upd s.feeder i f) (h2 : s'.owner = s.owner)
    (h3 : s'.taker = s.taker) (h4 : s'.busy = s.busy) (h5 : s'.stream.closed = s.stream.closed) (hw : (s.feeder i).within = true)
    (hf : f.within = true) (hl : s'.log = s.log ∧ f.entered = (s.feeder i).entered ∨ s'.log = s.log ++ [i] ∧ f.entered = true ∧ (s.feeder i).entered = false)
    (hr : ∀ e, f = .leaving (some e) → e = .streamClosed ∧ s.stream.closed = true) : Users s' := by
  refine ⟨?_, by rw [h3, h2]; exact h.taker, by rw [h2]; exact h.others, ?_, ?_, ?_, by rw [h4, h3]; exact h.busy⟩
  · intro k
    rw [h1, h2]
    by_cases hk : k = i
    · subst hk
      rw [upd_self]
      exact ⟨fun _ => (h.feeder k).1 hw, fun _ => hf⟩
    · rw [upd_ne _ _ hk]; exact h.feeder k
  · intro k
    rw [h1]
    by_cases hk : k = i
    · subst hk
      rw [upd_self]
      rcases hl with ⟨e1, e2⟩ | ⟨e1, e2, _⟩
      · rw [e1, e2]; exact h.log k
      · rw [e1, e2]; simp
    · rw [upd_ne _ _ hk]
      rcases hl with ⟨e1, _⟩ | ⟨e1, _⟩
      · rw [e1]; exact h.log k
      · rw [e1, List.mem_append, List.mem_singleton, ← h.log k]
        simp [hk]
  · rcases hl with ⟨e1, _⟩ | ⟨e1, _, e3⟩
    · rw [e1]; exact h.nodup
    · rw [e1, List.nodup_append]
      refine ⟨h.nodup, by simp, ?_⟩
      intro a ha b hb hab
      rw [List.mem_singleton] at hb
      subst hab hb
      rw [h.log] at ha
      rw [e3] at ha
      cases ha
  · intro k e
    rw [h1, h5]
    by_cases hk : k = i
    · subst hk
      rw [upd_self]
      rintro (hh | hh)
      · exact hr e hh
      · rw [hh] at hf; cases hf
    · rw [upd_ne _ _ hk]; exact h.refused k e

theorem Users.enter {s : State κ} (h : Users s) {i : Nat} (hf : s.feeder i = .outside) (ho : s.owner = none) :
    Users { s.setFeeder i .inside with owner := some (.feeder i) } := by
  refine ⟨?_, ?_, ?_, ?_, h.nodup, ?_, h.busy⟩
  · intro k
    show (upd s.feeder i .inside k).within = true ↔ some (Agent.feeder i) = some (.feeder k)
    by_cases hk : k = i
    · subst hk; rw [upd_self]; simp [Feeder.within]
    · rw [upd_ne _ _ hk, h.feeder k, ho]; simp [Ne.symm hk]
  · show (s.taker 0).holds = true ↔ some (Agent.feeder i) = some (.taker 0)
    rw [h.taker, ho]; simp
  · intro j hj
    cases hj
  · intro k
    show k ∈ s.log ↔ (upd s.feeder i .inside k).entered = true
    rw [h.log k]
    by_cases hk : k = i
    · subst hk; rw [upd_self, hf]; simp [Feeder.entered]
    · rw [upd_ne _ _ hk]
  · intro k e
    show upd s.feeder i .inside k = _ ∨ upd s.feeder i .inside k = _ → _
    by_cases hk : k = i
    · subst hk; rw [upd_self]; rintro (hh | hh) <;> cases hh
    · rw [upd_ne _ _ hk]; exact h.refused k e

theorem Users.leave {s : State κ} (h : Users s) {i : Nat} {e : Option Err} (hf : s.feeder i = .leaving e) :
    Users { s.setFeeder i (.done e) with owner := none } := by
  have ho := (h.feeder i).1 (by rw [hf]; rfl)
  refine ⟨?_, ?_, ?_, ?_, h.nodup, ?_, h.busy⟩
  · intro k
    show (upd s.feeder i (.done e) k).within = true ↔ none = some (Agent.feeder k)
    by_cases hk : k = i
    · subst hk; rw [upd_self]; simp [Feeder.within]
    · rw [upd_ne _ _ hk, h.feeder k, ho]; simp [Ne.symm hk]
  · show (s.taker 0).holds = true ↔ none = some (Agent.taker 0)
    rw [h.taker, ho]; simp
  · intro j hj
    cases hj
  · intro k
    show k ∈ s.log ↔ (upd s.feeder i (.done e) k).entered = true
    rw [h.log k]
    by_cases hk : k = i
    · subst hk; rw [upd_self, hf]; cases e <;> simp [Feeder.entered]
    · rw [upd_ne _ _ hk]
  · intro k x
    show upd s.feeder i (.done e) k = _ ∨ upd s.feeder i (.done e) k = _ → _
    by_cases hk : k = i
    · subst hk; rw [upd_self]
      rintro (hh | hh)
      · cases hh
      · cases hh; exact h.refused k x (.inl hf)
    · rw [upd_ne _ _ hk]; exact h.refused k x

/-- The queue of an open stream: the blocks `done` were taken from it. -/
def OpenBuf (C : Cipher κ) (start : Bytes) (s : State κ) (done : List Bytes) : Prop :=
  ∃ init last, s.stream.buffer = init ++ [last] ∧ (∀ b ∈ init, b.length = C.cfg.blocksize) ∧
    done.flatten ++ (init.flatten ++ last) ++ s.rest = start ++ s.sent ∧
    s.stream.byteCount + s.uncounted = s.sent.length ∧
    ∀ i r, s.feeder i = .reading r → last.length = C.cfg.blocksize

/-- The queue of a stream to which the last blocks are added; `todo` are those still to be added. -/
def ClosedBuf (C : Cipher κ) (start extra : Bytes) (s : State κ) (done todo : List Bytes) : Prop :=
  s.stream.closed = true ∧ (∀ i, (s.feeder i).digests = false) ∧
  ∃ endp, C.cfg.endPadding extra s.sent.length = .ok endp ∧
    done ++ (s.stream.buffer ++ todo) = Text.batch C.cfg.blocksize (start ++ s.sent ++ endp)

theorem feed_closed {s : State κ} (h : Users s) (hc : s.stream.closed = true) (hd : ∀ i, (s.feeder i).digests = false) (i : Nat) :
    Users (s.feed C i) ∧ (s.feed C i).stream = s.stream ∧ (s.feed C i).log = s.log ∧ (s.feed C i).data = s.data ∧
    (s.feed C i).taker = s.taker ∧ (s.feed C i).out = s.out ∧ ∀ k, ((s.feed C i).feeder k).digests = false := by
  have hi := hd i
  have put : ∀ f : Feeder, f.digests = false → ∀ k, (upd s.feeder i f k).digests = false := by
    intro f hf k
    by_cases hk : k = i
    · subst hk; rw [upd_self]; exact hf
    · rw [upd_ne _ _ hk]; exact hd k
  unfold State.feed
  split <;> rename_i hf <;> try (rw [hf] at hi; simp [Feeder.digests] at hi; done)
  · by_cases ho : s.owner = none
    · rw [if_pos ho]
      exact ⟨h.enter hf ho, rfl, rfl, rfl, rfl, rfl, put _ rfl⟩
    · rw [if_neg ho]
      exact ⟨h, rfl, rfl, rfl, rfl, rfl, hd⟩
  · rw [if_pos hc]
    refine ⟨h.within rfl rfl rfl rfl rfl (by rw [hf]; rfl) rfl (.inl ⟨rfl, by rw [hf]; rfl⟩) ?_, rfl, rfl, rfl, rfl, rfl, put _ rfl⟩
    intro e he
    cases he
    exact ⟨rfl, hc⟩
  · exact ⟨h.leave hf, rfl, rfl, rfl, rfl, rfl, put _ rfl⟩
  · exact ⟨h, rfl, rfl, rfl, rfl, rfl, hd⟩

theorem ClosedBuf.feed {start extra : Bytes} {s : State κ} {done todo : List Bytes} (h : Users s) (hb : ClosedBuf C start extra s done todo) (i : Nat) :
    Users (s.feed C i) ∧ (s.feed C i).stream = s.stream ∧ (s.feed C i).taker = s.taker ∧ (s.feed C i).out = s.out ∧
    ClosedBuf C start extra (s.feed C i) done todo := by
  obtain ⟨h1, h2, h3⟩ := hb
  obtain ⟨g1, g2, g3, g4, g5, g6, g7⟩ := feed_closed (C := C) h h1 h2 i
  refine ⟨g1, g2, g5, g6, ?_⟩
  unfold ClosedBuf State.sent
  rw [g2, g3, g4]
  exact ⟨h1, g7, h3⟩

/-- What a call does not touch. -/
structure Kept (s s' : State κ) : Prop where
  session : s'.stream.session = s.stream.session
  closed : s'.stream.closed = s.stream.closed
  extra : s'.stream.extra = s.stream.extra
  taker : s'.taker = s.taker
  out : s'.out = s.out
  length : s.stream.buffer.length ≤ s'.stream.buffer.length

theorem OpenBuf.feed (hn : 0 < C.cfg.blocksize) {start : Bytes} {s : State κ} {done : List Bytes} (h : Users s) (hb : OpenBuf C start s done) (i : Nat) :
    Users (s.feed C i) ∧ Kept s (s.feed C i) ∧ OpenBuf C start (s.feed C i) done := by
  obtain ⟨init, last, e1, e2, e3, e4, e5⟩ := hb
  -- nobody else is reading while a call has the guard
  have alone : ∀ {f : Feeder}, s.owner = some (.feeder i) → ∀ k r, upd s.feeder i f k = .reading r → f = .reading r := by
    intro f ho k r hk
    by_cases hki : k = i
    · subst hki; rwa [upd_self] at hk
    · rw [upd_ne _ _ hki] at hk
      have := (h.feeder k).1 (by rw [hk]; rfl)
      rw [ho] at this
      simp at this
      exact absurd this.symm hki
  unfold State.feed
  split
  · rename_i hf
    by_cases ho : s.owner = none
    · rw [if_pos ho]
      refine ⟨h.enter hf ho, ⟨rfl, rfl, rfl, rfl, rfl, Nat.le_refl _⟩, init, last, e1, e2, ?_, ?_, ?_⟩
      · have : s.rest = [] := by simp [State.rest, ho]
        rw [this] at e3
        simpa [State.rest, State.setFeeder, upd_self, Feeder.rest, State.sent] using e3
      · have : s.uncounted = 0 := by simp [State.uncounted, ho]
        rw [this] at e4
        simpa [State.uncounted, State.setFeeder, upd_self, Feeder.uncounted, State.sent] using e4
      · intro k r
        show upd s.feeder i .inside k = _ → _
        by_cases hk : k = i
        · subst hk; rw [upd_self]; intro hh; cases hh
        · rw [upd_ne _ _ hk]; exact e5 k r
    · rw [if_neg ho]
      exact ⟨h, ⟨rfl, rfl, rfl, rfl, rfl, Nat.le_refl _⟩, init, last, e1, e2, e3, e4, e5⟩
  all_goals rename_i hf
  · have ho := (h.feeder i).1 (by rw [hf]; rfl)
    have hr : s.rest = [] := by simp [State.rest, ho, hf, Feeder.rest]
    have hu : s.uncounted = 0 := by simp [State.uncounted, ho, hf, Feeder.uncounted]
    rw [hr] at e3
    rw [hu] at e4
    by_cases hc : s.stream.closed
    · rw [if_pos hc]
      refine ⟨h.within rfl rfl rfl rfl rfl (by rw [hf]; rfl) rfl (.inl ⟨rfl, by rw [hf]; rfl⟩) ?_, ⟨rfl, rfl, rfl, rfl, rfl, Nat.le_refl _⟩,
        init, last, e1, e2, ?_, ?_, fun k r hk => by cases alone ho k r hk⟩
      · intro e he; cases he; exact ⟨rfl, hc⟩
      · simpa [State.rest, State.setFeeder, ho, upd_self, Feeder.rest, State.sent] using e3
      · simpa [State.uncounted, State.setFeeder, ho, upd_self, Feeder.uncounted, State.sent] using e4
    · rw [if_neg hc]
      refine ⟨h.within rfl rfl rfl rfl rfl (by rw [hf]; rfl) rfl (.inr ⟨rfl, rfl, by rw [hf]; rfl⟩) (fun e he => by cases he),
        ⟨rfl, rfl, rfl, rfl, rfl, Nat.le_refl _⟩, init, last, e1, e2, ?_, ?_, fun k r hk => by cases alone ho k r hk⟩
      · simp only [List.append_nil] at e3
        simp only [State.rest, State.setFeeder, ho, upd_self, Feeder.rest, State.sent, List.map_append, List.flatten_append, e3]
        simp
      · simp only [State.uncounted, State.setFeeder, ho, upd_self, Feeder.uncounted, State.sent, List.map_append, List.flatten_append, List.length_append] at e4 ⊢
        simp at e4 ⊢
        omega
  · have ho := (h.feeder i).1 (by rw [hf]; rfl)
    have hr : s.rest = s.data i := by simp [State.rest, ho, hf, Feeder.rest]
    have hu : s.uncounted = (s.data i).length := by simp [State.uncounted, ho, hf, Feeder.uncounted]
    rw [hr] at e3
    rw [hu] at e4
    refine ⟨h.within rfl rfl rfl rfl rfl (by rw [hf]; rfl) rfl (.inl ⟨rfl, by rw [hf]; rfl⟩) (fun e he => by cases he),
      ⟨rfl, rfl, rfl, rfl, rfl, Nat.le_refl _⟩, init, last, e1, e2, ?_, ?_, fun k r hk => by cases alone ho k r hk⟩
    · simpa [State.rest, State.setFeeder, ho, upd_self, Feeder.rest, State.sent] using e3
    · simpa [State.uncounted, State.setFeeder, ho, upd_self, Feeder.uncounted, State.sent] using e4
  · have ho := (h.feeder i).1 (by rw [hf]; rfl)
    have hr : s.rest = s.data i := by simp [State.rest, ho, hf, Feeder.rest]
    have hu : s.uncounted = 0 := by simp [State.uncounted, ho, hf, Feeder.uncounted]
    rw [hr] at e3
    rw [hu] at e4
    rw [e1]
    simp only [List.getLast?_append, List.getLast?_singleton, Option.some_or]
    by_cases hl : last.length = C.cfg.blocksize
    · rw [if_pos hl]
      refine ⟨h.within rfl rfl rfl rfl rfl (by rw [hf]; rfl) rfl (.inl ⟨rfl, by rw [hf]; rfl⟩) (fun e he => by cases he),
        ⟨rfl, rfl, rfl, rfl, rfl, Nat.le_refl _⟩, init, last, e1, e2, ?_, ?_, fun _ _ _ => hl⟩
      · simpa [State.rest, State.setFeeder, ho, upd_self, Feeder.rest, State.sent] using e3
      · simpa [State.uncounted, State.setFeeder, ho, upd_self, Feeder.uncounted, State.sent] using e4
    · rw [if_neg hl]
      refine ⟨h.within rfl rfl rfl rfl rfl (by rw [hf]; rfl) rfl (.inl ⟨rfl, by rw [hf]; rfl⟩) (fun e he => by cases he),
        ⟨rfl, rfl, rfl, rfl, rfl, Nat.le_refl _⟩, init, last, e1, e2, ?_, ?_, fun k r hk => by cases alone ho k r hk⟩
      · simpa [State.rest, State.setFeeder, ho, upd_self, Feeder.rest, State.sent] using e3
      · simpa [State.uncounted, State.setFeeder, ho, upd_self, Feeder.uncounted, State.sent] using e4
  · have ho := (h.feeder i).1 (by rw [hf]; rfl)
    have hr : s.rest = s.data i := by simp [State.rest, ho, hf, Feeder.rest]
    have hu : s.uncounted = 0 := by simp [State.uncounted, ho, hf, Feeder.uncounted]
    rw [hr] at e3
    rw [hu] at e4
    rw [e1]
    simp only [List.getLast?_append, List.getLast?_singleton, Option.some_or, List.dropLast_concat]
    by_cases hl : last.length > C.cfg.blocksize
    · rw [if_pos hl]
      refine ⟨h.within rfl rfl rfl rfl rfl (by rw [hf]; rfl) rfl (.inl ⟨rfl, by rw [hf]; rfl⟩) (fun e he => by cases he),
        ⟨rfl, rfl, rfl, rfl, rfl, by simp [State.setBuffer, State.setFeeder, e1]⟩, init, last ++ s.data i, rfl, e2, ?_, ?_, fun k r hk => by cases alone ho k r hk⟩
      · simpa [State.rest, State.setFeeder, State.setBuffer, ho, upd_self, Feeder.rest, State.sent] using e3
      · simpa [State.uncounted, State.setFeeder, State.setBuffer, ho, upd_self, Feeder.uncounted, State.sent] using e4
    · rw [if_neg hl]
      by_cases hm : ((s.data i).take (C.cfg.blocksize - last.length)).length ≠ C.cfg.blocksize - last.length
      · rw [if_pos hm]
        have ht : (s.data i).take (C.cfg.blocksize - last.length) = s.data i := List.take_of_length_le (by
          rw [List.length_take] at hm; omega)
        refine ⟨h.within rfl rfl rfl rfl rfl (by rw [hf]; rfl) rfl (.inl ⟨rfl, by rw [hf]; rfl⟩) (fun e he => by cases he),
          ⟨rfl, rfl, rfl, rfl, rfl, by simp [State.setBuffer, State.setFeeder, e1]⟩, init, _, rfl, e2, ?_, ?_, fun k r hk => by cases alone ho k r hk⟩
        · rw [ht]
          simpa [State.rest, State.setFeeder, State.setBuffer, ho, upd_self, Feeder.rest, State.sent] using e3
        · simpa [State.uncounted, State.setFeeder, State.setBuffer, ho, upd_self, Feeder.uncounted, State.sent] using e4
      · rw [if_neg hm]
        refine ⟨h.within rfl rfl rfl rfl rfl (by rw [hf]; rfl) rfl (.inl ⟨rfl, by rw [hf]; rfl⟩) (fun e he => by cases he),
          ⟨rfl, rfl, rfl, rfl, rfl, by simp [State.setBuffer, State.setFeeder, e1]⟩, init, _, rfl, e2, ?_, ?_, fun _ _ _ => ?_⟩
        · simpa [State.rest, State.setFeeder, State.setBuffer, ho, upd_self, Feeder.rest, State.sent] using e3
        · simpa [State.uncounted, State.setFeeder, State.setBuffer, ho, upd_self, Feeder.uncounted, State.sent] using e4
        · rw [List.length_append]; omega
  · rename_i rest
    have ho := (h.feeder i).1 (by rw [hf]; rfl)
    have hr : s.rest = rest := by simp [State.rest, ho, hf, Feeder.rest]
    have hu : s.uncounted = 0 := by simp [State.uncounted, ho, hf, Feeder.uncounted]
    have hlast := e5 i rest hf
    rw [hr] at e3
    rw [hu] at e4
    have hi : ∀ b ∈ init ++ [last], b.length = C.cfg.blocksize := by
      intro b hb
      rcases List.mem_append.1 hb with hb | hb
      · exact e2 b hb
      · rw [List.mem_singleton] at hb; subst hb; exact hlast
    by_cases hm : (rest.take C.cfg.blocksize).length ≠ C.cfg.blocksize
    · simp only [if_pos hm]
      have ht : rest.take C.cfg.blocksize = rest := List.take_of_length_le (by rw [List.length_take] at hm; omega)
      refine ⟨h.within rfl rfl rfl rfl rfl (by rw [hf]; rfl) rfl (.inl ⟨rfl, by rw [hf]; rfl⟩) (fun e he => by cases he),
        ⟨rfl, rfl, rfl, rfl, rfl, by simp [State.setBuffer, State.setFeeder]⟩, init ++ [last], rest.take C.cfg.blocksize, ?_, hi, ?_, ?_,
        fun k r hk => by cases alone ho k r hk⟩
      · simp [State.setBuffer, State.setFeeder, e1]
      · rw [ht]
        simpa [State.rest, State.setFeeder, State.setBuffer, ho, upd_self, Feeder.rest, State.sent] using e3
      · simpa [State.uncounted, State.setFeeder, State.setBuffer, ho, upd_self, Feeder.uncounted, State.sent] using e4
    · simp only [if_neg hm]
      refine ⟨h.within rfl rfl rfl rfl rfl (by rw [hf]; rfl) rfl (.inl ⟨rfl, by rw [hf]; rfl⟩) (fun e he => by cases he),
        ⟨rfl, rfl, rfl, rfl, rfl, by simp [State.setBuffer, State.setFeeder]⟩, init ++ [last], rest.take C.cfg.blocksize, ?_, hi, ?_, ?_,
        fun _ _ _ => by simpa using hm⟩
      · simp [State.setBuffer, State.setFeeder, e1]
      · simpa [State.rest, State.setFeeder, State.setBuffer, ho, upd_self, Feeder.rest, State.sent] using e3
      · simpa [State.uncounted, State.setFeeder, State.setBuffer, ho, upd_self, Feeder.uncounted, State.sent] using e4
  · have ho := (h.feeder i).1 (by rw [hf]; rfl)
    have hr : s.rest = [] := by simp [State.rest, ho, hf, Feeder.rest]
    have hu : s.uncounted = 0 := by simp [State.uncounted, ho, hf, Feeder.uncounted]
    rw [hr] at e3
    rw [hu] at e4
    refine ⟨h.leave hf, ⟨rfl, rfl, rfl, rfl, rfl, Nat.le_refl _⟩, init, last, e1, e2, ?_, ?_, fun k r hk => by cases alone ho k r hk⟩
    · simpa [State.rest, State.setFeeder, State.sent] using e3
    · simpa [State.uncounted, State.setFeeder, State.sent] using e4
  · exact ⟨h, ⟨rfl, rfl, rfl, rfl, rfl, Nat.le_refl _⟩, init, last, e1, e2, e3, e4, e5⟩

/-! ### the taker -/

/-- A step of the taker. -/
theorem Users.took {s s' : State κ} (h : Users s) {t : Taker} (h1 : s'.feeder = s.feeder) (h2 : s'.log = s.log)
    (h3 : s'.taker = upd s.taker 0 t) (h4 : s'.busy = true ↔ t.runs = true) (h5 : s.stream.closed = true → s'.stream.closed = true)
    (ho : s'.owner = s.owner ∧ t.holds = (s.taker 0).holds ∨ s.owner = none ∧ s'.owner = some (.taker 0) ∧ t.holds = true ∨
      s.owner = some (.taker 0) ∧ s'.owner = none ∧ t.holds = false) : Users s' := by
  refine ⟨?_, ?_, ?_, by rw [h1, h2]; exact h.log, by rw [h2]; exact h.nodup, ?_, by rw [h3, upd_self]; exact h4⟩
  · intro i
    rw [h1, h.feeder i]
    rcases ho with ⟨o, _⟩ | ⟨o1, o2, _⟩ | ⟨o1, o2, _⟩
    · rw [o]
    · rw [o1, o2]; simp
    · rw [o1, o2]; simp
  · rw [h3, upd_self]
    rcases ho with ⟨o, o1⟩ | ⟨o1, o2, o3⟩ | ⟨o1, o2, o3⟩
    · rw [o, o1]; exact h.taker
    · rw [o2, o3]; simp
    · rw [o2, o3]; simp
  · intro j hj
    rcases ho with ⟨o, _⟩ | ⟨_, o2, _⟩ | ⟨_, o2, _⟩
    · rw [o] at hj; exact h.others j hj
    · rw [o2] at hj; simp at hj; exact hj.symm
    · rw [o2] at hj; cases hj
  · intro i e hi
    rw [h1] at hi
    exact ⟨(h.refused i e hi).1, h5 (h.refused i e hi).2⟩

theorem OpenBuf.congr {start : Bytes} {s s' : State κ} {done : List Bytes} (h : OpenBuf C start s done) (h1 : s'.feeder = s.feeder)
    (h2 : s'.log = s.log) (h3 : s'.data = s.data) (h4 : s'.rest = s.rest) (h5 : s'.uncounted = s.uncounted)
    (h6 : s'.stream.buffer = s.stream.buffer) (h7 : s'.stream.byteCount = s.stream.byteCount) : OpenBuf C start s' done := by
  have : s'.sent = s.sent := by rw [State.sent, State.sent, h2, h3]
  unfold OpenBuf
  rw [h1, h4, h5, h6, h7, this]
  exact h

theorem ClosedBuf.congr {start extra : Bytes} {s s' : State κ} {done todo : List Bytes} (h : ClosedBuf C start extra s done todo) (h1 : s'.feeder = s.feeder)
    (h2 : s'.log = s.log) (h3 : s'.data = s.data)
    (h6 : s'.stream.buffer = s.stream.buffer) (h7 : s'.stream.closed = s.stream.closed) : ClosedBuf C start extra s' done todo := by
  have : s'.sent = s.sent := by rw [State.sent, State.sent, h2, h3]
  unfold ClosedBuf
  rw [h1, h6, h7, this]
  exact h

theorem OpenBuf.pop {start : Bytes} {s : State κ} {done : List Bytes} (h : OpenBuf C start s done) (hl : 2 ≤ s.stream.buffer.length) :
    ∃ b rest, s.stream.buffer = b :: rest ∧ b.length = C.cfg.blocksize ∧ OpenBuf C start (s.setBuffer rest) (done ++ [b]) := by
  obtain ⟨init, last, e1, e2, e3, e4, e5⟩ := h
  cases init with
  | nil => rw [e1] at hl; simp at hl
  | cons b init =>
    refine ⟨b, init ++ [last], by rw [e1]; rfl, e2 b (by simp), init, last, rfl, fun x hx => e2 x (by simp [hx]), ?_, e4, e5⟩
    have : (s.setBuffer (init ++ [last])).rest = s.rest := rfl
    rw [this]
    simpa [State.sent, State.setBuffer] using e3

/-- The session after the stream-hmac was finalized. -/
def ended (C : Cipher κ) (r : Ratchet κ) : Session κ :=
  ⟨{ (r.session false .encryption).shmac with
      finalized := true, result := some (Shmac.tagOf C.toEnv r.mac), mac := none, previous := none, current := none }, r.keys⟩

/-- What holds at each step of the taker, if it is the only one. -/
def Stage (S : Sound C) (start extra : Bytes) (s : State κ) (Ds : List Bytes) (r : Ratchet κ) : Taker → Prop
  | .ready e => (s.stream.closed = false ∧ e = none ∧ s.stream.session = r.session false .encryption ∧ OpenBuf C start s Ds) ∨
      ((e = none ∨ e = some .streamClosed) ∧ s.stream.session = ended C r ∧ ClosedBuf C start extra s Ds [] ∧ s.stream.buffer = [])
  | .checked false | .started false => s.stream.closed = false ∧ s.stream.session = r.session false .encryption ∧ OpenBuf C start s Ds ∧
      2 ≤ s.stream.buffer.length
  | .popped false b => s.stream.closed = false ∧ s.stream.session = r.session false .encryption ∧ OpenBuf C start s (Ds ++ [b]) ∧
      b.length = C.cfg.blocksize
  | .turned false X => s.stream.closed = false ∧ ∃ P r', StepRel S r P X r' ∧ s.stream.session = r'.session false .encryption ∧
      OpenBuf C start s (Ds ++ [P])
  | .waiting | .padding => s.stream.closed = true ∧ s.stream.session = r.session false .encryption ∧ OpenBuf C start s Ds
  | .appending bs => s.stream.session = r.session false .encryption ∧ ClosedBuf C start extra s Ds bs
  | .flushing => s.stream.session = r.session false .encryption ∧ ClosedBuf C start extra s Ds []
  | .checked true | .started true => s.stream.session = r.session false .encryption ∧ ClosedBuf C start extra s Ds [] ∧ s.stream.buffer ≠ []
  | .popped true b => s.stream.session = r.session false .encryption ∧ ClosedBuf C start extra s (Ds ++ [b]) [] ∧ b.length = C.cfg.blocksize
  | .turned true X => ∃ P r', StepRel S r P X r' ∧ s.stream.session = r'.session false .encryption ∧ ClosedBuf C start extra s (Ds ++ [P]) []
  | .closing => s.stream.session = r.session false .encryption ∧ ClosedBuf C start extra s Ds [] ∧ s.stream.buffer = []

structure Inv (S : Sound C) (r0 : Ratchet κ) (start extra : Bytes) (s : State κ) : Prop where
  users : Users s
  kept : s.stream.extra = extra
  others : ∀ x ∈ s.out, x.1 = 0
  stage : ∃ Ds r, Path S r0 Ds (s.out.map (·.2)) r ∧ Stage S start extra s Ds r (s.taker 0)

theorem Inv.feed {S : Sound C} {r0 : Ratchet κ} {start extra : Bytes} {s : State κ} (h : Inv S r0 start extra s) (i : Nat) :
    Inv S r0 start extra (s.feed C i) := by
  obtain ⟨hu, he, ho, Ds, r, hp, hs⟩ := h
  have opened : ∀ {done}, OpenBuf C start s done → (∀ (k : Kept s (s.feed C i)), OpenBuf C start (s.feed C i) done →
      Stage S start extra (s.feed C i) Ds r ((s.feed C i).taker 0)) → Inv S r0 start extra (s.feed C i) := by
    intro done hb hk
    obtain ⟨g1, g2, g3⟩ := hb.feed S.block_pos hu i
    exact ⟨g1, by rw [g2.extra, he], by rw [g2.out]; exact ho, Ds, r, by rw [g2.out]; exact hp, hk g2 g3⟩
  have ended : ∀ {done todo}, ClosedBuf C start extra s done todo → ((s.feed C i).taker = s.taker → (s.feed C i).stream = s.stream →
      ClosedBuf C start extra (s.feed C i) done todo →
      Stage S start extra (s.feed C i) Ds r ((s.feed C i).taker 0)) → Inv S r0 start extra (s.feed C i) := by
    intro done todo hb hk
    obtain ⟨g1, g2, g3, g4, g5⟩ := hb.feed hu i
    exact ⟨g1, by rw [g2, he], by rw [g4]; exact ho, Ds, r, by rw [g4]; exact hp, hk g3 g2 g5⟩
  rcases ht : s.taker 0 with e | (_ | _) | (_ | _) | ⟨(_ | _), b⟩ | ⟨(_ | _), X⟩ | _ | _ | bs | _ | _ <;> rw [ht] at hs
  · rcases hs with ⟨h1, h2, h3, h4⟩ | ⟨h1, h2, h3, h4⟩
    · exact opened h4 fun k hb => by rw [k.taker, ht]; exact .inl ⟨by rw [k.closed, h1], h2, by rw [k.session, h3], hb⟩
    · exact ended h3 fun k1 k2 hb => by rw [k1, ht]; exact .inr ⟨h1, by rw [k2, h2], hb, by rw [k2, h4]⟩
  · obtain ⟨h1, h2, h3, h4⟩ := hs
    exact opened h3 fun k hb => by rw [k.taker, ht]; exact ⟨by rw [k.closed, h1], by rw [k.session, h2], hb, Nat.le_trans h4 k.length⟩
  · obtain ⟨h1, h2, h3⟩ := hs
    exact ended h2 fun k1 k2 hb => by rw [k1, ht]; exact ⟨by rw [k2, h1], hb, by rw [k2]; exact h3⟩
  · obtain ⟨h1, h2, h3, h4⟩ := hs
    exact opened h3 fun k hb => by rw [k.taker, ht]; exact ⟨by rw [k.closed, h1], by rw [k.session, h2], hb, Nat.le_trans h4 k.length⟩
  · obtain ⟨h1, h2, h3⟩ := hs
    exact ended h2 fun k1 k2 hb => by rw [k1, ht]; exact ⟨by rw [k2, h1], hb, by rw [k2]; exact h3⟩
  · obtain ⟨h1, h2, h3, h4⟩ := hs
    exact opened h3 fun k hb => by rw [k.taker, ht]; exact ⟨by rw [k.closed, h1], by rw [k.session, h2], hb, h4⟩
  · obtain ⟨h1, h2, h3⟩ := hs
    exact ended h2 fun k1 k2 hb => by rw [k1, ht]; exact ⟨by rw [k2, h1], hb, h3⟩
  · obtain ⟨h1, P, r', h2, h3, h4⟩ := hs
    exact opened h4 fun k hb => by rw [k.taker, ht]; exact ⟨by rw [k.closed, h1], P, r', h2, by rw [k.session, h3], hb⟩
  · obtain ⟨P, r', h1, h2, h3⟩ := hs
    exact ended h3 fun k1 k2 hb => by rw [k1, ht]; exact ⟨P, r', h1, by rw [k2, h2], hb⟩
  · obtain ⟨h1, h2, h3⟩ := hs
    exact opened h3 fun k hb => by rw [k.taker, ht]; exact ⟨by rw [k.closed, h1], by rw [k.session, h2], hb⟩
  · obtain ⟨h1, h2, h3⟩ := hs
    exact opened h3 fun k hb => by rw [k.taker, ht]; exact ⟨by rw [k.closed, h1], by rw [k.session, h2], hb⟩
  · obtain ⟨h1, h2⟩ := hs
    exact ended h2 fun k1 k2 hb => by rw [k1, ht]; exact ⟨by rw [k2, h1], hb⟩
  · obtain ⟨h1, h2⟩ := hs
    exact ended h2 fun k1 k2 hb => by rw [k1, ht]; exact ⟨by rw [k2, h1], hb⟩
  · obtain ⟨h1, h2, h3⟩ := hs
    exact ended h2 fun k1 k2 hb => by rw [k1, ht]; exact ⟨by rw [k2, h1], hb, by rw [k2, h3]⟩

theorem Inv.next {S : Sound C} {r0 : Ratchet κ} {start extra : Bytes} {s : State κ} (h : Inv S r0 start extra s) :
    Inv S r0 start extra (s.next C 0) := by
  obtain ⟨hu, he, ho, Ds, r, hp, hs⟩ := h
  rcases ht : s.taker 0 with e | f | f | ⟨f, b⟩ | ⟨f, X⟩ | _ | _ | bs | _ | _
  · unfold State.next
    rw [ht]
    rw [ht] at hs
    have hb : s.busy = false := by
      have := hu.busy
      rw [ht] at this
      simpa [Taker.runs] using this
    by_cases hlen : s.stream.buffer.length > C.cfg.minStreamQueue
    · simp only [if_pos hlen]
      have hkeep : 1 ≤ C.cfg.minStreamQueue := by simp [Sizes.minStreamQueue]
      refine ⟨hu.took rfl rfl rfl (by show s.busy = true ↔ _; rw [hb]; rfl) id (.inl ⟨rfl, by rw [ht]; rfl⟩), he, ho, Ds, r, hp, ?_⟩
      show Stage S start extra _ Ds r (upd s.taker 0 _ 0)
      rw [upd_self]
      rcases hs with ⟨h1, h2, h3, h4⟩ | ⟨h1, h2, h3, h4⟩
      · exact ⟨h1, h3, h4.congr rfl rfl rfl rfl rfl rfl rfl, by show 2 ≤ s.stream.buffer.length; omega⟩
      · rw [h4] at hlen; simp at hlen
    · simp only [if_neg hlen]
      refine ⟨hu.took rfl rfl rfl (by show s.busy = true ↔ _; rw [hb]; rfl) id (.inl ⟨rfl, by rw [ht]; rfl⟩), he, ho, Ds, r, hp, ?_⟩
      show Stage S start extra _ Ds r (upd s.taker 0 _ 0)
      rw [upd_self]
      rcases hs with ⟨h1, h2, h3, h4⟩ | ⟨h1, h2, h3, h4⟩
      · exact .inl ⟨h1, rfl, h3, h4.congr rfl rfl rfl rfl rfl rfl rfl⟩
      · exact .inr ⟨.inl rfl, h2, h3.congr rfl rfl rfl rfl rfl, h4⟩
  all_goals
    have : s.next C 0 = s := by simp [State.next, ht]
    rw [this]
    exact ⟨hu, he, ho, Ds, r, hp, hs⟩

theorem Inv.finalize {S : Sound C} {r0 : Ratchet κ} {start extra : Bytes} {s : State κ} (h : Inv S r0 start extra s) :
    Inv S r0 start extra (s.finalize 0) := by
  obtain ⟨hu, he, ho, Ds, r, hp, hs⟩ := h
  rcases ht : s.taker 0 with e | f | f | ⟨f, b⟩ | ⟨f, X⟩ | _ | _ | bs | _ | _
  · unfold State.finalize
    rw [ht]
    rw [ht] at hs
    have hb : s.busy = false := by
      have := hu.busy
      rw [ht] at this
      simpa [Taker.runs] using this
    rcases hs with ⟨h1, h2, h3, h4⟩ | ⟨h1, h2, h3, h4⟩
    · rw [if_neg (by rw [h1]; simp)]
      refine ⟨hu.took rfl rfl rfl (by show s.busy = true ↔ _; rw [hb]; rfl) (fun _ => rfl) (.inl ⟨rfl, by rw [ht]; rfl⟩), he, ho, Ds, r, hp, ?_⟩
      show Stage S start extra _ Ds r (upd s.taker 0 _ 0)
      rw [upd_self]
      exact ⟨rfl, h3, h4.congr rfl rfl rfl rfl rfl rfl rfl⟩
    · rw [if_pos h3.1]
      refine ⟨hu.took rfl rfl rfl (by show s.busy = true ↔ _; rw [hb]; rfl) id (.inl ⟨rfl, by rw [ht]; rfl⟩), he, ho, Ds, r, hp, ?_⟩
      show Stage S start extra _ Ds r (upd s.taker 0 _ 0)
      rw [upd_self]
      exact .inr ⟨.inr rfl, h2, h3.congr rfl rfl rfl rfl rfl, h4⟩
  all_goals
    have : s.finalize 0 = s := by simp [State.finalize, ht]
    rw [this]
    exact ⟨hu, he, ho, Ds, r, hp, hs⟩

theorem Path.snoc {S : Sound C} {r0 r r' : Ratchet κ} {Ds : List Bytes} {G : List Packet} {P X : Bytes} (h : Path S r0 Ds G r)
    (h1 : StepRel S r P X r') : Path S r0 (Ds ++ [P]) (G ++ [(blockIdOf C.toEnv r.cur X, X)]) r' :=
  Path.append h (.cons h1 (.nil r'))

/-- What `ClosedBuf` says of the blocks. -/
theorem ClosedBuf.full {S : Sound C} (hF : 0 < C.cfg.paddingFrame) {start extra : Bytes} (hstart : start.length = C.cfg.innerHeaderBytes)
    (hextra : extra.length = C.cfg.paddingFrame) {s : State κ} {done todo : List Bytes} (h : ClosedBuf C start extra s done todo) :
    ∀ b ∈ s.stream.buffer, b.length = C.cfg.blocksize := by
  obtain ⟨_, _, endp, he, hb⟩ := h
  have hlen := Sizes.length_endPadding hF hextra he
  have hmod := (Sizes.padSize_bounds (c := C.cfg) hF s.sent.length).2.2
  have hdvd : C.cfg.blocksize ∣ (start ++ s.sent ++ endp).length := by
    rw [List.length_append, List.length_append, hlen, hstart]
    exact Nat.dvd_trans ⟨_, rfl⟩ (Nat.dvd_of_mod_eq_zero hmod)
  have hall := batch_blocks_of_dvd S.block_pos hdvd
  intro b hb'
  apply hall
  rw [← hb]
  simp [hb']

theorem Inv.go {S : Sound C} (hs' : Streamable C.cfg) (hF : 0 < C.cfg.paddingFrame) {r0 : Ratchet κ} (hr0 : r0.WF C) {start extra : Bytes}
    (hstart : start.length = C.cfg.innerHeaderBytes) (hextra : extra.length = C.cfg.paddingFrame) {s : State κ} (h : Inv S r0 start extra s) :
    Inv S r0 start extra (s.go C 0) := by
  obtain ⟨hu, he, ho, Ds, r, hp, hs⟩ := h
  have hr : r.WF C := Path.wf hp hr0
  have hbusy := hu.busy
  have hhold := hu.taker
  unfold State.go
  rcases ht : s.taker 0 with e | f | f | ⟨f, b⟩ | ⟨f, X⟩ | _ | _ | bs | _ | _ <;> rw [ht] at hs hbusy hhold
  · exact ⟨hu, he, ho, Ds, r, hp, by rw [ht]; exact hs⟩
  · -- checked
    have hb : s.busy = false := by simpa [Taker.runs] using hbusy
    simp only [hb, Bool.false_eq_true, if_false]
    refine ⟨hu.took rfl rfl rfl (by simp [Taker.runs]) id (.inl ⟨rfl, by rw [ht]; rfl⟩), he, ho, Ds, r, hp, ?_⟩
    show Stage S start extra _ Ds r (upd s.taker 0 _ 0)
    rw [upd_self]
    cases f
    · obtain ⟨h1, h2, h3, h4⟩ := hs
      exact ⟨h1, h2, h3.congr rfl rfl rfl rfl rfl rfl rfl, h4⟩
    · obtain ⟨h1, h2, h3⟩ := hs
      exact ⟨h1, h2.congr rfl rfl rfl rfl rfl, h3⟩
  · -- started
    have hb : s.busy = true := by simpa [Taker.runs] using hbusy
    cases f
    · obtain ⟨h1, h2, h3, h4⟩ := hs
      obtain ⟨b, rest, g1, g2, g3⟩ := h3.pop h4
      simp only [g1]
      refine ⟨hu.took rfl rfl rfl (by show s.busy = true ↔ _; rw [hb]; rfl) id (.inl ⟨rfl, by rw [ht]; rfl⟩), he, ho, Ds, r, hp, ?_⟩
      show Stage S start extra _ Ds r (upd s.taker 0 _ 0)
      rw [upd_self]
      exact ⟨h1, h2, g3.congr rfl rfl rfl rfl rfl rfl rfl, g2⟩
    · obtain ⟨h1, h2, h3⟩ := hs
      have hfull := h2.full (S := S) hF hstart hextra
      rcases hbuf : s.stream.buffer with _ | ⟨b, rest⟩
      · exact absurd hbuf h3
      refine ⟨hu.took rfl rfl rfl (by show s.busy = true ↔ _; rw [hb]; rfl) id (.inl ⟨rfl, by rw [ht]; rfl⟩), he, ho, Ds, r, hp, ?_⟩
      show Stage S start extra _ Ds r (upd s.taker 0 _ 0)
      rw [upd_self]
      obtain ⟨k1, k2, endp, k3, k4⟩ := h2
      rw [hbuf] at k4
      refine ⟨h1, ⟨k1, k2, endp, k3, ?_⟩, hfull b (by rw [hbuf]; simp)⟩
      rw [← show (s.sent) = (((s.setBuffer rest).setTaker 0 (.popped true b)).sent) from rfl, ← k4]
      simp [State.setBuffer, State.setTaker]
  · -- popped
    cases f
    · obtain ⟨h1, h2, h3, h4⟩ := hs
      obtain ⟨X, r', hstep⟩ := step_enc S hr h4
      have := hstep.enc false
      simp only [h2]
      rw [show (r.session false .encryption).keys = r.keys from rfl, this]
      refine ⟨hu.took rfl rfl rfl (by simp [Taker.runs]) id (.inl ⟨rfl, by rw [ht]; rfl⟩), he, ho, Ds, r, hp, ?_⟩
      show Stage S start extra _ Ds r (upd s.taker 0 _ 0)
      rw [upd_self]
      exact ⟨h1, b, r', hstep, rfl, h3.congr rfl rfl rfl rfl rfl rfl rfl⟩
    · obtain ⟨h1, h2, h3⟩ := hs
      obtain ⟨X, r', hstep⟩ := step_enc S hr h3
      have := hstep.enc false
      simp only [h1]
      rw [show (r.session false .encryption).keys = r.keys from rfl, this]
      refine ⟨hu.took rfl rfl rfl (by simp [Taker.runs]) id (.inl ⟨rfl, by rw [ht]; rfl⟩), he, ho, Ds, r, hp, ?_⟩
      show Stage S start extra _ Ds r (upd s.taker 0 _ 0)
      rw [upd_self]
      exact ⟨b, r', hstep, rfl, h2.congr rfl rfl rfl rfl rfl⟩
  · -- turned
    have hb : s.busy = false := by simpa [Taker.runs] using hbusy
    have named : ∀ {P r'}, StepRel S r P X r' → (r'.session false .encryption).shmac.nextBlockId C.toEnv X 0 [] = .ok (blockIdOf C.toEnv r.cur X) := by
      intro P r' hstep
      refine nextBlockId_eq rfl hs' ?_ hstep.cipher (.inl rfl)
      have := hstep.prev
      simp [Shmac.blockIdMac, Ratchet.session, Shmac.live, attr, this]
    cases f
    · obtain ⟨h1, P, r', hstep, h3, h4⟩ := hs
      simp only [h3, named hstep, Bool.false_eq_true, if_false]
      refine ⟨hu.took rfl rfl rfl (by show s.busy = true ↔ _; rw [hb]; rfl) id (.inl ⟨rfl, by rw [ht]; rfl⟩), he, ?_, Ds ++ [P], r', ?_, ?_⟩
      · intro x hx
        rcases List.mem_append.1 hx with hx | hx
        · exact ho x hx
        · rw [List.mem_singleton] at hx; rw [hx]
      · show Path S r0 _ ((s.out ++ _).map (·.2)) r'
        rw [List.map_append]
        exact Path.snoc hp hstep
      · show Stage S start extra _ _ r' (upd s.taker 0 _ 0)
        rw [upd_self]
        exact .inl ⟨h1, rfl, h3, h4.congr rfl rfl rfl rfl rfl rfl rfl⟩
    · obtain ⟨P, r', hstep, h3, h4⟩ := hs
      simp only [h3, named hstep, if_true]
      refine ⟨hu.took rfl rfl rfl (by show s.busy = true ↔ _; rw [hb]; rfl) id (.inl ⟨rfl, by rw [ht]; rfl⟩), he, ?_, Ds ++ [P], r', ?_, ?_⟩
      · intro x hx
        rcases List.mem_append.1 hx with hx | hx
        · exact ho x hx
        · rw [List.mem_singleton] at hx; rw [hx]
      · show Path S r0 _ ((s.out ++ _).map (·.2)) r'
        rw [List.map_append]
        exact Path.snoc hp hstep
      · show Stage S start extra _ _ r' (upd s.taker 0 _ 0)
        rw [upd_self]
        exact ⟨h3, h4.congr rfl rfl rfl rfl rfl⟩
  · -- waiting
    have hb : s.busy = false := by simpa [Taker.runs] using hbusy
    obtain ⟨h1, h2, h3⟩ := hs
    by_cases hown : s.owner = none
    · simp only [if_pos hown]
      refine ⟨hu.took rfl rfl rfl (by show s.busy = true ↔ _; rw [hb]; rfl) id (.inr (.inl ⟨hown, rfl, rfl⟩)), he, ho, Ds, r, hp, ?_⟩
      show Stage S start extra _ Ds r (upd s.taker 0 _ 0)
      rw [upd_self]
      exact ⟨h1, h2, h3.congr rfl rfl rfl (by simp [State.rest, State.setTaker, hown]) (by simp [State.uncounted, State.setTaker, hown]) rfl rfl⟩
    · simp only [if_neg hown]
      exact ⟨hu, he, ho, Ds, r, hp, by rw [ht]; exact ⟨h1, h2, h3⟩⟩
  · -- padding
    have hb : s.busy = false := by simpa [Taker.runs] using hbusy
    have hown : s.owner = some (.taker 0) := hhold.1 rfl
    obtain ⟨h1, h2, init, last, e1, e2, e3, e4, e5⟩ := hs
    have hrest : s.rest = [] := by simp [State.rest, hown]
    have hcount : s.uncounted = 0 := by simp [State.uncounted, hown]
    rw [hrest, List.append_nil] at e3
    rw [hcount, Nat.add_zero] at e4
    obtain ⟨endp, hend⟩ : ∃ p, C.cfg.endPadding extra s.sent.length = .ok p := ⟨_, Sizes.endPadding_eq (c := C.cfg) hF extra s.sent.length⟩
    simp only [he, e4, hend, e1, List.getLast?_append, List.getLast?_singleton, Option.some_or, List.dropLast_concat]
    refine ⟨hu.took rfl rfl rfl (by show s.busy = true ↔ _; rw [hb]; rfl) id (.inl ⟨rfl, by rw [ht]; rfl⟩), he, ho, Ds, r, hp, ?_⟩
    show Stage S start extra _ Ds r (upd s.taker 0 _ 0)
    rw [upd_self]
    refine ⟨h2, h1, ?_, endp, hend, ?_⟩
    · intro i
      show (s.feeder i).digests = false
      have : ¬ (s.feeder i).within = true := by rw [hu.feeder i, hown]; simp
      cases hf : s.feeder i <;> rw [hf] at this <;> simp [Feeder.within, Feeder.digests] at this ⊢
    · show Ds ++ (init ++ _) = Text.batch C.cfg.blocksize (start ++ s.sent ++ endp)
      rw [← e3]
      have : Ds.flatten ++ (init.flatten ++ last) ++ endp = Ds.flatten ++ (init.flatten ++ (last ++ endp)) := by simp
      rw [this, batch_append S.block_pos _ (Path.blocks hp).1, batch_append S.block_pos _ e2]
  · -- appending
    have hb : s.busy = false := by simpa [Taker.runs] using hbusy
    obtain ⟨h1, h2⟩ := hs
    cases bs with
    | nil =>
      refine ⟨hu.took rfl rfl rfl (by show s.busy = true ↔ _; rw [hb]; rfl) id (.inl ⟨rfl, by rw [ht]; rfl⟩), he, ho, Ds, r, hp, ?_⟩
      show Stage S start extra _ Ds r (upd s.taker 0 _ 0)
      rw [upd_self]
      exact ⟨h1, h2.congr rfl rfl rfl rfl rfl⟩
    | cons b bs =>
      refine ⟨hu.took rfl rfl rfl (by show s.busy = true ↔ _; rw [hb]; rfl) id (.inl ⟨rfl, by rw [ht]; rfl⟩), he, ho, Ds, r, hp, ?_⟩
      show Stage S start extra _ Ds r (upd s.taker 0 _ 0)
      rw [upd_self]
      obtain ⟨k1, k2, endp, k3, k4⟩ := h2
      refine ⟨h1, k1, k2, endp, k3, ?_⟩
      show Ds ++ ((s.stream.buffer ++ [b]) ++ bs) = Text.batch C.cfg.blocksize (start ++ s.sent ++ endp)
      rw [← k4]
      simp
  · -- flushing
    have hb : s.busy = false := by simpa [Taker.runs] using hbusy
    obtain ⟨h1, h2⟩ := hs
    by_cases hbuf : s.stream.buffer ≠ []
    · simp only [if_pos hbuf]
      refine ⟨hu.took rfl rfl rfl (by show s.busy = true ↔ _; rw [hb]; rfl) id (.inl ⟨rfl, by rw [ht]; rfl⟩), he, ho, Ds, r, hp, ?_⟩
      show Stage S start extra _ Ds r (upd s.taker 0 _ 0)
      rw [upd_self]
      exact ⟨h1, h2.congr rfl rfl rfl rfl rfl, hbuf⟩
    · simp only [if_neg hbuf]
      refine ⟨hu.took rfl rfl rfl (by show s.busy = true ↔ _; rw [hb]; rfl) id (.inl ⟨rfl, by rw [ht]; rfl⟩), he, ho, Ds, r, hp, ?_⟩
      show Stage S start extra _ Ds r (upd s.taker 0 _ 0)
      rw [upd_self]
      exact ⟨h1, h2.congr rfl rfl rfl rfl rfl, Classical.not_not.1 hbuf⟩
  · -- closing
    have hb : s.busy = false := by simpa [Taker.runs] using hbusy
    have hown : s.owner = some (.taker 0) := hhold.1 rfl
    obtain ⟨h1, h2, h3⟩ := hs
    have hfin : (r.session false .encryption).shmac.finalize C.toEnv = .ok (Shmac.tagOf C.toEnv r.mac, (ended C r).shmac) := rfl
    simp only [h1, hfin]
    refine ⟨hu.took rfl rfl rfl (by show s.busy = true ↔ _; rw [hb]; rfl) id (.inr (.inr ⟨hown, rfl, rfl⟩)), he, ho, Ds, r, hp, ?_⟩
    show Stage S start extra _ Ds r (upd s.taker 0 _ 0)
    rw [upd_self]
    exact .inr ⟨.inl rfl, rfl, h2.congr rfl rfl rfl rfl rfl, h3⟩

/-! ### going on -/

theorem run_append (s : State κ) (m1 m2 : List Move) : s.run C (m1 ++ m2) = (s.run C m1).run C m2 := by
  simp [State.run, List.foldl_append]

theorem run_cons (s : State κ) (m : Move) (ms : List Move) : s.run C (m :: ms) = (s.move C m).run C ms := rfl

/-- A call that was let in, or refused, comes to its end if it goes on. -/
theorem feed_ends (hn : 0 < C.cfg.blocksize) (i : Nat) : ∀ (k : Nat) (s : State κ), (∃ e, s.feeder i = .leaving e) ∨ ((s.feeder i).digests = true ∧ ((s.feeder i).rest (s.data i)).length < k) →
    ∃ n e, let s' := s.run C (List.replicate n (.feed i))
      s'.owner = none ∧ s'.feeder i = .done e ∧ s'.log = s.log ∧ s'.taker = s.taker ∧ s'.out = s.out ∧ s'.data = s.data ∧ s'.stream.closed = s.stream.closed ∧
      s'.busy = s.busy := by
  have leaving : ∀ (s : State κ) e, s.feeder i = .leaving e → ∃ n e, let s' := s.run C (List.replicate n (.feed i))
      s'.owner = none ∧ s'.feeder i = .done e ∧ s'.log = s.log ∧ s'.taker = s.taker ∧ s'.out = s.out ∧ s'.data = s.data ∧ s'.stream.closed = s.stream.closed ∧
      s'.busy = s.busy := by
    intro s e hf
    refine ⟨1, e, ?_⟩
    simp [State.run, State.move, State.feed, hf, State.setFeeder, upd_self]
  have step : ∀ (s t : State κ), s.feed C i = t → t.log = s.log → t.taker = s.taker → t.out = s.out → t.data = s.data → t.stream.closed = s.stream.closed →
      t.busy = s.busy →
      (∃ n e, let s' := t.run C (List.replicate n (.feed i))
        s'.owner = none ∧ s'.feeder i = .done e ∧ s'.log = t.log ∧ s'.taker = t.taker ∧ s'.out = t.out ∧ s'.data = t.data ∧ s'.stream.closed = t.stream.closed ∧
        s'.busy = t.busy) →
      ∃ n e, let s' := s.run C (List.replicate n (.feed i))
        s'.owner = none ∧ s'.feeder i = .done e ∧ s'.log = s.log ∧ s'.taker = s.taker ∧ s'.out = s.out ∧ s'.data = s.data ∧ s'.stream.closed = s.stream.closed ∧
        s'.busy = s.busy := by
    rintro s t rfl h1 h2 h3 h4 h5 h6 ⟨n, e, g1, g2, g3, g4, g5, g6, g7, g8⟩
    exact ⟨n + 1, e, g1, g2, by rw [← h1]; exact g3, by rw [← h2]; exact g4, by rw [← h3]; exact g5, by rw [← h4]; exact g6,
      by rw [← h5]; exact g7, by rw [← h6]; exact g8⟩
  have reading : ∀ (k : Nat) (s : State κ) rest, s.feeder i = .reading rest → rest.length < k → ∃ n e, let s' := s.run C (List.replicate n (.feed i))
      s'.owner = none ∧ s'.feeder i = .done e ∧ s'.log = s.log ∧ s'.taker = s.taker ∧ s'.out = s.out ∧ s'.data = s.data ∧ s'.stream.closed = s.stream.closed ∧
      s'.busy = s.busy := by
    intro k
    induction k with
    | zero => intro s rest _ hk; omega
    | succ k ih =>
      intro s rest hf hk
      refine step s _ rfl (by simp [State.feed, hf, State.setBuffer, State.setFeeder]) (by simp [State.feed, hf, State.setBuffer, State.setFeeder])
        (by simp [State.feed, hf, State.setBuffer, State.setFeeder]) (by simp [State.feed, hf, State.setBuffer, State.setFeeder])
        (by simp [State.feed, hf, State.setBuffer, State.setFeeder]) (by simp [State.feed, hf, State.setBuffer, State.setFeeder]) ?_
      have hfd : (s.feed C i).feeder i = if (rest.take C.cfg.blocksize).length ≠ C.cfg.blocksize then .leaving none else .reading (rest.drop C.cfg.blocksize) := by
        simp [State.feed, hf, State.setBuffer, State.setFeeder, upd_self]
      by_cases hl : (rest.take C.cfg.blocksize).length ≠ C.cfg.blocksize
      · rw [if_pos hl] at hfd
        exact leaving _ _ hfd
      · rw [if_neg hl] at hfd
        refine ih _ _ hfd ?_
        rw [List.length_take] at hl
        rw [List.length_drop]
        omega
  have filling : ∀ (s : State κ), s.feeder i = .filling → ∃ n e, let s' := s.run C (List.replicate n (.feed i))
      s'.owner = none ∧ s'.feeder i = .done e ∧ s'.log = s.log ∧ s'.taker = s.taker ∧ s'.out = s.out ∧ s'.data = s.data ∧ s'.stream.closed = s.stream.closed ∧
      s'.busy = s.busy := by
    intro s hf
    rcases hg : s.stream.buffer.getLast? with _ | last
    · have hfd : s.feed C i = s.setFeeder i (.leaving (some .index)) := by simp [State.feed, hf, hg]
      exact step s _ hfd rfl rfl rfl rfl rfl rfl (leaving _ (some .index) (upd_self ..))
    · by_cases hl : last.length > C.cfg.blocksize
      · have hfd : s.feed C i = (s.setBuffer (s.stream.buffer.dropLast ++ [last ++ s.data i])).setFeeder i (.leaving none) := by
          simp [State.feed, hf, hg, hl]
        exact step s _ hfd rfl rfl rfl rfl rfl rfl (leaving _ none (upd_self ..))
      · by_cases hm : ((s.data i).take (C.cfg.blocksize - last.length)).length ≠ C.cfg.blocksize - last.length
        · have hfd : s.feed C i = (s.setBuffer (s.stream.buffer.dropLast ++ [last ++ (s.data i).take (C.cfg.blocksize - last.length)])).setFeeder i (.leaving none) := by
            simp only [State.feed, hf, hg, if_neg hl, if_pos hm]
          exact step s _ hfd rfl rfl rfl rfl rfl rfl (leaving _ none (upd_self ..))
        · have hfd : s.feed C i = (s.setBuffer (s.stream.buffer.dropLast ++ [last ++ (s.data i).take (C.cfg.blocksize - last.length)])).setFeeder i
              (.reading ((s.data i).drop (C.cfg.blocksize - last.length))) := by
            simp only [State.feed, hf, hg, if_neg hl, if_neg hm]
          exact step s _ hfd rfl rfl rfl rfl rfl rfl (reading _ _ _ (upd_self ..) (Nat.lt_succ_self _))
  have counted : ∀ (s : State κ), s.feeder i = .counted → ∃ n e, let s' := s.run C (List.replicate n (.feed i))
      s'.owner = none ∧ s'.feeder i = .done e ∧ s'.log = s.log ∧ s'.taker = s.taker ∧ s'.out = s.out ∧ s'.data = s.data ∧ s'.stream.closed = s.stream.closed ∧
      s'.busy = s.busy := by
    intro s hf
    rcases hg : s.stream.buffer.getLast? with _ | last
    · have hfd : s.feed C i = s.setFeeder i (.reading (s.data i)) := by simp [State.feed, hf, hg]
      exact step s _ hfd rfl rfl rfl rfl rfl rfl (reading _ _ _ (upd_self ..) (Nat.lt_succ_self _))
    · by_cases hl : last.length = C.cfg.blocksize
      · have hfd : s.feed C i = s.setFeeder i (.reading (s.data i)) := by simp [State.feed, hf, hg, hl]
        exact step s _ hfd rfl rfl rfl rfl rfl rfl (reading _ _ _ (upd_self ..) (Nat.lt_succ_self _))
      · have hfd : s.feed C i = s.setFeeder i .filling := by simp [State.feed, hf, hg, hl]
        exact step s _ hfd rfl rfl rfl rfl rfl rfl (filling _ (upd_self ..))
  intro k s h
  rcases h with ⟨e, hf⟩ | ⟨h1, h2⟩
  · exact leaving s e hf
  · cases hf : s.feeder i with
    | admitted => 
      have hfd : s.feed C i = { s.setFeeder i .counted with stream := { s.stream with byteCount := s.stream.byteCount + (s.data i).length } } := by
        simp only [State.feed, hf]
      exact step s _ hfd rfl rfl rfl rfl rfl rfl (counted _ (upd_self ..))
    | counted => exact counted s hf
    | filling => exact filling s hf
    | reading rest => exact reading _ s rest hf (Nat.lt_succ_self _)
    | outside => rw [hf] at h1; cases h1
    | inside => rw [hf] at h1; cases h1
    | leaving e => rw [hf] at h1; cases h1
    | done e => rw [hf] at h1; cases h1

theorem Inv.run {S : Sound C} (hs' : Streamable C.cfg) (hF : 0 < C.cfg.paddingFrame) {r0 : Ratchet κ} (hr0 : r0.WF C) {start extra : Bytes}
    (hstart : start.length = C.cfg.innerHeaderBytes) (hextra : extra.length = C.cfg.paddingFrame) : ∀ (moves : List Move) {s : State κ},
    (∀ m ∈ moves, (∃ i, m = .feed i) ∨ m = .next 0 ∨ m = .finalize 0 ∨ m = .go 0) → Inv S r0 start extra s → Inv S r0 start extra (s.run C moves) := by
  intro moves
  induction moves with
  | nil => intro s _ h; exact h
  | cons m ms ih =>
    intro s hm h
    rw [run_cons]
    refine ih (fun x hx => hm x (by simp [hx])) ?_
    rcases hm m (by simp) with ⟨i, rfl⟩ | rfl | rfl | rfl
    · exact h.feed i
    · exact h.next
    · exact h.finalize
    · exact h.go hs' hF hr0 hstart hextra

/-- How much a taker has to do. -/
def toDo (s : State κ) : Taker → Nat
  | .closing => 1
  | .flushing => 6 * s.stream.buffer.length + 2
  | .checked _ => 6 * s.stream.buffer.length + 1
  | .started _ => 6 * s.stream.buffer.length
  | .popped _ _ => 6 * s.stream.buffer.length + 5
  | .turned _ _ => 6 * s.stream.buffer.length + 4
  | .appending bs => 7 * bs.length + 6 * s.stream.buffer.length + 3
  | _ => 0

/-- A step of a taker that has not finished: it is nearer to its end, or at it. -/
theorem go_step (s : State κ) (j : Nat) (hw : s.taker j ≠ .waiting) (hp : s.taker j ≠ .padding) :
    (s.go C j).stream.closed = s.stream.closed ∧ ((∃ e, (s.go C j).taker j = .ready e) ∨
      ((s.go C j).taker j ≠ .waiting ∧ (s.go C j).taker j ≠ .padding ∧ toDo (s.go C j) ((s.go C j).taker j) < toDo s (s.taker j))) := by
  unfold State.go
  rcases ht : s.taker j with e | f | f | ⟨f, b⟩ | ⟨f, X⟩ | _ | _ | bs | _ | _
  · exact ⟨rfl, .inl ⟨e, ht⟩⟩
  · by_cases hb : s.busy
    · simp [hb, State.raise, State.setTaker, upd_self]
    · simp [hb, State.setTaker, upd_self, toDo]
  · rcases hb : s.stream.buffer with _ | ⟨b, rest⟩
    · simp [State.raise, State.setTaker, upd_self]
    · simp [State.setBuffer, State.setTaker, upd_self, toDo, hb]
      omega
  · rcases hc : C.turn s.stream.session.shmac s.stream.session.keys b with e | ⟨out, shmac, keys⟩
    · simp [hc, State.raise, State.setTaker, upd_self]
    · simp [hc, State.setTaker, upd_self, toDo]
  · rcases hc : s.stream.session.shmac.nextBlockId C.toEnv X 0 [] with e | id
    · simp [hc, State.raise, State.setTaker, upd_self]
    · cases f <;> simp [hc, State.setTaker, upd_self, toDo]
  · exact absurd ht hw
  · exact absurd ht hp
  · cases bs with
    | nil => simp [State.setTaker, upd_self, toDo]
    | cons b bs =>
      simp [State.setBuffer, State.setTaker, upd_self, toDo]
      omega
  · by_cases hb : s.stream.buffer = []
    · simp [hb, State.setTaker, upd_self, toDo]
    · simp [hb, State.setTaker, upd_self, toDo]
  · rcases hc : s.stream.session.shmac.finalize C.toEnv with e | ⟨tag, shmac⟩
    · simp [hc, State.raise, State.setTaker, upd_self]
    · simp [hc, State.setTaker, upd_self]

theorem go_ready (j : Nat) : ∀ (k : Nat) (s : State κ), s.taker j ≠ .waiting → s.taker j ≠ .padding → toDo s (s.taker j) < k →
    ∃ n e, (s.run C (List.replicate n (.go j))).taker j = .ready e ∧ (s.run C (List.replicate n (.go j))).stream.closed = s.stream.closed := by
  intro k
  induction k with
  | zero => intro s _ _ h; omega
  | succ k ih =>
    intro s hw hp h
    obtain ⟨g1, g2⟩ := go_step (C := C) s j hw hp
    rcases g2 with ⟨e, g2⟩ | ⟨g2, g3, g4⟩
    · exact ⟨1, e, g2, g1⟩
    · obtain ⟨n, e, f1, f2⟩ := ih _ g2 g3 (by omega)
      refine ⟨n + 1, e, ?_, ?_⟩
      · rw [List.replicate_succ, run_cons]; exact f1
      · rw [List.replicate_succ, run_cons]; exact f2.trans g1

theorem padding_step (s : State κ) (j : Nat) (h : s.taker j = .padding) :
    (s.go C j).stream.closed = s.stream.closed ∧ (s.go C j).taker j ≠ .waiting ∧ (s.go C j).taker j ≠ .padding := by
  unfold State.go
  rw [h]
  rcases C.cfg.endPadding s.stream.extra s.stream.byteCount with e | p
  · simp [State.raise, State.setTaker, upd_self]
  · rcases s.stream.buffer.getLast? with _ | last
    · simp [State.raise, State.setTaker, upd_self]
    · simp [State.setBuffer, State.setTaker, upd_self]

end Aiootp.Cipher.Shared
