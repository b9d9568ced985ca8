import Verif.Lemmas.StreamShared
import Verif.Spec.StreamShared
import Verif.Props.Stream

/-
Property C79: one stream, many threads (or coroutines).
-/

namespace Aiootp.Cipher.Shared

open Perm Cipher

/-! ### one taker -/

/-- C79. As long as one thread takes all packets, any number of threads may give data at once, and everything is as if one thread had given the data of the
calls one after another, in the order in which they were let in:
before the stream is closed, the packets given out are the first packets of every message that begins so; after that, those of the message; once the tag
is available all packets of the message were given out and the tag is that of the message. No call of `buffer` raises anything, unless `finalize` was called before it was let in; no
data is lost, none is used twice; `finalize` raises only if it was called before. -/
def OneTakerSound {κ : Type} (C : Cipher κ) : Prop :=
  ∀ a : StreamArgs, a.OK C.cfg → ∀ bundle st, CipherStream.new C a.key a.draws a.salt a.aad = .ok (bundle, st) →
  ∀ (data : Nat → Bytes) (moves : List Move), OneTaker moves →
  let s := (begin st data).run C moves
  (s.stream.closed = false → ∀ more, s.packets <+: packetsOf C st (s.message ++ more)) ∧
  (s.stream.closed = true → s.packets <+: packetsOf C st s.message) ∧
  (∀ tag, s.stream.session.shmac.getResult = .ok tag → s.packets = packetsOf C st s.message ∧ tagOf C st s.message = .ok tag) ∧
  s.data = data ∧ s.log.Nodup ∧
  (∀ i, s.feeder i = .done none → i ∈ s.log) ∧
  (∀ i e, s.feeder i = .done (some e) → e = .streamClosed ∧ s.stream.closed = true ∧ i ∉ s.log) ∧
  (∀ i, s.feeder i = .outside → i ∉ s.log) ∧
  (∀ e, s.taker 0 = .ready (some e) → e = .streamClosed ∧ ∃ tag, s.stream.session.shmac.getResult = .ok tag)

/-- C79, nobody gets stuck: whatever has happened, if the calls go on and the taker finalizes the stream, it gets there. -/
def OneTakerEnds {κ : Type} (C : Cipher κ) : Prop :=
  ∀ a : StreamArgs, a.OK C.cfg → ∀ bundle st, CipherStream.new C a.key a.draws a.salt a.aad = .ok (bundle, st) →
  ∀ (data : Nat → Bytes) (moves : List Move), OneTaker moves →
  ∃ more, OneTaker more ∧ ∃ tag, ((begin st data).run C (moves ++ more)).stream.session.shmac.getResult = .ok tag

section
variable {κ : Type} {C : Cipher κ}

theorem feed_data (s : State κ) (i : Nat) : (s.feed C i).data = s.data := by
  unfold State.feed
  split <;> try rfl
  · split <;> rfl
  · split <;> rfl
  · split <;> rfl
  · split
    · rfl
    · split <;> rfl

theorem go_data (s : State κ) (j : Nat) : (s.go C j).data = s.data ∧ (s.go C j).log = s.log := by
  unfold State.go
  split <;> try exact ⟨rfl, rfl⟩
  · split <;> exact ⟨rfl, rfl⟩
  · split <;> exact ⟨rfl, rfl⟩
  · split <;> exact ⟨rfl, rfl⟩
  · split <;> exact ⟨rfl, rfl⟩
  · split <;> exact ⟨rfl, rfl⟩
  · split <;> exact ⟨rfl, rfl⟩
  · split <;> exact ⟨rfl, rfl⟩

theorem move_data (s : State κ) (m : Move) : (s.move C m).data = s.data := by
  cases m with
  | feed i => exact feed_data s i
  | next j => show (s.next C j).data = _; unfold State.next; split <;> rfl
  | finalize j =>
    show (s.finalize j).data = _
    unfold State.finalize
    split
    · split <;> rfl
    · rfl
  | go j => exact (go_data s j).1

theorem run_data (moves : List Move) : ∀ (s : State κ), (s.run C moves).data = s.data := by
  induction moves with
  | nil => intro s; rfl
  | cons m ms ih => intro s; rw [run_cons, ih, move_data]

theorem inv_begin (S : Sound C) (r0 : Ratchet κ) (start extra : Bytes) (data : Nat → Bytes) :
    Inv S r0 start extra (begin ⟨r0.session false .encryption, [start], 0, false, extra⟩ data) := by
  refine ⟨⟨?_, ?_, ?_, ?_, ?_, ?_, ?_⟩, rfl, ?_, [], r0, .nil r0, .inl ⟨rfl, rfl, rfl, [], start, rfl, ?_, ?_, ?_, ?_⟩⟩
  · intro i; simp [begin, Feeder.within]
  · simp [begin, Taker.holds]
  · intro j hj; cases hj
  · intro i; simp [begin, Feeder.entered]
  · exact List.nodup_nil
  · rintro i e (h | h) <;> cases h
  · simp [begin, Taker.runs]
  · intro x hx; cases hx
  · intro b hb; cases hb
  · simp [begin, State.rest, State.sent]
  · simp [begin, State.uncounted, State.sent]
  · intro i r h; cases h

/-- The packets given out are the first ones of what a single thread would get. -/
theorem path_prefix {S : Sound C} {r0 r r' : Ratchet κ} {Ds rest : List Bytes} {G H : List Packet} (h : Path S r0 Ds G r)
    (h2 : Path S r0 (Ds ++ rest) H r') : G <+: H := by
  induction h generalizing H with
  | nil => exact List.nil_prefix
  | cons h1 _ ih =>
    cases h2 with
    | cons h3 h4 =>
      obtain ⟨rfl, rfl⟩ := h1.unique_enc h3
      obtain ⟨t, ht⟩ := ih h4
      exact ⟨t, by rw [← ht]; rfl⟩

theorem batch_done {n : Nat} (hn : 0 < n) {Ds : List Bytes} (hd : ∀ b ∈ Ds, b.length = n) {x : Bytes} (rest : Bytes) (h : Ds.flatten ++ rest = x) :
    Text.batch n x = Ds ++ Text.batch n rest := by rw [← h, batch_append hn _ hd]

theorem one_taker (S : Sound C) (u : Usable C) (hs : Streamable C.cfg) : OneTakerSound C := by
  intro a ha bundle st hst data moves hm
  obtain ⟨r0, hr, _, _, hlen, hnew, _, _⟩ := stream_start S u ha
  rw [hnew] at hst
  simp only [Except.ok.injEq, Prod.mk.injEq] at hst
  obtain ⟨_, rfl⟩ := hst
  intro s
  have hinv : Inv S r0 _ _ s := Inv.run hs u.accepted.frame_pos hr hlen ha.draws.extra moves hm (inv_begin S r0 _ a.draws.extra data)
  have hdata : s.data = data := run_data moves _
  have ref := fun msg => reference_run (S := S) u hs ha hr msg hlen
  obtain ⟨hu, he, ho, Ds, r, hp, hstage⟩ := hinv
  have hsent : s.sent = s.message := rfl
  -- an open queue
  have opened : ∀ done, OpenBuf C (beDigits C.cfg.timestampBytes a.draws.reading.toNat ++ a.draws.sivKey) s (Ds ++ done) → (∀ b ∈ done, b.length = C.cfg.blocksize) →
      ∀ more, s.packets <+: packetsOf C ⟨r0.session false .encryption,
        [beDigits C.cfg.timestampBytes a.draws.reading.toNat ++ a.draws.sivKey], 0, false, a.draws.extra⟩ (s.message ++ more) := by
    rintro done ⟨init, last, _, hi, e3, _, _⟩ hd more
    obtain ⟨endp, G, r', st', f1, f2, f3, f4⟩ := ref (s.message ++ more)
    rw [packetsOf, f3]
    rw [batch_done S.block_pos (Path.blocks hp).1 (done.flatten ++ (init.flatten ++ (last ++ s.rest)) ++ more ++ endp) (by
      rw [hsent] at e3
      rw [List.flatten_append] at e3
      simp only [List.append_assoc] at e3 ⊢
      have := congrArg (· ++ (more ++ endp)) e3
      simpa using this)] at f2
    exact path_prefix hp f2
  have closedPrefix : ∀ done todo, ClosedBuf C (beDigits C.cfg.timestampBytes a.draws.reading.toNat ++ a.draws.sivKey) a.draws.extra s (Ds ++ done) todo →
      s.packets <+: packetsOf C ⟨r0.session false .encryption,
        [beDigits C.cfg.timestampBytes a.draws.reading.toNat ++ a.draws.sivKey], 0, false, a.draws.extra⟩ s.message := by
    rintro done todo ⟨_, _, endp, e1, e2⟩
    obtain ⟨endp', G, r', st', f1, f2, f3, f4⟩ := ref s.message
    rw [packetsOf, f3]
    rw [hsent, f1] at e1
    simp only [Except.ok.injEq] at e1
    subst e1
    rw [hsent] at e2
    rw [← e2, List.append_assoc] at f2
    exact path_prefix hp f2
  have key : (s.stream.closed = false → ∀ more, s.packets <+: packetsOf C ⟨r0.session false .encryption,
        [beDigits C.cfg.timestampBytes a.draws.reading.toNat ++ a.draws.sivKey], 0, false, a.draws.extra⟩ (s.message ++ more)) ∧
      (s.stream.closed = true → s.packets <+: packetsOf C ⟨r0.session false .encryption,
        [beDigits C.cfg.timestampBytes a.draws.reading.toNat ++ a.draws.sivKey], 0, false, a.draws.extra⟩ s.message) ∧
      ((∃ tag, s.stream.session.shmac.getResult = .ok tag) → ∃ e, s.taker 0 = .ready e ∧ s.stream.session = ended C r ∧
        ClosedBuf C (beDigits C.cfg.timestampBytes a.draws.reading.toNat ++ a.draws.sivKey) a.draws.extra s Ds [] ∧ s.stream.buffer = []) ∧
      (∀ e, s.taker 0 = .ready (some e) → e = .streamClosed ∧ s.stream.session = ended C r) := by
    have live : ∀ q : Ratchet κ, s.stream.session = q.session false .encryption → ¬ ∃ tag, s.stream.session.shmac.getResult = .ok tag := by
      rintro q hq ⟨tag, ht⟩
      rw [hq] at ht
      cases ht
    have op : ∀ done, OpenBuf C (beDigits C.cfg.timestampBytes a.draws.reading.toNat ++ a.draws.sivKey) s (Ds ++ done) → (∀ b ∈ done, b.length = C.cfg.blocksize) →
        s.packets <+: packetsOf C ⟨r0.session false .encryption,
        [beDigits C.cfg.timestampBytes a.draws.reading.toNat ++ a.draws.sivKey], 0, false, a.draws.extra⟩ s.message := by
      intro done h1 h2
      simpa using opened done h1 h2 []
    rcases ht : s.taker 0 with e | (_ | _) | (_ | _) | ⟨(_ | _), b⟩ | ⟨(_ | _), X⟩ | _ | _ | bs | _ | _ <;> rw [ht] at hstage
    · rcases hstage with ⟨h1, h2, h3, h4⟩ | ⟨h1, h2, h3, h4⟩
      · refine ⟨fun _ => opened [] (by simpa using h4) (by simp), fun h => by rw [h1] at h; simp at h, fun h => absurd h (live r h3), ?_⟩
        intro x hx
        rw [h2] at hx
        simp at hx
      · refine ⟨fun h => by rw [h3.1] at h; simp at h, fun _ => closedPrefix [] [] (by simpa using h3), fun _ => ⟨e, rfl, h2, h3, h4⟩, ?_⟩
        intro x hx
        rcases h1 with rfl | rfl
        · simp at hx
        · simp at hx; exact ⟨hx.symm, h2⟩
    · obtain ⟨h1, h2, h3, h4⟩ := hstage
      exact ⟨fun _ => opened [] (by simpa using h3) (by simp), fun h => by rw [h1] at h; simp at h, fun h => absurd h (live r h2), fun _ h => by simp at h⟩
    · obtain ⟨h1, h2, h3⟩ := hstage
      exact ⟨fun h => by rw [h2.1] at h; simp at h, fun _ => closedPrefix [] [] (by simpa using h2), fun h => absurd h (live r h1), fun _ h => by simp at h⟩
    · obtain ⟨h1, h2, h3, h4⟩ := hstage
      exact ⟨fun _ => opened [] (by simpa using h3) (by simp), fun h => by rw [h1] at h; simp at h, fun h => absurd h (live r h2), fun _ h => by simp at h⟩
    · obtain ⟨h1, h2, h3⟩ := hstage
      exact ⟨fun h => by rw [h2.1] at h; simp at h, fun _ => closedPrefix [] [] (by simpa using h2), fun h => absurd h (live r h1), fun _ h => by simp at h⟩
    · obtain ⟨h1, h2, h3, h4⟩ := hstage
      exact ⟨fun _ => opened [b] h3 (by simpa using h4), fun h => by rw [h1] at h; simp at h, fun h => absurd h (live r h2), fun _ h => by simp at h⟩
    · obtain ⟨h1, h2, h3⟩ := hstage
      exact ⟨fun h => by rw [h2.1] at h; simp at h, fun _ => closedPrefix [b] [] h2, fun h => absurd h (live r h1), fun _ h => by simp at h⟩
    · obtain ⟨h1, P, r', h2, h3, h4⟩ := hstage
      exact ⟨fun _ => opened [P] h4 (by simpa using h2.plain), fun h => by rw [h1] at h; simp at h, fun h => absurd h (live r' h3), fun _ h => by simp at h⟩
    · obtain ⟨P, r', h2, h3, h4⟩ := hstage
      exact ⟨fun h => by rw [h4.1] at h; simp at h, fun _ => closedPrefix [P] [] h4, fun h => absurd h (live r' h3), fun _ h => by simp at h⟩
    · obtain ⟨h1, h2, h3⟩ := hstage
      exact ⟨fun h => by rw [h1] at h; simp at h, fun _ => op [] (by simpa using h3) (by simp), fun h => absurd h (live r h2), fun _ h => by simp at h⟩
    · obtain ⟨h1, h2, h3⟩ := hstage
      exact ⟨fun h => by rw [h1] at h; simp at h, fun _ => op [] (by simpa using h3) (by simp), fun h => absurd h (live r h2), fun _ h => by simp at h⟩
    · obtain ⟨h1, h2⟩ := hstage
      exact ⟨fun h => by rw [h2.1] at h; simp at h, fun _ => closedPrefix [] bs (by simpa using h2), fun h => absurd h (live r h1), fun _ h => by simp at h⟩
    · obtain ⟨h1, h2⟩ := hstage
      exact ⟨fun h => by rw [h2.1] at h; simp at h, fun _ => closedPrefix [] [] (by simpa using h2), fun h => absurd h (live r h1), fun _ h => by simp at h⟩
    · obtain ⟨h1, h2, h3⟩ := hstage
      exact ⟨fun h => by rw [h2.1] at h; simp at h, fun _ => closedPrefix [] [] (by simpa using h2), fun h => absurd h (live r h1), fun _ h => by simp at h⟩
  refine ⟨key.1, key.2.1, ?_, hdata, hu.nodup, ?_, ?_, ?_, ?_⟩
  · intro tag htag
    obtain ⟨e, _, h2, ⟨_, _, endp, e1, e2⟩, h4⟩ := key.2.2.1 ⟨tag, htag⟩
    obtain ⟨endp', G, r', st', f1, f2, f3, f4⟩ := ref s.message
    rw [hsent, f1] at e1
    simp only [Except.ok.injEq] at e1
    subst e1
    rw [hsent, h4] at e2
    simp only [List.append_nil] at e2
    rw [← e2] at f2
    obtain ⟨rfl, rfl⟩ := Path.unique hp f2
    rw [packetsOf, tagOf, f3]
    refine ⟨rfl, ?_⟩
    rw [f4]
    rw [h2] at htag
    exact htag
  · intro i hi
    rw [hu.log, hi]; rfl
  · intro i e hi
    refine ⟨(hu.refused i e (.inr hi)).1, (hu.refused i e (.inr hi)).2, ?_⟩
    rw [hu.log, hi]; simp [Feeder.entered]
  · intro i hi
    rw [hu.log, hi]; simp [Feeder.entered]
  · intro e hx
    obtain ⟨h1, h2⟩ := key.2.2.2 e hx
    exact ⟨h1, Shmac.tagOf C.toEnv r.mac, by rw [h2]; rfl⟩

theorem one_taker_ends (S : Sound C) (u : Usable C) (hs : Streamable C.cfg) : OneTakerEnds C := by
  intro a ha bundle st hst data moves hm
  obtain ⟨r0, hr, _, _, hlen, hnew, _, _⟩ := stream_start S u ha
  rw [hnew] at hst
  simp only [Except.ok.injEq, Prod.mk.injEq] at hst
  obtain ⟨_, rfl⟩ := hst
  have hF := u.accepted.frame_pos
  simp only [run_append]
  generalize hs0 : (begin ⟨r0.session false .encryption, [beDigits C.cfg.timestampBytes a.draws.reading.toNat ++ a.draws.sivKey], 0, false, a.draws.extra⟩ data).run C moves = s0
  obtain ⟨start, extra, hlen, hextra, hinv⟩ : ∃ start extra : Bytes, start.length = C.cfg.innerHeaderBytes ∧ extra.length = C.cfg.paddingFrame ∧ Inv S r0 start extra s0 :=
    ⟨_, _, hlen, ha.draws.extra, hs0 ▸ Inv.run hs hF hr hlen ha.draws.extra moves hm (inv_begin S r0 _ a.draws.extra data)⟩
  clear hs0 hm hnew
  have keep := fun (ms : List Move) {s : State κ} (h1 : OneTaker ms) (h2 : Inv S r0 start extra s) => Inv.run (S := S) hs hF hr hlen hextra ms h1 h2
  have feeds : ∀ n i, OneTaker (List.replicate n (.feed i)) := fun n i m hm => .inl ⟨i, (List.mem_replicate.1 hm).2⟩
  have gos : ∀ n, OneTaker (List.replicate n (.go 0)) := fun n m hm => .inr (.inr (.inr (List.mem_replicate.1 hm).2))
  have both : ∀ {m1 m2}, OneTaker m1 → OneTaker m2 → OneTaker (m1 ++ m2) := fun h1 h2 m hm => (List.mem_append.1 hm).elim (h1 m) (h2 m)
  -- a taker that has the guard, or has the tag
  have fin : ∀ s : State κ, Inv S r0 start extra s → s.stream.closed = true → s.taker 0 ≠ .waiting → s.taker 0 ≠ .padding →
      ∃ more, OneTaker more ∧ ∃ tag, (s.run C more).stream.session.shmac.getResult = .ok tag := by
    intro s h hc hw hp
    obtain ⟨n, e, g1, g2⟩ := go_ready (C := C) 0 _ s hw hp (Nat.lt_succ_self _)
    refine ⟨_, gos n, ?_⟩
    obtain ⟨_, _, _, Ds, r, _, hst⟩ := keep _ (gos n) h
    rw [g1] at hst
    rcases hst with ⟨k1, _⟩ | ⟨_, k2, _⟩
    · rw [g2, hc] at k1; simp at k1
    · exact ⟨Shmac.tagOf C.toEnv r.mac, by rw [k2]; rfl⟩
  have padded : ∀ s : State κ, Inv S r0 start extra s → s.stream.closed = true → s.taker 0 = .padding →
      ∃ more, OneTaker more ∧ ∃ tag, (s.run C more).stream.session.shmac.getResult = .ok tag := by
    intro s h hc hp
    obtain ⟨g1, g2, g3⟩ := padding_step (C := C) s 0 hp
    obtain ⟨more, m1, m2⟩ := fin (s.go C 0) (keep [.go 0] (gos 1) h) (g1.trans hc) g2 g3
    exact ⟨List.replicate 1 (.go 0) ++ more, both (gos 1) m1, by rw [run_append]; exact m2⟩
  have waits : ∀ s : State κ, Inv S r0 start extra s → s.stream.closed = true → s.taker 0 = .waiting → s.owner = none →
      ∃ more, OneTaker more ∧ ∃ tag, (s.run C more).stream.session.shmac.getResult = .ok tag := by
    intro s h hc hw ho
    have hg : s.go C 0 = { s.setTaker 0 .padding with owner := some (.taker 0) } := by simp [State.go, hw, ho]
    obtain ⟨more, m1, m2⟩ := padded (s.go C 0) (keep [.go 0] (gos 1) h) (by rw [hg]; exact hc) (by rw [hg]; simp [State.setTaker, upd_self])
    exact ⟨List.replicate 1 (.go 0) ++ more, both (gos 1) m1, by rw [run_append]; exact m2⟩
  have opens : ∀ s : State κ, Inv S r0 start extra s → s.owner = none → (∃ e, s.taker 0 = .ready e) →
      ∃ more, OneTaker more ∧ ∃ tag, (s.run C more).stream.session.shmac.getResult = .ok tag := by
    rintro s h ho ⟨e, ht⟩
    by_cases hc : s.stream.closed = true
    · exact fin s h hc (by rw [ht]; simp) (by rw [ht]; simp)
    · have hg : s.finalize 0 = { s.setTaker 0 .waiting with stream := { s.stream with closed := true } } := by simp [State.finalize, ht, hc]
      have h1 : OneTaker [.finalize 0] := fun m hm => .inr (.inr (.inl (List.mem_singleton.1 hm)))
      obtain ⟨more, m1, m2⟩ := waits (s.finalize 0) (keep [.finalize 0] h1 h) (by rw [hg]) (by rw [hg]; simp [State.setTaker, upd_self]) (by rw [hg]; exact ho)
      exact ⟨[.finalize 0] ++ more, both h1 m1, by rw [run_append]; exact m2⟩
  -- nobody but perhaps the taker has the guard
  have free : ∀ s : State κ, Inv S r0 start extra s → (∀ i, s.owner ≠ some (.feeder i)) →
      ∃ more, OneTaker more ∧ ∃ tag, (s.run C more).stream.session.shmac.getResult = .ok tag := by
    intro s h hno
    have hown : (s.taker 0).holds = false → s.owner = none := by
      intro hh
      rcases ho : s.owner with _ | (i | j)
      · rfl
      · exact absurd ho (hno i)
      · have := h.users.others j ho
        subst this
        rw [← h.users.taker, hh] at ho
        simp at ho
    by_cases hold : (s.taker 0).holds = true
    · have hc : s.stream.closed = true := by
        obtain ⟨_, _, _, Ds, r, _, hst⟩ := h
        rcases ht : s.taker 0 with e | (_ | _) | (_ | _) | ⟨(_ | _), b⟩ | ⟨(_ | _), X⟩ | _ | _ | bs | _ | _ <;> rw [ht] at hst hold <;>
          first
          | (simp [Taker.holds] at hold; done)
          | exact hst.1
          | exact hst.2.1.1
          | exact hst.2.1
          | exact hst.2.choose_spec.choose_spec.2.2.1
          | skip
        · obtain ⟨_, _, _, _, k, _⟩ := hst
          exact k
      by_cases hp : s.taker 0 = .padding
      · exact padded s h hc hp
      · refine fin s h hc ?_ hp
        intro hw
        rw [hw] at hold
        simp [Taker.holds] at hold
    · have hold' : (s.taker 0).holds = false := by simpa using hold
      have ho := hown hold'
      by_cases hw : s.taker 0 = .waiting
      · obtain ⟨_, _, _, Ds, r, _, hst⟩ := id h
        rw [hw] at hst
        exact waits s h hst.1 hw ho
      · have hp : s.taker 0 ≠ .padding := by
          intro hp
          rw [hp] at hold'
          simp [Taker.holds] at hold'
        obtain ⟨n, e, g1, g2⟩ := go_ready (C := C) 0 _ s hw hp (Nat.lt_succ_self _)
        have h' := keep _ (gos n) h
        by_cases hc : s.stream.closed = true
        · exact fin s h hc hw hp
        · have hst := h'.stage
          obtain ⟨Ds, r, _, hst⟩ := hst
          rw [g1] at hst
          have hno' : (s.run C (List.replicate n (.go 0))).owner = none := by
            have keepOwner : ∀ n (s : State κ), s.owner = none → s.taker 0 ≠ .waiting → (s.taker 0).holds = false →
                (s.run C (List.replicate n (.go 0))).owner = none := by
              intro n
              induction n with
              | zero => intro s h _ _; exact h
              | succ n ih =>
                intro s h h2 h3
                rw [List.replicate_succ, run_cons]
                rcases ht : s.taker 0 with e | (_ | _) | (_ | _) | ⟨(_ | _), b⟩ | ⟨(_ | _), X⟩ | _ | _ | bs | _ | _ <;> rw [ht] at h2 h3 <;>
                  simp [Taker.holds] at h2 h3
                · have : s.move C (.go 0) = s := by simp [State.move, State.go, ht]
                  rw [this]
                  exact ih s h (by rw [ht]; simp) (by rw [ht]; rfl)
                · have hk : (s.move C (.go 0)).owner = none ∧ ((s.move C (.go 0)).taker 0 = .started false ∨ ∃ e, (s.move C (.go 0)).taker 0 = .ready e) := by
                    cases hb : s.busy <;> simp [State.move, State.go, ht, hb, State.raise, State.setTaker, upd_self, h]
                  rcases hk.2 with k | ⟨e, k⟩ <;> exact ih _ hk.1 (by rw [k]; simp) (by rw [k]; rfl)
                · have hk : (s.move C (.go 0)).owner = none ∧ ((∃ b, (s.move C (.go 0)).taker 0 = .popped false b) ∨ ∃ e, (s.move C (.go 0)).taker 0 = .ready e) := by
                    cases hb : s.stream.buffer <;> simp [State.move, State.go, ht, hb, State.raise, State.setTaker, State.setBuffer, upd_self, h]
                  rcases hk.2 with ⟨e, k⟩ | ⟨e, k⟩ <;> exact ih _ hk.1 (by rw [k]; simp) (by rw [k]; rfl)
                · have hk : (s.move C (.go 0)).owner = none ∧ ((∃ b, (s.move C (.go 0)).taker 0 = .turned false b) ∨ ∃ e, (s.move C (.go 0)).taker 0 = .ready e) := by
                    rcases hb : C.turn s.stream.session.shmac s.stream.session.keys b with e | ⟨o1, o2, o3⟩ <;>
                      simp [State.move, State.go, ht, hb, State.raise, State.setTaker, upd_self, h]
                  rcases hk.2 with ⟨e, k⟩ | ⟨e, k⟩ <;> exact ih _ hk.1 (by rw [k]; simp) (by rw [k]; rfl)
                · have hk : (s.move C (.go 0)).owner = none ∧ (∃ e, (s.move C (.go 0)).taker 0 = .ready e) := by
                    rcases hb : s.stream.session.shmac.nextBlockId C.toEnv X 0 [] with e | i <;>
                      simp [State.move, State.go, ht, hb, State.raise, State.setTaker, upd_self, h]
                  obtain ⟨e, k⟩ := hk.2
                  exact ih _ hk.1 (by rw [k]; simp) (by rw [k]; rfl)
            exact keepOwner n s ho hw hold'
          obtain ⟨more, m1, m2⟩ := opens _ h' hno' ⟨e, g1⟩
          exact ⟨List.replicate n (.go 0) ++ more, both (gos n) m1, by rw [run_append]; exact m2⟩
  by_cases hf : ∃ i, s0.owner = some (.feeder i)
  · obtain ⟨i, ho⟩ := hf
    have hw := (hinv.users.feeder i).2 ho
    have ends : ∀ s : State κ, Inv S r0 start extra s → (∃ e, s.feeder i = .leaving e) ∨ (s.feeder i).digests = true →
        ∃ more, OneTaker more ∧ ∃ tag, (s.run C more).stream.session.shmac.getResult = .ok tag := by
      intro s h hd
      obtain ⟨n, e, g1, _⟩ := feed_ends S.block_pos i _ s (hd.imp_right fun k => ⟨k, Nat.lt_succ_self _⟩)
      obtain ⟨more, m1, m2⟩ := free _ (keep _ (feeds n i) h) (by rw [g1]; simp)
      exact ⟨List.replicate n (.feed i) ++ more, both (feeds n i) m1, by rw [run_append]; exact m2⟩
    by_cases hin : s0.feeder i = .inside
    · have h1 := keep [.feed i] (feeds 1 i) hinv
      obtain ⟨more, m1, m2⟩ := ends _ h1 (by
        show (∃ e, (s0.feed C i).feeder i = .leaving e) ∨ ((s0.feed C i).feeder i).digests = true
        cases hc : s0.stream.closed <;> simp [State.feed, hin, hc, State.setFeeder, upd_self, Feeder.digests])
      exact ⟨List.replicate 1 (.feed i) ++ more, both (feeds 1 i) m1, by rw [run_append]; exact m2⟩
    · refine ends s0 hinv ?_
      cases hfd : s0.feeder i <;> rw [hfd] at hw hin <;> simp [Feeder.within, Feeder.digests] at hw hin ⊢
  · exact free s0 hinv fun i hi => hf ⟨i, hi⟩

theorem log_prefix (moves : List Move) : ∀ (s : State κ), s.log <+: (s.run C moves).log := by
  induction moves with
  | nil => intro s; exact List.prefix_rfl
  | cons m ms ih =>
    intro s
    rw [run_cons]
    refine List.IsPrefix.trans ?_ (ih _)
    cases m with
    | feed i =>
      show s.log <+: (s.feed C i).log
      unfold State.feed
      split <;> try exact List.prefix_rfl
      · split <;> exact List.prefix_rfl
      · split
        · exact List.prefix_rfl
        · exact List.prefix_append _ _
      · split <;> exact List.prefix_rfl
      · split
        · exact List.prefix_rfl
        · split <;> exact List.prefix_rfl
    | next j => show s.log <+: (s.next C j).log; unfold State.next; split <;> exact List.prefix_rfl
    | finalize j =>
      show s.log <+: (s.finalize j).log
      unfold State.finalize
      split
      · split <;> exact List.prefix_rfl
      · exact List.prefix_rfl
    | go j => show s.log <+: (s.go C j).log; rw [(go_data s j).2]

/-! ### two takers -/

theorem upd_upd {α : Type} (f : Nat → α) (k : Nat) (a b : α) : upd (upd f k a) k b = upd f k b := by
  funext n
  by_cases h : n = k <;> simp [upd, h]

/-- A taker encrypts a block, up to its id. -/
theorem pass {s : State κ} {j : Nat} {f : Bool} {b X : Bytes} {rest : List Bytes} {sh : Shmac} {k : κ} (h1 : s.taker j = .checked f) (h2 : s.busy = false)
    (h3 : s.stream.buffer = b :: rest) (h4 : C.turn s.stream.session.shmac s.stream.session.keys b = .ok (X, sh, k)) :
    s.run C [.go j, .go j, .go j] = { s with stream := { s.stream with buffer := rest, session := ⟨sh, k⟩ }, taker := upd s.taker j (.turned f X) } := by
  have e1 : s.go C j = { s with taker := upd s.taker j (.started f), busy := true } := by
    simp [State.go, h1, h2, State.setTaker]
  have e2 : (s.go C j).go C j = { s with taker := upd s.taker j (.popped f b), busy := true, stream := { s.stream with buffer := rest } } := by
    rw [e1]
    simp [State.go, h3, State.setTaker, State.setBuffer, upd_self, upd_upd]
  have e3 : ((s.go C j).go C j).go C j = { s with stream := { s.stream with buffer := rest, session := ⟨sh, k⟩ }, taker := upd s.taker j (.turned f X) } := by
    rw [e2]
    simp [State.go, State.setTaker, upd_self, upd_upd, h4, ← h2]
  exact e3

theorem name_step {s : State κ} {j : Nat} {f : Bool} {X id : Bytes} (h1 : s.taker j = .turned f X)
    (h2 : s.stream.session.shmac.nextBlockId C.toEnv X 0 [] = .ok id) :
    s.go C j = { s with taker := upd s.taker j (if f then .flushing else .ready none), out := s.out ++ [(j, id, X)] } := by
  simp [State.go, h1, h2, State.setTaker]

/-- The taker 0 takes a block, the taker 1 another one, and then each of them makes the id of its block. -/
theorem misname {S : Sound C} (hs : Streamable C.cfg) {s : State κ} {r0 r1 r2 : Ratchet κ} {b1 b2 X1 X2 : Bytes} {rest : List Bytes} (h0 : s.taker 0 = .flushing)
    (h1 : s.taker 1 = .ready none) (hb : s.busy = false) (hbuf : s.stream.buffer = b1 :: b2 :: rest)
    (hlen : C.cfg.minStreamQueue < (b2 :: rest).length) (hss : s.stream.session = r0.session false .encryption)
    (p1 : StepRel S r0 b1 X1 r1) (p2 : StepRel S r1 b2 X2 r2) (hout : s.out = []) :
    (s.run C ([.go 0] ++ ([.go 0, .go 0, .go 0] ++ ([.next 1] ++ ([.go 1, .go 1, .go 1] ++ ([.go 1] ++ [.go 0])))))).out
      = [(1, blockIdOf C.toEnv r1.cur X2, X2), (0, blockIdOf C.toEnv r1.cur X1, X1)] := by
  have idOf : ∀ X : Bytes, X.length = C.cfg.blocksize → (r2.session false .encryption).shmac.nextBlockId C.toEnv X 0 [] = .ok (blockIdOf C.toEnv r1.cur X) := by
    intro X hX
    refine nextBlockId_eq rfl hs ?_ hX (.inl rfl)
    have := p2.prev
    simp [Shmac.blockIdMac, Ratchet.session, Shmac.live, attr, this]
  rw [run_append]
  have e1 : s.run C [.go 0] = s.setTaker 0 (.checked true) := by
    show s.go C 0 = _
    simp [State.go, h0, hbuf]
  rw [e1, run_append]
  rw [pass (s := s.setTaker 0 (.checked true)) (b := b1) (rest := b2 :: rest) (X := X1) (sh := (r1.session false .encryption).shmac) (k := r1.keys) (f := true) (upd_self ..) hb hbuf (by
    show C.turn s.stream.session.shmac s.stream.session.keys b1 = _
    rw [hss]; exact p1.enc false)]
  rw [run_append]
  generalize hs2 : ({ s.setTaker 0 (.checked true) with
    stream := { (s.setTaker 0 (.checked true)).stream with buffer := b2 :: rest, session := ⟨(r1.session false .encryption).shmac, r1.keys⟩ }
    taker := upd (s.setTaker 0 (.checked true)).taker 0 (.turned true X1) } : State κ) = s2
  have q0 : s2.taker 0 = .turned true X1 := by rw [← hs2]; simp [upd]
  have q1 : s2.taker 1 = .ready none := by rw [← hs2]; simp [upd, State.setTaker, h1]
  have q2 : s2.busy = false := by rw [← hs2]; exact hb
  have q3 : s2.stream.buffer = b2 :: rest := by rw [← hs2]
  have q4 : s2.stream.session = r1.session false .encryption := by rw [← hs2]; rfl
  have q5 : s2.out = [] := by rw [← hs2]; exact hout
  clear hs2
  have e2 : s2.run C [.next 1] = s2.setTaker 1 (.checked false) := by
    show s2.next C 1 = _
    simp only [State.next, q1, q3]
    rw [if_pos hlen]
  rw [e2, run_append]
  rw [pass (s := s2.setTaker 1 (.checked false)) (b := b2) (rest := rest) (X := X2) (sh := (r2.session false .encryption).shmac) (k := r2.keys) (f := false) (upd_self ..) q2 q3 (by
    show C.turn s2.stream.session.shmac s2.stream.session.keys b2 = _
    rw [q4]; exact p2.enc false)]
  generalize hs3 : ({ s2.setTaker 1 (.checked false) with
    stream := { (s2.setTaker 1 (.checked false)).stream with buffer := rest, session := ⟨(r2.session false .encryption).shmac, r2.keys⟩ }
    taker := upd (s2.setTaker 1 (.checked false)).taker 1 (.turned false X2) } : State κ) = s3
  have t0 : s3.taker 0 = .turned true X1 := by rw [← hs3]; simp [upd, State.setTaker, q0]
  have t1 : s3.taker 1 = .turned false X2 := by rw [← hs3]; simp [upd]
  have t4 : s3.stream.session = r2.session false .encryption := by rw [← hs3]; rfl
  have t5 : s3.out = [] := by rw [← hs3]; exact q5
  clear hs3
  show ((s3.go C 1).go C 0).out = _
  rw [name_step t1 (by rw [t4]; exact idOf X2 p2.cipher)]
  rw [name_step (f := true) (X := X1) (id := blockIdOf C.toEnv r1.cur X1) (by simp [upd, t0]) (by show s3.stream.session.shmac.nextBlockId _ _ _ _ = _; rw [t4]; exact idOf X1 p1.cipher)]
  simp [t5]

theorem path_cons {S : Sound C} {r r' : Ratchet κ} {P : Bytes} {Ps : List Bytes} {G : List Packet} (h : Path S r (P :: Ps) G r') :
    ∃ X r1 G', StepRel S r P X r1 ∧ Path S r1 Ps G' r' ∧ G = (blockIdOf C.toEnv r.cur X, X) :: G' := by
  cases h with
  | cons h1 h2 => exact ⟨_, _, _, h1, h2, rfl⟩

theorem run_log (ms : List Move) : ∀ (s : State κ), (∀ m ∈ ms, ∀ i, m ≠ .feed i) → (s.run C ms).log = s.log := by
  induction ms with
  | nil => intro s _; rfl
  | cons m ms ih =>
    intro s h
    rw [run_cons, ih _ fun m hm => h m (by simp [hm])]
    cases m with
    | feed i => exact absurd rfl (h (.feed i) (by simp) i)
    | next j => show (s.next C j).log = s.log; unfold State.next; split <;> rfl
    | finalize j =>
      show (s.finalize j).log = s.log
      unfold State.finalize
      split
      · split <;> rfl
      · rfl
    | go j => exact (go_data s j).2

/-- The steps from `appending` to `flushing`. -/
theorem append_all (j : Nat) : ∀ (bs : List Bytes) (s : State κ), s.taker j = .appending bs →
    ∃ n, s.run C (List.replicate n (.go j)) = { s with stream := { s.stream with buffer := s.stream.buffer ++ bs }, taker := upd s.taker j .flushing } := by
  intro bs
  induction bs with
  | nil =>
    intro s h
    refine ⟨1, ?_⟩
    show s.go C j = _
    simp [State.go, h, State.setTaker]
  | cons b bs ih =>
    intro s h
    have e : s.go C j = (s.setBuffer (s.stream.buffer ++ [b])).setTaker j (.appending bs) := by simp [State.go, h]
    obtain ⟨n, hn⟩ := ih (s.go C j) (by rw [e]; exact upd_self ..)
    refine ⟨n + 1, ?_⟩
    rw [List.replicate_succ, run_cons]
    show (s.go C j).run C _ = _
    rw [hn, e]
    simp [State.setTaker, State.setBuffer, upd_upd]

end

/-- C79, two takers: the stream of any message that is long enough can give out a packet whose block is that of the first packet, and whose id is not the one the
receiver expects at that place, but the one that it would expect for that block at the next place. Nobody gets the first packet. -/
def TwoTakersMisname {κ : Type} (C : Cipher κ) : Prop :=
  ∀ a : StreamArgs, a.OK C.cfg → ∀ bundle st, CipherStream.new C a.key a.draws a.salt a.aad = .ok (bundle, st) →
  ∀ message : Bytes, (C.cfg.minStreamQueue + 2) * C.cfg.blocksize ≤ message.length →
  ∀ saltDraw ttl, saltDraw.length = C.cfg.saltBytes →
  ∃ dst, DecipherStream.new C a.key saltDraw (some bundle.salt) bundle.aad bundle.iv ttl = .ok dst ∧
  ∃ first second rest id moves, packetsOf C st message = first :: second :: rest ∧
    ((begin st fun _ => message).run C moves).message = message ∧
    ((begin st fun _ => message).run C moves).out = [(1, second), (0, (id, first.2))] ∧
    dst.expectedId C first.2 = .ok first.1 ∧ (dst.after C [first]).expectedId C first.2 = .ok id

/-- C79, two takers: a call of one of them can raise `ValueError` ("generator already executing"), although nothing is wrong with the data or the stream. -/
def TwoTakersRaise {κ : Type} (C : Cipher κ) : Prop :=
  ∀ a : StreamArgs, a.OK C.cfg → ∀ bundle st, CipherStream.new C a.key a.draws a.salt a.aad = .ok (bundle, st) →
  ∀ message : Bytes, (C.cfg.minStreamQueue + 2) * C.cfg.blocksize ≤ message.length →
  ∃ moves, ((begin st fun _ => message).run C moves).taker 1 = .ready (some .value)

section
variable {κ : Type} {C : Cipher κ}

/-- The taker 0 has called `finalize`, and nobody has taken a packet. -/
theorem flushed (S : Sound C) (u : Usable C) (hs : Streamable C.cfg) {a : StreamArgs} (ha : a.OK C.cfg) {r0 : Ratchet κ} (hr : r0.WF C)
    (hlen : (beDigits C.cfg.timestampBytes a.draws.reading.toNat ++ a.draws.sivKey).length = C.cfg.innerHeaderBytes)
    {message : Bytes} (hmsg : (C.cfg.minStreamQueue + 2) * C.cfg.blocksize ≤ message.length) :
    ∃ moves c1 c2 cs X1 X2 r1 r2 rest, let st0 : CipherStream κ := ⟨r0.session false .encryption,
          [beDigits C.cfg.timestampBytes a.draws.reading.toNat ++ a.draws.sivKey], 0, false, a.draws.extra⟩
      let s := (begin st0 fun _ => message).run C moves
      s.taker = upd (fun _ => .ready none) 0 .flushing ∧ s.out = [] ∧ s.busy = false ∧ s.log = [0] ∧ s.stream.session = r0.session false .encryption ∧
      s.stream.buffer = c1 :: c2 :: cs ∧ C.cfg.minStreamQueue < (c2 :: cs).length ∧ StepRel S r0 c1 X1 r1 ∧ StepRel S r1 c2 X2 r2 ∧
      packetsOf C st0 message = (blockIdOf C.toEnv r0.cur X1, X1) :: (blockIdOf C.toEnv r1.cur X2, X2) :: rest := by
  have hF := u.accepted.frame_pos
  obtain ⟨endp, G, r, st', e1, e2, e3, e4⟩ := reference_run (S := S) u hs ha hr message hlen
  have hinit := inv_begin S r0 (beDigits C.cfg.timestampBytes a.draws.reading.toNat ++ a.draws.sivKey) a.draws.extra (fun _ => message)
  have keep := fun (ms : List Move) {s : State κ} (h1 : OneTaker ms) (h2 : Inv S r0 _ a.draws.extra s) => Inv.run (S := S) hs hF hr hlen ha.draws.extra ms h1 h2
  have feeds : ∀ n i, OneTaker (List.replicate n (.feed i)) := fun n i m hm => .inl ⟨i, (List.mem_replicate.1 hm).2⟩
  have gos : ∀ n, OneTaker (List.replicate n (.go 0)) := fun n m hm => .inr (.inr (.inr (List.mem_replicate.1 hm).2))
  generalize hst0 : (⟨r0.session false .encryption, [beDigits C.cfg.timestampBytes a.draws.reading.toNat ++ a.draws.sivKey], 0, false, a.draws.extra⟩ : CipherStream κ) = st0 at *
  generalize hst1 : (begin st0 fun _ => message).run C (List.replicate 2 (.feed 0)) = s1
  have a1 : s1.feeder 0 = .admitted ∧ s1.log = [0] ∧ s1.taker = (fun _ => .ready none) ∧ s1.out = [] ∧ s1.stream.closed = false ∧ s1.busy = false := by
    rw [← hst1, ← hst0]
    simp [List.replicate, State.run, State.move, State.feed, begin, State.setFeeder, upd_self]
  have i1 := keep _ (feeds 2 0) hinit
  rw [hst1] at i1
  obtain ⟨n, e, b1, b2, b3, b4, b5, b6, b7, b8⟩ := feed_ends S.block_pos 0 _ s1 (.inr ⟨by rw [a1.1]; rfl, Nat.lt_succ_self _⟩)
  have i2 := keep _ (feeds n 0) i1
  generalize hst2 : s1.run C (List.replicate n (.feed 0)) = s2 at *
  have f1 : s2.run C [.finalize 0] = { s2.setTaker 0 .waiting with stream := { s2.stream with closed := true } } := by
    show s2.finalize 0 = _
    simp [State.finalize, b4, a1.2.2.1, b7, a1.2.2.2.2.1]
  have i3 := keep [.finalize 0] (fun m hm => .inr (.inr (.inl (List.mem_singleton.1 hm)))) i2
  have f2 : (s2.run C [.finalize 0]).run C [.go 0] =
      { s2.setTaker 0 .padding with stream := { s2.stream with closed := true }, owner := some (.taker 0) } := by
    rw [f1]
    simp [State.run, State.move, State.go, State.setTaker, upd_self, b1, upd_upd]
  have i4 := keep [.go 0] (gos 1) i3
  generalize hst4 : (s2.run C [.finalize 0]).run C [.go 0] = s4 at *
  have t4 : s4.taker = upd (fun _ => .ready none) 0 .padding := by rw [f2]; simp [State.setTaker, b4, a1.2.2.1]
  have i5 := keep [.go 0] (gos 1) i4
  obtain ⟨bs, g1⟩ : ∃ bs, (s4.go C 0).taker = upd (fun _ => .ready none) 0 (.appending bs) ∧ (s4.go C 0).out = [] ∧ (s4.go C 0).busy = false ∧ (s4.go C 0).log = [0] := by
    obtain ⟨_, he, _, Ds, r', _, hstage⟩ := i4
    rw [t4, upd_self] at hstage
    obtain ⟨h1, h2, init, last, q1, _⟩ := hstage
    obtain ⟨p, hpad⟩ : ∃ p, C.cfg.endPadding s4.stream.extra s4.stream.byteCount = .ok p := ⟨_, Sizes.endPadding_eq (c := C.cfg) hF _ _⟩
    have hg : s4.go C 0 = (s4.setBuffer init).setTaker 0 (.appending (Text.batch C.cfg.blocksize (last ++ p))) := by
      simp [State.go, t4, upd_self, hpad, q1]
    refine ⟨Text.batch C.cfg.blocksize (last ++ p), ?_, ?_, ?_, ?_⟩
    · rw [hg]
      show upd s4.taker 0 _ = _
      rw [t4, upd_upd]
    · rw [hg]
      show s4.out = _
      rw [f2]
      exact b5.trans a1.2.2.2.1
    · rw [hg]
      show s4.busy = _
      rw [f2]
      exact b8.trans a1.2.2.2.2.2
    · rw [hg]
      show s4.log = _
      rw [f2]
      exact b3.trans a1.2.1
  have i5' : Inv S r0 _ a.draws.extra (s4.go C 0) := i5
  obtain ⟨m, hm⟩ := append_all (C := C) 0 bs (s4.go C 0) (by rw [g1.1, upd_self])
  have i6 := keep _ (gos m) i5'
  generalize hst6 : (s4.go C 0).run C (List.replicate m (.go 0)) = s6 at *
  have t6 : s6.taker = upd (fun _ => .ready none) 0 .flushing := by rw [hm, g1.1]; simp [upd_upd]
  have o6 : s6.out = [] ∧ s6.busy = false ∧ s6.log = [0] := by rw [hm]; exact ⟨g1.2.1, g1.2.2.1, g1.2.2.2⟩
  have d6 : s6.data = fun _ => message := by
    rw [← hst6, run_data, go_data s4 0 |>.1, ← hst4, run_data, run_data, ← hst2, run_data, ← hst1, run_data]; rfl
  have m6 : s6.sent = message := by simp [State.sent, o6, d6]
  obtain ⟨_, _, _, Ds, r', hp, hstage⟩ := i6
  rw [o6.1] at hp
  cases hp
  rw [t6, upd_self] at hstage
  obtain ⟨h1, _, _, endp', k1, k2⟩ := hstage
  rw [m6, e1] at k1
  simp only [Except.ok.injEq] at k1
  subst k1
  rw [m6, List.nil_append, List.append_nil] at k2
  rw [← k2] at e2
  have hcount : C.cfg.minStreamQueue + 2 ≤ s6.stream.buffer.length := by
    have hfull := e2.blocks.1
    have hfl : s6.stream.buffer.flatten.length = s6.stream.buffer.length * C.cfg.blocksize := by
      clear k2 hm m6 e2
      revert hfull
      generalize s6.stream.buffer = l
      intro hfull
      induction l with
      | nil => simp
      | cons b l ih =>
        rw [List.flatten_cons, List.length_append, ih (fun b hb => hfull b (by simp [hb])), hfull b (by simp), List.length_cons]
        rw [Nat.succ_mul]; omega
    rw [k2, Text.batch_flatten _ S.block_pos] at hfl
    simp only [List.length_append] at hfl
    rw [k2]
    have : (C.cfg.minStreamQueue + 2) * C.cfg.blocksize ≤ (Text.batch C.cfg.blocksize (beDigits C.cfg.timestampBytes a.draws.reading.toNat ++ a.draws.sivKey ++ message ++ endp)).length * C.cfg.blocksize := by omega
    exact Nat.le_of_mul_le_mul_right this S.block_pos
  rcases hbuf : s6.stream.buffer with _ | ⟨c1, _ | ⟨c2, cs⟩⟩
  · rw [hbuf] at hcount; simp at hcount
  · rw [hbuf] at hcount; simp at hcount
  rw [hbuf] at e2 hcount
  obtain ⟨X1, r1, G1, p1, e5, rfl⟩ := path_cons e2
  obtain ⟨X2, r2, G2, p2, _, rfl⟩ := path_cons e5
  refine ⟨List.replicate 2 (.feed 0) ++ (List.replicate n (.feed 0) ++ ([.finalize 0] ++ ([.go 0] ++ ([.go 0] ++ List.replicate m (.go 0))))),
    c1, c2, cs, X1, X2, r1, r2, G2, ?_⟩
  intro st1 s
  have h6 : s = s6 := by
    show State.run C (begin st1 fun _ => message) _ = s6
    rw [show st1 = st0 from rfl, run_append, hst1, run_append, hst2, run_append, run_append, hst4, run_append]
    exact hst6
  rw [h6]
  refine ⟨t6, o6.1, o6.2.1, o6.2.2, h1, hbuf, ?_, p1, p2, ?_⟩
  · simp only [List.length_cons] at hcount ⊢; omega
  · rw [packetsOf, show st1 = st0 from rfl, e3]

theorem two_takers_misname (S : Sound C) (u : Usable C) (hs : Streamable C.cfg) : TwoTakersMisname C := by
  intro a ha bundle st hst message hmsg saltDraw ttl hsalt
  obtain ⟨r0, hr, _, _, hlen, hnew, hdec, _⟩ := stream_start S u ha
  rw [hnew] at hst
  simp only [Except.ok.injEq, Prod.mk.injEq] at hst
  obtain ⟨rfl, rfl⟩ := hst
  refine ⟨_, hdec saltDraw ttl hsalt, ?_⟩
  obtain ⟨moves, c1, c2, cs, X1, X2, r1, r2, rest, t6, o1, o2, o3, h1, hbuf, hcount, p1, p2, hpk⟩ := flushed S u hs ha hr hlen hmsg
  refine ⟨_, _, rest, blockIdOf C.toEnv r1.cur X1, moves ++ ([.go 0] ++ ([.go 0, .go 0, .go 0] ++ ([.next 1] ++ ([.go 1, .go 1, .go 1] ++ ([.go 1] ++ [.go 0]))))), hpk, ?_, ?_, ?_, ?_⟩
  · rw [run_append, State.message, run_data, run_log _ _ (by simp), run_data, o3]
    simp [begin]
  · rw [run_append]
    refine misname (S := S) hs ?_ ?_ o2 hbuf hcount h1 p1 p2 o1
    · rw [t6, upd_self]
    · rw [t6]; simp [upd]
  · exact expectedId_eq (S := S) hs rfl p1.cipher
  · rw [after_path hs hr (decipher_inv_init S r0 ttl) (.nil r0) (.cons p1 (.nil r1))]
    exact expectedId_eq (S := S) hs rfl p1.cipher

theorem two_takers_raise (S : Sound C) (u : Usable C) (hs : Streamable C.cfg) : TwoTakersRaise C := by
  intro a ha bundle st hst message hmsg
  obtain ⟨r0, hr, _, _, hlen, hnew, _, _⟩ := stream_start S u ha
  rw [hnew] at hst
  simp only [Except.ok.injEq, Prod.mk.injEq] at hst
  obtain ⟨rfl, rfl⟩ := hst
  obtain ⟨moves, c1, c2, cs, X1, X2, r1, r2, rest, t6, o1, o2, o3, h1, hbuf, hcount, p1, p2, hpk⟩ := flushed S u hs ha hr hlen hmsg
  refine ⟨moves ++ [.go 0, .go 0, .next 1, .go 1], ?_⟩
  rw [run_append]
  generalize (begin _ fun _ => message).run C moves = s at *
  have e1 : s.go C 0 = s.setTaker 0 (.checked true) := by simp [State.go, t6, upd_self, hbuf]
  have e2 : (s.go C 0).go C 0 = { s with taker := upd s.taker 0 (.started true), busy := true } := by
    rw [e1]; simp [State.go, State.setTaker, upd_self, o2, upd_upd]
  have hlong : C.cfg.minStreamQueue < s.stream.buffer.length := by
    rw [hbuf]; simp only [List.length_cons] at hcount ⊢; omega
  have e3 : ((s.go C 0).go C 0).next C 1 = { s with taker := upd (upd s.taker 0 (.started true)) 1 (.checked false), busy := true } := by
    rw [e2]
    have : upd s.taker 0 (.started true) 1 = .ready none := by rw [t6]; simp [upd]
    simp [State.next, this, hlong, State.setTaker]
  show ((((s.go C 0).go C 0).next C 1).go C 1).taker 1 = _
  rw [e3]
  simp [State.go, State.raise, State.setTaker, upd]

end

/-! ### the theorems -/

/-- C79, several threads that give data and one that takes packets (`permute` ciphers). What is missing: with two takers it is false (`C79_permute_two_takers`). -/
theorem C79_permute_one_taker_partial {E : Env} (h : PermuteSetup E) (hs : Streamable E.cfg) : OneTakerSound (permuteCipher E) :=
  one_taker (permuteSound E h.permuteWF) h.usable hs

theorem C79_dual_one_taker_partial {E : DualEnv} (h : DualSetup E) (hs : Streamable E.cfg) : OneTakerSound (dualCipher E) :=
  one_taker (dualSound E h.wf h.sides.1 h.sides.2) h.usable hs

/-- C79, it gets to the end. -/
theorem C79_permute_ends {E : Env} (h : PermuteSetup E) (hs : Streamable E.cfg) : OneTakerEnds (permuteCipher E) :=
  one_taker_ends (permuteSound E h.permuteWF) h.usable hs

theorem C79_dual_ends {E : DualEnv} (h : DualSetup E) (hs : Streamable E.cfg) : OneTakerEnds (dualCipher E) :=
  one_taker_ends (dualSound E h.wf h.sides.1 h.sides.2) h.usable hs

/-- C79, the order of the data: what was let in stays where it is, so a call that returned before another one began comes before it. -/
theorem C79_order {κ : Type} (C : Cipher κ) (s : State κ) (moves : List Move) : s.log <+: (s.run C moves).log := log_prefix moves s

/-- C79, two takers: false. -/
theorem C79_permute_two_takers {E : Env} (h : PermuteSetup E) (hs : Streamable E.cfg) : TwoTakersMisname (permuteCipher E) :=
  two_takers_misname (permuteSound E h.permuteWF) h.usable hs

theorem C79_dual_two_takers {E : DualEnv} (h : DualSetup E) (hs : Streamable E.cfg) : TwoTakersMisname (dualCipher E) :=
  two_takers_misname (dualSound E h.wf h.sides.1 h.sides.2) h.usable hs

/-- C79, two takers: one of them may get an exception that has nothing to do with the data. -/
theorem C79_permute_two_takers_raise {E : Env} (h : PermuteSetup E) (hs : Streamable E.cfg) : TwoTakersRaise (permuteCipher E) :=
  two_takers_raise (permuteSound E h.permuteWF) h.usable hs

theorem C79_dual_two_takers_raise {E : DualEnv} (h : DualSetup E) (hs : Streamable E.cfg) : TwoTakersRaise (dualCipher E) :=
  two_takers_raise (dualSound E h.wf h.sides.1 h.sides.2) h.usable hs

example : OneTakerSound (permuteCipher sampleSlick) ∧ OneTakerEnds (permuteCipher sampleSlick) ∧ TwoTakersMisname (permuteCipher sampleSlick) ∧
    OneTakerSound (dualCipher sampleChunky) ∧ OneTakerEnds (dualCipher sampleChunky) ∧ TwoTakersRaise (dualCipher sampleChunky) ∧
    (⟨sampleKey, sampleDraws sampleSlick.cfg, none, [1]⟩ : StreamArgs).OK sampleSlick.cfg ∧
    OneTaker [.feed 0, .feed 1, .next 0, .feed 0, .go 0, .finalize 0] :=
  ⟨C79_permute_one_taker_partial sampleSlick_setup sampleSlick_streamable, C79_permute_ends sampleSlick_setup sampleSlick_streamable,
    C79_permute_two_takers sampleSlick_setup sampleSlick_streamable, C79_dual_one_taker_partial sampleChunky_setup sampleChunky_streamable,
    C79_dual_ends sampleChunky_setup sampleChunky_streamable, C79_dual_two_takers_raise sampleChunky_setup sampleChunky_streamable, sampleArgs_ok,
    by simp [OneTaker]⟩

end Aiootp.Cipher.Shared
