import Verif.Lemmas.UnstreamShared
import Verif.Spec.UnstreamShared
import Verif.Props.Stream

/-
Property C80: one decipher stream, many threads (or coroutines).
-/

namespace Aiootp.Cipher.SharedDec

open Perm Cipher

/-! ### one taker -/

/-- C80. As long as one thread takes all plaintext, and waits with that until a packet was taken, any number of threads may give packets at once, and everything is as if one
thread had given the packets one at a time, in the order in which they were read, and taken plaintext in between:
there are calls of one thread that give the same packets in the same order, of which the same are taken and the same are refused; the clock readings are those of the taker. The blocks given
out are the first of those that these calls give out, and all of them when nobody is in the middle of a call; then the stream is as those calls leave it.
The packets of one call of `buffer` are not interrupted by others. A call that returns has had all its data taken; one that refuses a packet names it, and what it had read before and
what it has not read; a call raises `ValueError` exactly for data of a wrong length, and otherwise only `StreamClosed`, if the stream was closed; then nothing of it was read. What the taker gets raised is what
one of those calls raises, or `StreamClosed` if the stream is closed. -/
def OneTakerSound {κ : Type} (C : Cipher κ) : Prop :=
  ∀ a : StreamArgs, a.OK C.cfg → ∀ saltDraw, saltDraw.length = C.cfg.saltBytes →
  ∀ ttl dst, DecipherStream.new C a.key saltDraw (some (usedSalt a.salt a.draws.salt)) a.aad a.draws.iv ttl = .ok dst →
  ∀ (data : Nat → Bytes) (moves : List Move), OneTaker moves → Patient C (begin dst data) moves →
  let s := (begin dst data).run C moves
  (∃ calls : List UnstreamCall,
    (∀ call ∈ calls, call.At fun now => .go 0 now ∈ moves) ∧
    heard calls (dst.execAll C calls).1 = s.heard ∧
    s.outs <+: ((dst.execAll C calls).1.map (·.outs)).flatten ∧
    (s.owner = none → (s.taker 0 = .yielded ∨ ∃ e, s.taker 0 = .ready e) →
      s.outs = ((dst.execAll C calls).1.map (·.outs)).flatten ∧ s.stream = (dst.execAll C calls).2) ∧
    ∀ e, s.taker 0 = .ready (some e) →
      (e = .streamClosed ∧ s.stream.closed = true) ∨ ∃ r ∈ (dst.execAll C calls).1, r.err = some e ∧ r.refusal = none) ∧
  s.data = data ∧ s.Grouped ∧
  (∀ i, s.feeder i = .outside → ∀ x ∈ s.log, x.call ≠ i) ∧
  (∀ i, s.feeder i = .done .ok → s.takenOf i = data i ∧ ∀ x ∈ s.log, x.call = i → x.taken = true) ∧
  (∀ i blockId block rest, s.feeder i = .done (.refused blockId block rest) →
    s.takenOf i ++ (blockId ++ block ++ rest) = data i ∧ blockId.length = C.cfg.blockIdBytes ∧ block.length = C.cfg.blocksize ∧
    ∃ before after, s.log = before ++ ⟨i, blockId, block, false⟩ :: after ∧ (∀ x ∈ after, x.call ≠ i) ∧ ∀ x ∈ before, x.call = i → x.taken = true) ∧
  (∀ i e, s.feeder i = .done (.raised e) → (∀ x ∈ s.log, x.call ≠ i) ∧ (e = .value ∨ (e = .streamClosed ∧ s.stream.closed = true))) ∧
  (∀ i r, s.feeder i = .done r → (r = .raised .value ↔ data i = [] ∨ (data i).length % C.cfg.packetsize ≠ 0))

section
variable {κ : Type} {C : Cipher κ}

theorem run_append (s : State κ) (m1 m2 : List Move) : s.run C (m1 ++ m2) = (s.run C m1).run C m2 := List.foldl_append

theorem run_cons (s : State κ) (m : Move) (ms : List Move) : s.run C (m :: ms) = (s.move C m).run C ms := rfl

theorem feed_data (s : State κ) (i : Nat) : (s.feed C i).data = s.data := by
  unfold State.feed
  split <;> try rfl
  · split
    · rfl
    · split <;> rfl
  · dsimp only
    split
    · rfl
    · split <;> rfl

theorem go_data (s : State κ) (j : Nat) (now : Int) : (s.go C j now).data = s.data ∧ (s.go C j now).log = s.log ∧ (s.go C j now).feeder = s.feeder := by
  unfold State.go
  split <;> try exact ⟨rfl, rfl, rfl⟩
  · split
    · exact ⟨rfl, rfl, rfl⟩
    · split <;> exact ⟨rfl, rfl, rfl⟩
  · split <;> exact ⟨rfl, rfl, rfl⟩
  · split <;> exact ⟨rfl, rfl, rfl⟩
  · split <;> exact ⟨rfl, rfl, rfl⟩
  · split <;> exact ⟨rfl, rfl, rfl⟩
  · split <;> exact ⟨rfl, rfl, rfl⟩

theorem other_data (s : State κ) (j : Nat) : ((s.next j).data = s.data ∧ (s.next j).log = s.log ∧ (s.next j).feeder = s.feeder) ∧
    ((s.resume j).data = s.data ∧ (s.resume j).log = s.log ∧ (s.resume j).feeder = s.feeder) ∧
    ((s.finalize j).data = s.data ∧ (s.finalize j).log = s.log ∧ (s.finalize j).feeder = s.feeder) := by
  refine ⟨?_, ?_, ?_⟩
  · unfold State.next; split <;> exact ⟨rfl, rfl, rfl⟩
  · unfold State.resume; split <;> exact ⟨rfl, rfl, rfl⟩
  · unfold State.finalize
    split
    · split <;> exact ⟨rfl, rfl, rfl⟩
    · split <;> exact ⟨rfl, rfl, rfl⟩
    · exact ⟨rfl, rfl, rfl⟩

theorem run_data (moves : List Move) : ∀ (s : State κ), (s.run C moves).data = s.data := by
  induction moves with
  | nil => intro s; rfl
  | cons m ms ih =>
    intro s
    rw [run_cons, ih]
    cases m with
    | feed i => exact feed_data s i
    | next j => exact (other_data s j).1.1
    | resume j => exact (other_data s j).2.1.1
    | finalize j => exact (other_data s j).2.2.1
    | go j now => exact (go_data s j now).1

theorem inv_begin {T : Int → Prop} {r0 : Ratchet κ} (hr : r0.WF C) (ttl : Option Int) (data : Nat → Bytes) :
    Inv C T ⟨r0.session true .decryption, ttl, false, [], C.cfg.innerHeaderBytes, false⟩
      (begin ⟨r0.session true .decryption, ttl, false, [], C.cfg.innerHeaderBytes, false⟩ data) := by
  refine ⟨⟨?_, ?_⟩, ?_, ?_, [], _, [], rfl, ?_, rfl, rfl, ?_, fun _ => ⟨r0, hr, rfl⟩, ?_, rfl, ?_, ?_, ?_, ?_, ?_⟩
  · intro i; simp [begin, Feeder.within]
  · simp [begin, Taker.holds]
  · intro i x hx; cases hx
  · intro before x between y after h
    simp [begin] at h
  · intro c hc; cases hc
  · intro e he; cases he
  · intro i hi; cases hi
  · exact .inr ⟨rfl, fun b hb => by cases hb⟩
  · rintro _ ⟨x, hx, _⟩; cases hx
  · intro _ h; cases h
  · intro h; exact absurd rfl h
  · exact ⟨rfl, ⟨rfl, .inr ⟨fun _ => rfl, rfl⟩⟩, rfl, rfl, rfl⟩

/-- The blocks given out by a call that is not over are the first ones it gives out. -/
theorem Sim.ends {T : Int → Prop} {dst : DecipherStream κ} {s : State κ} {calls : List UnstreamCall} {q : DecipherStream κ} {f : List Bytes}
    (h : Sim C T dst s calls q f) (hf : f ≠ []) : ∃ now, T now ∧ f <+: (q.exec C (.finalize now)).1.outs := by
  have key : ∀ fin, Phase C s.stream (Sess C s q) q fin → Tested C T q → Trimmed C s.stream q f fin → ∃ now, T now ∧ f <+: (q.exec C (.finalize now)).1.outs := by
    intro fin h1 ⟨t0, hT, hp⟩ h3
    cases fin
    · exact absurd (h3.2.2.1 rfl) hf
    · obtain ⟨c1, c2, t, shmac, c3, c4⟩ := h1
      refine ⟨t0, hT, ?_⟩
      have hp' : Passes C (closing q shmac) t0 := hp
      have F0 := pull_pass hp' (n := q.queue.length + 1) (by omega) h3.2.1
      simp only [DecipherStream.exec]
      rw [finalize_shmac t0 c2 c3, F0]
      have hpre := take_prefix C.cfg.minStreamQueue f s.stream.queue (q.queue.length + 1) (by
        have := trim_length q.queue q.bytesToTrim
        rw [h3.2.1] at this
        simp only [List.length_append] at this
        omega) h3.2.2.2
      simp only []
      split
      · exact hpre
      · exact hpre.trans (List.prefix_append _ _)
  have hr := h.rel
  rcases ht : s.taker 0 with e | _ | fin | fin | fin | ⟨fin, e⟩ | fin | fin | fin | fin | _ | _ | _ <;> rw [ht] at hr
  · exact absurd hr.1 hf
  · exact absurd hr.1 hf
  · exact absurd hr.1 hf
  · exact absurd hr.1 hf
  · exact absurd hr.1 hf
  · exact absurd hr.1 hf
  · exact absurd hr.1 hf
  · exact absurd hr.1 hf
  · exact key fin hr.1 hr.2.2.1 hr.2.2.2
  · exact key fin hr.1 hr.2.2.1 hr.2.2.2.1
  · exact absurd hr.1 hf
  · exact absurd hr.1 hf
  · exact key true hr.1 hr.2.2.1 hr.2.2.2.1

theorem one_taker (S : Sound C) (u : Usable C) (hs : Streamable C.cfg) (hh : C.cfg.innerHeaderBytes ≤ C.cfg.blocksize) : OneTakerSound C := by
  intro a ha saltDraw hsd ttl dst hdst data moves hm hpat
  obtain ⟨r0, hr, _, _, _, _, hnew, _⟩ := stream_start S u ha
  rw [hnew saltDraw ttl hsd] at hdst
  simp only [Except.ok.injEq] at hdst
  subst hdst
  intro s
  have hinv : Inv C (fun now => .go 0 now ∈ moves) _ s := Inv.run S hs hh moves _ (inv_begin hr ttl data) hm hpat (fun _ h => h)
  have hdata : s.data = data := run_data moves _
  generalize (⟨r0.session true .decryption, ttl, false, [], C.cfg.innerHeaderBytes, false⟩ : DecipherStream κ) = dst at hinv
  have hcall : ∀ i, CallOK C s.log data s.stream.closed i (s.feeder i) := by intro i; rw [← hdata]; exact hinv.call i
  refine ⟨?_, hdata, hinv.grouped, ?_, ?_, ?_, ?_, ?_⟩
  · obtain ⟨calls, q, f, sim⟩ := hinv.sim
    by_cases hf : f = []
    · subst hf
      have ho := sim.outs
      rw [List.append_nil] at ho
      refine ⟨calls, sim.time, sim.heard, by rw [ho], ?_, sim.errs⟩
      intro hown hrest
      refine ⟨ho, ?_⟩
      have hsess : Sess C s q → s.stream.session = q.session := by
        rintro (⟨i, b1, b2, b3, b4, k, -⟩ | k)
        · have := (hinv.users.feeder i).2 (by rw [k]; rfl)
          rw [hown] at this; cases this
        · exact k.2
      rw [sim.exec]
      have hrel := sim.rel
      have fields : Phase C s.stream (Sess C s q) q false → s.stream.isStreaming = q.isStreaming → Alike s.stream q → s.stream = q := by
        intro k1 k2 k3
        have k4 := hsess k1.2
        have k5 := sim.ttl
        have k6 := k1.1
        obtain ⟨k7, k8⟩ := k3
        generalize s.stream = st at *
        cases st; cases q
        simp only at *
        simp [*]
      rcases hrest with ht | ⟨e, ht⟩ <;> rw [ht] at hrel
      · exact fields hrel.2.1 hrel.2.2.1 hrel.2.2.2.1
      · exact fields hrel.2.1 hrel.2.2.1 hrel.2.2.2
    · obtain ⟨now, hT, hpre⟩ := sim.ends hf
      have X := execAll_snoc (C := C) dst calls (.finalize now)
      refine ⟨calls ++ [.finalize now], ?_, ?_, ?_, ?_, ?_⟩
      · intro c hc
        rcases List.mem_append.1 hc with hc | hc
        · exact sim.time c hc
        · rw [List.mem_singleton.1 hc]; exact hT
      · rw [X, heard_append _ _ _ _ (length_execAll calls dst).symm, sim.heard]
        simp [heard]
      · rw [X, sim.outs, sim.exec]
        simpa using hpre
      · intro _ hrest
        have hrel := sim.rel
        rcases hrest with ht | ⟨e, ht⟩ <;> rw [ht] at hrel <;> exact absurd hrel.1 hf
      · intro e he
        have hrel := sim.rel
        rw [he] at hrel
        exact absurd hrel.1 hf
  · intro i hi
    have := hcall i
    rw [hi] at this
    exact this
  · intro i hi
    have := hcall i
    rw [hi] at this
    exact ⟨this.1, this.2.2⟩
  · intro i b1 b2 b3 hi
    have := hcall i
    rw [hi] at this
    exact ⟨this.1, this.2.2.1, this.2.2.2.1, this.2.2.2.2⟩
  · intro i e hi
    have := hcall i
    rw [hi] at this
    refine ⟨this.1, ?_⟩
    rcases this.2 with k | k
    · exact .inl k.1
    · exact .inr ⟨k.1, k.2.2⟩
  · intro i r hi
    have := hcall i
    rw [hi] at this
    cases r with
    | ok => exact ⟨(fun k => by cases k), fun k => absurd k this.2.1⟩
    | refused b1 b2 b3 => exact ⟨(fun k => by cases k), fun k => absurd k this.2.1⟩
    | raised e =>
      rcases this.2 with ⟨rfl, k⟩ | ⟨rfl, k, -⟩
      · exact ⟨fun _ => Classical.not_not.1 k, fun _ => rfl⟩
      · exact ⟨(fun k' => by cases k'), fun k' => absurd k' k⟩

/-! ### order -/

theorem step_log (s : State κ) (m : Move) : ∃ more, (s.move C m).log = s.log ++ more ∧ (∀ i r, s.feeder i = .done r → (∀ x ∈ more, x.call ≠ i) ∧ (s.move C m).feeder i = .done r) := by
  have quiet : ∀ s' : State κ, s'.log = s.log → s'.feeder = s.feeder →
      ∃ more, s'.log = s.log ++ more ∧ (∀ i r, s.feeder i = .done r → (∀ x ∈ more, x.call ≠ i) ∧ s'.feeder i = .done r) := by
    intro s' h1 h2
    exact ⟨[], by simp [h1], fun i r hi => ⟨by simp, by rw [h2]; exact hi⟩⟩
  cases m with
  | next j => exact quiet _ (other_data s j).1.2.1 (other_data s j).1.2.2
  | resume j => exact quiet _ (other_data s j).2.1.2.1 (other_data s j).2.1.2.2
  | finalize j => exact quiet _ (other_data s j).2.2.2.1 (other_data s j).2.2.2.2
  | go j now => exact quiet _ (go_data s j now).2.1 (go_data s j now).2.2
  | feed k =>
    have set : ∀ (s' : State κ) (g : Feeder) (more : List Entry), (∀ x ∈ more, x.call = k) → (∀ r, s.feeder k ≠ .done r) → s'.log = s.log ++ more → s'.feeder = upd s.feeder k g →
        ∃ more, s'.log = s.log ++ more ∧ (∀ i r, s.feeder i = .done r → (∀ x ∈ more, x.call ≠ i) ∧ s'.feeder i = .done r) := by
      intro s' g more h1 h2 h3 h4
      refine ⟨more, h3, ?_⟩
      intro i r hi
      have hik : i ≠ k := by rintro rfl; exact h2 r hi
      exact ⟨fun x hx e => hik (e.symm.trans (h1 x hx)), by rw [h4, upd_other _ _ hik]; exact hi⟩
    show ∃ more, (s.feed C k).log = s.log ++ more ∧ (∀ i r, s.feeder i = .done r → (∀ x ∈ more, x.call ≠ i) ∧ (s.feed C k).feeder i = .done r)
    unfold State.feed
    rcases hf : s.feeder k with _ | _ | rest | ⟨id, b, out, rest⟩ | r | r <;> dsimp only
    · split
      · exact set _ _ [] (by simp) (by simp [hf]) (by simp [State.setFeeder]) rfl
      · split
        · exact set _ .inside [] (by simp) (by simp [hf]) (by simp [State.setFeeder]) rfl
        · exact quiet _ rfl rfl
    · exact set _ _ [] (by simp) (by simp [hf]) (by simp [State.setFeeder]) rfl
    · split
      · exact set _ (.leaving .ok) [] (by simp) (by simp [hf]) (by simp [State.setFeeder]) rfl
      · split
        · exact set _ _ [_] (by simp) (by simp [hf]) rfl rfl
        · exact set _ _ [] (by simp) (by simp [hf]) (by simp [State.setFeeder]) rfl
        · exact set _ _ [] (by simp) (by simp [hf]) (by simp [State.setFeeder]) rfl
    · exact set { (s.setQueue (s.stream.queue ++ [out])).setFeeder k (.reading rest) with log := s.log ++ [⟨k, id, b, true⟩] } (.reading rest)
        [⟨k, id, b, true⟩] (by simp) (by simp [hf]) rfl rfl
    · exact set _ _ [] (by simp) (by simp [hf]) (by simp [State.setFeeder]) rfl
    · exact quiet _ rfl rfl

theorem run_log (moves : List Move) : ∀ (s : State κ), ∃ more, (s.run C moves).log = s.log ++ more ∧
    (∀ i r, s.feeder i = .done r → (∀ x ∈ more, x.call ≠ i) ∧ (s.run C moves).feeder i = .done r) := by
  induction moves with
  | nil => intro s; exact ⟨[], by simp [State.run], fun i r h => ⟨by simp, h⟩⟩
  | cons m ms ih =>
    intro s
    obtain ⟨m1, h1, h2⟩ := step_log (C := C) s m
    obtain ⟨m2, h3, h4⟩ := ih (s.move C m)
    refine ⟨m1 ++ m2, by rw [run_cons, h3, h1, List.append_assoc], ?_⟩
    intro i r hi
    obtain ⟨k1, k2⟩ := h2 i r hi
    obtain ⟨k3, k4⟩ := h4 i r k2
    refine ⟨?_, k4⟩
    intro x hx
    rcases List.mem_append.1 hx with hx | hx
    · exact k1 x hx
    · exact k3 x hx

/-! ### nobody gets stuck -/

structure AllUsers (s : State κ) : Prop where
  feeder : ∀ i, s.owner = some (.feeder i) ↔ (s.feeder i).within = true
  taker : ∀ j, s.owner = some (.taker j) ↔ (s.taker j).holds = true

variable {s s' : State κ}

theorem AllUsers.feed (h : AllUsers s) (i : Nat) : AllUsers (s.feed C i) := by
  have keep : ∀ (s' : State κ) (g : Feeder), s'.feeder = upd s.feeder i g → s'.taker = s.taker → s'.owner = s.owner → g.within = (s.feeder i).within → AllUsers s' := by
    intro s' g h1 h2 h3 h4
    refine ⟨fun k => ?_, fun j => by rw [h2, h3]; exact h.taker j⟩
    rw [h3, h1, h.feeder k]
    by_cases hk : k = i
    · subst hk; rw [upd_self', h4]
    · rw [upd_other _ _ hk]
  unfold State.feed
  rcases hf : s.feeder i with _ | _ | rest | ⟨id, b, out, rest⟩ | r | r <;> dsimp only
  · split
    · exact keep _ _ rfl rfl rfl (by rw [hf]; rfl)
    · split
      · rename_i ho
        refine ⟨fun k => ?_, fun j => ?_⟩
        · have := h.feeder k
          rw [ho] at this
          by_cases hk : k = i
          · subst hk; simp [State.setFeeder, upd, Feeder.within]
          · simp only [reduceCtorEq, false_iff] at this
            simp [State.setFeeder, upd, hk, this, Ne.symm hk]
        · have := h.taker j
          rw [ho] at this
          simp only [reduceCtorEq, false_iff] at this
          simp [State.setFeeder, this]
      · exact h
  · refine keep _ _ rfl rfl rfl ?_
    rw [hf]; split <;> rfl
  · split
    · exact keep _ _ rfl rfl rfl (by rw [hf]; rfl)
    · split
      · exact keep _ (.leaving (.refused _ _ _)) rfl rfl rfl (by rw [hf]; rfl)
      · exact keep _ _ rfl rfl rfl (by rw [hf]; rfl)
      · refine keep _ (.accepted _ _ _ _) rfl rfl rfl (by rw [hf]; rfl)
  · exact keep _ (.reading rest) rfl rfl rfl (by rw [hf]; rfl)
  · have ho := (h.feeder i).2 (by rw [hf]; rfl)
    refine ⟨fun k => ?_, fun j => ?_⟩
    · have := h.feeder k
      rw [ho] at this
      by_cases hk : k = i
      · subst hk; simp [State.setFeeder, upd, Feeder.within]
      · have hne : ¬ (some (Agent.feeder i) = some (Agent.feeder k)) := by
          intro e; injection e with e; injection e with e; exact hk e.symm
        rw [iff_false_left hne] at this
        simp [State.setFeeder, upd, hk, this]
    · have := h.taker j
      rw [ho] at this
      simp only [Option.some.injEq, reduceCtorEq, false_iff] at this
      simp [State.setFeeder, this]
  · exact h

theorem AllUsers.keep (h : AllUsers s) {j : Nat} {t : Taker} (h1 : s'.taker = upd s.taker j t) (h2 : s'.feeder = s.feeder) (h3 : s'.owner = s.owner)
    (h4 : t.holds = (s.taker j).holds) : AllUsers s' := by
  refine ⟨fun k => by rw [h2, h3]; exact h.feeder k, fun k => ?_⟩
  rw [h3, h1, h.taker k]
  by_cases hk : k = j
  · subst hk; rw [upd_self', h4]
  · rw [upd_other _ _ hk]

theorem AllUsers.leave (h : AllUsers s) {j : Nat} {t : Taker} (h1 : s'.taker = upd s.taker j t) (h2 : s'.feeder = s.feeder) (h3 : s'.owner = none)
    (h4 : (s.taker j).holds = true) (h5 : t.holds = false) : AllUsers s' := by
  have ho := (h.taker j).2 h4
  refine ⟨fun k => ?_, fun k => ?_⟩
  · have := h.feeder k
    rw [ho] at this
    simp only [Option.some.injEq, reduceCtorEq, false_iff] at this
    rw [h2, h3]; simp [this]
  · have := h.taker k
    rw [ho] at this
    rw [h1, h3]
    by_cases hk : k = j
    · subst hk; rw [upd_self', h5]; simp
    · have hne : ¬ (some (Agent.taker j) = some (Agent.taker k)) := by
        intro e; injection e with e; injection e with e; exact hk e.symm
      rw [iff_false_left hne] at this
      rw [upd_other _ _ hk]; simp [this]

theorem AllUsers.raise (h : AllUsers s) {j : Nat} {fin : Bool} {e : Err} (ht : (s.taker j).holds = fin) (h1 : s'.taker = upd s.taker j (.ready (some e))) (h2 : s'.feeder = s.feeder)
    (h3 : s'.owner = if fin then none else s.owner) : AllUsers s' := by
  cases fin
  · exact h.keep h1 h2 h3 (by rw [ht]; rfl)
  · exact h.leave h1 h2 h3 ht rfl

theorem AllUsers.go (h : AllUsers s) (j : Nat) (now : Int) : AllUsers (s.go C j now) := by
  unfold State.go
  rcases ht : s.taker j with e | _ | fin | fin | fin | ⟨fin, e⟩ | fin | fin | fin | fin | _ | _ | _ <;> dsimp only
  · exact h
  · exact h
  · refine h.keep (j := j) rfl rfl rfl ?_
    rw [ht]; split <;> rfl
  · exact h.keep (j := j) rfl rfl rfl (by rw [ht]; rfl)
  · split
    · exact h.raise (j := j) (by rw [ht]; rfl) rfl rfl rfl
    · split
      · exact h.keep (j := j) rfl rfl rfl (by rw [ht]; rfl)
      · exact h.keep (j := j) rfl rfl rfl (by rw [ht]; rfl)
  · exact h.raise (j := j) (fin := fin) (e := e) (by rw [ht]; rfl) rfl rfl rfl
  · refine h.keep (j := j) rfl rfl rfl ?_
    rw [ht]; split <;> rfl
  · split
    · exact h.raise (j := j) (by rw [ht]; rfl) rfl rfl rfl
    · exact h.keep (j := j) (t := .trimming fin) rfl rfl rfl (by rw [ht]; rfl)
  · refine h.keep (j := j) rfl rfl rfl ?_
    rw [ht]
    split
    · rfl
    · cases fin <;> rfl
  · split
    · exact h.raise (j := j) (by rw [ht]; rfl) rfl rfl rfl
    · refine h.keep (j := j) (t := if fin then .taking true else .yielded) rfl rfl rfl ?_
      rw [ht]; cases fin <;> rfl
  · split
    · rename_i ho
      refine ⟨fun k => ?_, fun k => ?_⟩
      · have := h.feeder k
        rw [ho] at this
        simp only [reduceCtorEq, false_iff] at this
        simp [State.setTaker, this]
      · have := h.taker k
        rw [ho] at this
        by_cases hk : k = j
        · subst hk; simp [State.setTaker, upd, Taker.holds]
        · simp only [reduceCtorEq, false_iff] at this
          simp [State.setTaker, upd, hk, this, Ne.symm hk]
    · exact h
  · split
    · exact h.raise (j := j) (fin := true) (by rw [ht]; rfl) rfl rfl rfl
    · exact h.keep (j := j) (t := .entering true) rfl rfl rfl (by rw [ht]; rfl)
  · split
    · exact h.raise (j := j) (fin := true) (by rw [ht]; rfl) rfl rfl rfl
    · exact h.leave (j := j) (t := .ready none) rfl rfl rfl (by rw [ht]; rfl) rfl

theorem AllUsers.run (moves : List Move) : ∀ {s : State κ}, AllUsers s → AllUsers (s.run C moves) := by
  induction moves with
  | nil => intro s h; exact h
  | cons m ms ih =>
    intro s h
    refine ih ?_
    cases m with
    | feed i => exact h.feed i
    | go j now => exact h.go j now
    | next j =>
      show AllUsers (s.next j)
      unfold State.next
      rcases ht : s.taker j with e | _ | fin | fin | fin | ⟨fin, e⟩ | fin | fin | fin | fin | _ | _ | _ <;> dsimp only <;> first | exact h | exact h.keep (j := j) rfl rfl rfl (by rw [ht]; rfl)
    | resume j =>
      show AllUsers (s.resume j)
      unfold State.resume
      rcases ht : s.taker j with e | _ | fin | fin | fin | ⟨fin, e⟩ | fin | fin | fin | fin | _ | _ | _ <;> dsimp only <;> first | exact h | exact h.keep (j := j) rfl rfl rfl (by rw [ht]; rfl)
    | finalize j =>
      show AllUsers (s.finalize j)
      unfold State.finalize
      rcases ht : s.taker j with e | _ | fin | fin | fin | ⟨fin, e⟩ | fin | fin | fin | fin | _ | _ | _ <;> dsimp only <;>
        first
        | exact h
        | (split
           · exact h.keep (j := j) rfl rfl rfl (by rw [ht]; rfl)
           · exact h.keep (j := j) (t := .waiting) rfl rfl rfl (by rw [ht]; rfl))

/-- What is left to do for a call of `buffer`. -/
def feederWork (data : Bytes) : Feeder → Nat
  | .outside => 2 * data.length + 5
  | .inside => 2 * data.length + 4
  | .reading rest => 2 * rest.length + 2
  | .accepted _ _ _ rest => 2 * rest.length + 3
  | .leaving _ => 1
  | .done _ => 0

theorem feed_works (s : State κ) (i : Nat) (h : (s.feeder i).within = true ∨ (s.feeder i = .outside ∧ s.owner = none)) :
    feederWork (s.data i) ((s.feed C i).feeder i) < feederWork (s.data i) (s.feeder i) ∧
    (((s.feed C i).feeder i).within = true ∨ ∃ r, (s.feed C i).feeder i = .done r) ∧ (s.feed C i).data = s.data ∧ ∀ k, k ≠ i → (s.feed C i).feeder k = s.feeder k := by
  unfold State.feed
  rcases hf : s.feeder i with _ | _ | rest | ⟨id, b, out, rest⟩ | r | r <;> dsimp only
  · split
    · refine ⟨by simp [State.setFeeder, upd, feederWork], .inr ⟨_, by simp [State.setFeeder, upd]; rfl⟩, rfl, fun k hk => by simp [State.setFeeder, upd, hk]⟩
    · rcases h with h | ⟨-, h⟩
      · rw [hf] at h; cases h
      · rw [if_pos h]
        refine ⟨by simp [State.setFeeder, upd, feederWork], .inl (by simp [State.setFeeder, upd, Feeder.within]), rfl, fun k hk => by simp [State.setFeeder, upd, hk]⟩
  · refine ⟨?_, .inl ?_, rfl, fun k hk => by simp [State.setFeeder, upd, hk]⟩
    · simp only [State.setFeeder, upd_self']; split <;> simp [feederWork] <;> omega
    · simp only [State.setFeeder, upd_self']; split <;> rfl
  · split
    · refine ⟨by simp [State.setFeeder, upd, feederWork], .inl (by simp [State.setFeeder, upd, Feeder.within]), rfl, fun k hk => by simp [State.setFeeder, upd, hk]⟩
    · rename_i hid
      have h1 : rest ≠ [] := by rintro rfl; simp at hid
      have h2 : C.cfg.blockIdBytes ≠ 0 := by intro h0; simp [h0] at hid
      have h3 : 0 < rest.length := List.length_pos_iff.2 h1
      split
      · refine ⟨by simp [State.setFeeder, upd, feederWork], .inl (by simp [State.setFeeder, upd, Feeder.within]), rfl, fun k hk => by simp [State.setFeeder, upd, hk]⟩
      · refine ⟨by simp [State.setFeeder, upd, feederWork], .inl (by simp [State.setFeeder, upd, Feeder.within]), rfl, fun k hk => by simp [State.setFeeder, upd, hk]⟩
      · refine ⟨?_, .inl (by simp [State.setFeeder, upd, Feeder.within]), rfl, fun k hk => by simp [State.setFeeder, upd, hk]⟩
        simp only [State.setFeeder, upd_self', feederWork, List.length_drop]
        omega
  · refine ⟨by simp [State.setFeeder, upd, feederWork], .inl (by simp [State.setFeeder, upd, Feeder.within]), rfl, fun k hk => by simp [State.setFeeder, State.setQueue, upd, hk]⟩
  · refine ⟨by simp [State.setFeeder, upd, feederWork], .inr ⟨r, by simp [State.setFeeder, upd]⟩, rfl, fun k hk => by simp [State.setFeeder, upd, hk]⟩
  · rcases h with h | ⟨h, -⟩ <;> rw [hf] at h <;> cases h

/-- Only calls of `buffer` and threads that have begun go on. -/
def GoesOn (moves : List Move) : Prop := ∀ m ∈ moves, (∃ i, m = .feed i) ∨ ∃ j now, m = .go j now

theorem GoesOn.append {a b : List Move} (h1 : GoesOn a) (h2 : GoesOn b) : GoesOn (a ++ b) :=
  fun m hm => (List.mem_append.1 hm).elim (h1 m) (h2 m)

theorem feed_done (i : Nat) : ∀ (n : Nat) (s : State κ), feederWork (s.data i) (s.feeder i) < n → AllUsers s →
    ((s.feeder i).within = true ∨ (s.feeder i = .outside ∧ s.owner = none)) →
    ∃ more, GoesOn more ∧ (∃ r, (s.run C more).feeder i = .done r) ∧ (s.run C more).owner = none ∧ ∀ k, k ≠ i → (s.run C more).feeder k = s.feeder k := by
  intro n
  induction n with
  | zero => intro s h; omega
  | succ n ih =>
    intro s hn hu h
    obtain ⟨h1, h2, h3, h4⟩ := feed_works (C := C) s i h
    have hu' : AllUsers (s.feed C i) := hu.feed i
    have one : GoesOn [.feed i] := fun m hm => .inl ⟨i, List.mem_singleton.1 hm⟩
    rcases h2 with h2 | ⟨r, h2⟩
    · obtain ⟨more, g1, g2, g3, g4⟩ := ih (s.feed C i) (by rw [h3]; omega) hu' (.inl h2)
      exact ⟨.feed i :: more, one.append g1, g2, g3, fun k hk => (g4 k hk).trans (h4 k hk)⟩
    · refine ⟨[.feed i], one, ⟨r, h2⟩, ?_, h4⟩
      show (s.feed C i).owner = none
      -- only `done` calls and a step that leaves
      have hno : ∀ k, ((s.feed C i).feeder k).within = false := by
        intro k
        by_cases hk : k = i
        · subst hk; rw [h2]; rfl
        · cases hw : ((s.feed C i).feeder k).within
          · rfl
          · rw [h4 k hk] at hw
            rcases h with h | ⟨-, h⟩
            · have e1 := (hu.feeder i).2 h
              rw [(hu.feeder k).2 hw] at e1
              injection e1 with e1; injection e1 with e1
              exact absurd e1 hk
            · rw [(hu.feeder k).2 hw] at h; cases h
      rcases ho : (s.feed C i).owner with _ | (k | j)
      · rfl
      · have := (hu'.feeder k).1 ho
        rw [hno k] at this; cases this
      · have hj := (hu'.taker j).1 ho
        have htk : (s.feed C i).taker = s.taker := by
          unfold State.feed
          rcases hf : s.feeder i with _ | _ | rest | ⟨id, b, out, rest⟩ | r | r <;> dsimp only
          · split
            · rfl
            · split <;> rfl
          · rfl
          · split
            · rfl
            · split <;> rfl
          · rfl
          · rfl
        rw [htk] at hj
        have hso := (hu.taker j).2 hj
        rcases h with h | ⟨-, h⟩
        · rw [(hu.feeder i).2 h] at hso; cases hso
        · rw [h] at hso; cases hso

/-- A taker that is in the middle of nothing. -/
def Taker.rests : Taker → Prop
  | .ready _ | .yielded => True
  | _ => False

/-- What is left to do for a taker. -/
def takerWork (st : DecipherStream κ) (t : Taker) : Nat :=
  3 * (st.bytesToTrim + st.queue.length) +
    match t with
    | .ready _ | .yielded => 0
    | .flushing | .popping _ | .expired .. => 1
    | .taking _ => 2
    | .trimming _ => if st.bytesToTrim ≠ 0 ∧ st.queue ≠ [] then 5 else 3
    | .cutting _ => 4
    | .testing _ => 6
    | .marking _ => 7
    | .entering _ => 8
    | .ending => 9
    | .waiting => 10

theorem work_trimming (st : DecipherStream κ) (fin : Bool) : takerWork st (.trimming fin) ≤ 3 * (st.bytesToTrim + st.queue.length) + 5 := by
  simp only [takerWork]
  split <;> omega

theorem go_works (s : State κ) (j : Nat) (now : Int) (h : ¬ (s.taker j).rests) (hw : s.taker j = .waiting → s.owner = none) :
    takerWork (s.go C j now).stream ((s.go C j now).taker j) < takerWork s.stream (s.taker j) ∧ (s.go C j now).taker j ≠ .waiting ∧
    ∀ k, k ≠ j → (s.go C j now).taker k = s.taker k := by
  unfold State.go
  rcases ht : s.taker j with e | _ | fin | fin | fin | ⟨fin, e⟩ | fin | fin | fin | fin | _ | _ | _ <;> dsimp only
  · rw [ht] at h; exact absurd trivial h
  · rw [ht] at h; exact absurd trivial h
  · refine ⟨?_, ?_, fun k hk => by simp [State.setTaker, upd, hk]⟩
    · simp only [State.setTaker, upd_self']
      split
      · simp only [takerWork]; split <;> omega
      · simp [takerWork]
    · simp only [State.setTaker, upd_self']; split <;> simp
  · exact ⟨by simp [State.setTaker, upd, takerWork], by simp [State.setTaker, upd], fun k hk => by simp [State.setTaker, upd, hk]⟩
  · split
    · exact ⟨by simp [State.raise, State.setTaker, upd, takerWork], by simp [State.raise, State.setTaker, upd], fun k hk => by simp [State.raise, State.setTaker, upd, hk]⟩
    · split
      · exact ⟨by simp [State.setTaker, upd, takerWork], by simp [State.setTaker, upd], fun k hk => by simp [State.setTaker, upd, hk]⟩
      · refine ⟨?_, by simp [State.setTaker, upd], fun k hk => by simp [State.setTaker, upd, hk]⟩
        have := work_trimming s.stream fin
        simp only [State.setTaker, upd_self']
        simp only [takerWork] at this ⊢
        omega
  · exact ⟨by simp [State.raise, State.setTaker, upd, takerWork], by simp [State.raise, State.setTaker, upd], fun k hk => by simp [State.raise, State.setTaker, upd, hk]⟩
  · refine ⟨?_, ?_, fun k hk => by simp [State.setTaker, upd, hk]⟩
    · simp only [State.setTaker, upd_self']
      split
      · rename_i hc; simp [takerWork, hc]
      · rename_i hc; simp only [takerWork, if_neg hc]; omega
    · simp only [State.setTaker, upd_self']; split <;> simp
  · split
    · exact ⟨by simp [State.raise, State.setTaker, upd, takerWork], by simp [State.raise, State.setTaker, upd], fun k hk => by simp [State.raise, State.setTaker, upd, hk]⟩
    · rename_i first rest hq
      refine ⟨?_, by simp [State.setTaker, upd], fun k hk => by simp [State.setTaker, upd, hk]⟩
      simp only [State.setTaker, upd_self', takerWork, hq, List.length_cons, List.length_take]
      by_cases hb : first.drop s.stream.bytesToTrim = []
      · simp only [hb, if_true]
        split <;> omega
      · simp only [hb, if_false]
        have hlt : s.stream.bytesToTrim < first.length := by
          apply Classical.byContradiction
          intro hge
          exact hb (List.drop_eq_nil_iff.2 (by omega))
        simp only [List.length_cons]
        split <;> omega
  · refine ⟨?_, ?_, fun k hk => by simp [State.setTaker, upd, hk]⟩
    · simp only [State.setTaker, upd_self']
      split
      · simp [takerWork]
      · split <;> simp [takerWork]
    · simp only [State.setTaker, upd_self']
      split
      · simp
      · split <;> simp
  · split
    · exact ⟨by simp [State.raise, State.setTaker, upd, takerWork], by simp [State.raise, State.setTaker, upd], fun k hk => by simp [State.raise, State.setTaker, upd, hk]⟩
    · rename_i b rest hq
      refine ⟨?_, ?_, fun k hk => by simp [State.setTaker, State.setQueue, upd, hk]⟩
      · simp only [State.setTaker, State.setQueue, upd_self']
        cases fin <;> simp [takerWork, hq] <;> omega
      · simp only [State.setTaker, State.setQueue, upd_self']; cases fin <;> simp
  · rw [if_pos (hw ht)]
    exact ⟨by simp [State.setTaker, upd, takerWork], by simp [State.setTaker, upd], fun k hk => by simp [State.setTaker, upd, hk]⟩
  · split
    · exact ⟨by simp [State.raise, State.setTaker, upd, takerWork], by simp [State.raise, State.setTaker, upd], fun k hk => by simp [State.raise, State.setTaker, upd, hk]⟩
    · exact ⟨by simp [State.setTaker, upd, takerWork], by simp [State.setTaker, upd], fun k hk => by simp [State.setTaker, upd, hk]⟩
  · split
    · exact ⟨by simp [State.raise, State.setTaker, upd, takerWork], by simp [State.raise, State.setTaker, upd], fun k hk => by simp [State.raise, State.setTaker, upd, hk]⟩
    · exact ⟨by simp [State.setTaker, upd, takerWork], by simp [State.setTaker, upd], fun k hk => by simp [State.setTaker, upd, hk]⟩

theorem go_rests (j : Nat) : ∀ (n : Nat) (s : State κ), takerWork s.stream (s.taker j) < n → AllUsers s → (s.taker j = .waiting → s.owner = none) →
    ∃ more, GoesOn more ∧ ((s.run C more).taker j).rests ∧ (s.run C more).feeder = s.feeder ∧ ∀ k, k ≠ j → (s.run C more).taker k = s.taker k := by
  intro n
  induction n with
  | zero => intro s h; omega
  | succ n ih =>
    intro s hn hu hw
    by_cases hr : (s.taker j).rests
    · exact ⟨[], (fun m hm => by cases hm), hr, rfl, fun _ _ => rfl⟩
    · obtain ⟨h1, h2, h3⟩ := go_works (C := C) s j 0 hr hw
      obtain ⟨more, g1, g2, g3, g4⟩ := ih (s.go C j 0) (by omega) (hu.go j 0) (fun e => absurd e h2)
      have one : GoesOn [.go j 0] := fun m hm => .inr ⟨j, 0, List.mem_singleton.1 hm⟩
      exact ⟨.go j 0 :: more, one.append g1, g2, g3.trans (go_data s j 0).2.2, fun k hk => (g4 k hk).trans (h3 k hk)⟩

/-- Whoever has the guard can leave it. -/
theorem frees (s : State κ) (hu : AllUsers s) : ∃ more, GoesOn more ∧ (s.run C more).owner = none := by
  rcases ho : s.owner with _ | (i | j)
  · exact ⟨[], (fun m hm => by cases hm), ho⟩
  · obtain ⟨more, g1, g2, g3, g4⟩ := feed_done (C := C) i _ s (Nat.lt_succ_self _) hu (.inl ((hu.feeder i).1 ho))
    exact ⟨more, g1, g3⟩
  · have hh := (hu.taker j).1 ho
    obtain ⟨more, g1, g2, g3, g4⟩ := go_rests (C := C) j _ s (Nat.lt_succ_self _) hu (fun e => by rw [e] at hh; cases hh)
    refine ⟨more, g1, ?_⟩
    have hu' : AllUsers (s.run C more) := hu.run more
    rcases ho' : (s.run C more).owner with _ | (i | k)
    · rfl
    · have := (hu'.feeder i).1 ho'
      rw [g3] at this
      rw [(hu.feeder i).2 this] at ho; cases ho
    · have := (hu'.taker k).1 ho'
      by_cases hk : k = j
      · subst hk
        rcases ht : (s.run C more).taker k with e | _ | _ | _ | _ | _ | _ | _ | _ | _ | _ | _ | _ <;> rw [ht] at g2 this <;> simp [Taker.rests, Taker.holds] at g2 this
      · rw [g4 k hk] at this
        rw [(hu.taker k).2 this] at ho
        injection ho with ho; injection ho with ho
        exact absurd ho hk

theorem all_end (st : DecipherStream κ) (data : Nat → Bytes) (moves : List Move) (i j : Nat) :
    ∃ more, GoesOn more ∧ (∃ r, ((begin st data).run C (moves ++ more)).feeder i = .done r) ∧
      (((begin st data).run C (moves ++ more)).taker j = .yielded ∨ ∃ e, ((begin st data).run C (moves ++ more)).taker j = .ready e) := by
  have h0 : AllUsers (begin st data) := ⟨fun i => by simp [begin, Feeder.within], fun j => by simp [begin, Taker.holds]⟩
  have h1 : AllUsers ((begin st data).run C moves) := h0.run moves
  simp only [run_append]
  generalize (begin st data).run C moves = s at h1
  -- the call
  have calls : ∃ more, GoesOn more ∧ ∃ r, (s.run C more).feeder i = .done r := by
    obtain ⟨m1, g1, g2⟩ := frees (C := C) s h1
    have h2 : AllUsers (s.run C m1) := h1.run m1
    rcases hf : (s.run C m1).feeder i with _ | _ | rest | ⟨id, b, out, rest⟩ | r | r
    · obtain ⟨m2, k1, k2, _, _⟩ := feed_done (C := C) i _ (s.run C m1) (Nat.lt_succ_self _) h2 (.inr ⟨hf, g2⟩)
      exact ⟨m1 ++ m2, g1.append k1, by rw [run_append]; exact k2⟩
    · have := (h2.feeder i).2 (by rw [hf]; rfl)
      rw [g2] at this; cases this
    · have := (h2.feeder i).2 (by rw [hf]; rfl)
      rw [g2] at this; cases this
    · have := (h2.feeder i).2 (by rw [hf]; rfl)
      rw [g2] at this; cases this
    · have := (h2.feeder i).2 (by rw [hf]; rfl)
      rw [g2] at this; cases this
    · exact ⟨m1, g1, r, hf⟩
  obtain ⟨m1, g1, r, g2⟩ := calls
  obtain ⟨m2, g3, g4⟩ := frees (C := C) (s.run C m1) (h1.run m1)
  have h2 : AllUsers ((s.run C m1).run C m2) := (h1.run m1).run m2
  obtain ⟨m3, k1, k2, k3, _⟩ := go_rests (C := C) j _ ((s.run C m1).run C m2) (Nat.lt_succ_self _) h2 (fun _ => g4)
  refine ⟨m1 ++ (m2 ++ m3), g1.append (g3.append k1), ?_, ?_⟩
  · rw [run_append, run_append, k3]
    obtain ⟨_, _, kept⟩ := run_log (C := C) m2 (s.run C m1)
    exact ⟨r, (kept i r g2).2⟩
  · rw [run_append, run_append]
    rcases ht : (((s.run C m1).run C m2).run C m3).taker j with e | _ | _ | _ | _ | _ | _ | _ | _ | _ | _ | _ | _ <;> rw [ht] at k2 <;> simp [Taker.rests] at k2 ⊢

/-! ### a taker that does not wait, and two takers -/

theorem upd_upd' {α : Type} (f : Nat → α) (k : Nat) (a b : α) : upd (upd f k a) k b = upd f k b := by
  funext n
  by_cases h : n = k <;> simp [upd, h]

/-- A call reads packets of a stream that was not changed on its way. -/
theorem feed_path {S : Sound C} (hs : Streamable C.cfg) (i : Nat) {r r' : Ratchet κ} {Ps : List Bytes} {G : List Packet} (h : Path S r Ps G r') :
    ∀ s : State κ, s.feeder i = .reading (wire G) → s.stream.session = r.session true .decryption →
    ∃ log, s.run C (List.replicate (2 * G.length) (.feed i)) =
      { s with stream := { s.stream with session := r'.session true .decryption, queue := s.stream.queue ++ Ps }, feeder := upd s.feeder i (.reading []), log } ∧
      (G ≠ [] ∨ s.hasPacket → ∃ x ∈ log, x.taken = true) := by
  induction h with
  | nil r =>
    intro s h1 h2
    refine ⟨s.log, ?_, fun h => h.elim (fun k => absurd rfl k) id⟩
    simp only [List.length_nil, Nat.mul_zero, List.replicate_zero, List.append_nil, State.run, List.foldl_nil]
    have e : upd s.feeder i (.reading []) = s.feeder := by
      funext k
      by_cases hk : k = i
      · subst hk; rw [upd_self', h1]; rfl
      · rw [upd_other _ _ hk]
    rw [e, ← h2]
  | @cons r r1 r' P X Ps G h1 h2 ih =>
    intro s h3 h4
    have l1 : (blockIdOf C.toEnv r.cur X).length = C.cfg.blockIdBytes := length_blockIdOf ..
    have l2 := h1.cipher
    have hne : blockIdOf C.toEnv r.cur X ≠ [] := by
      intro h0
      rw [h0] at l1
      have := hs.id_pos
      simp at l1; omega
    have w : wire ((blockIdOf C.toEnv r.cur X, X) :: G) = blockIdOf C.toEnv r.cur X ++ (X ++ wire G) := by simp [wire]
    have acc := accept_step hs h1 true l1
    rw [if_pos rfl] at acc
    generalize blockIdOf C.toEnv r.cur X = id at *
    have e1 : (id ++ (X ++ wire G)).take C.cfg.blockIdBytes = id := by rw [← l1]; simp
    have e2 : ((id ++ (X ++ wire G)).drop C.cfg.blockIdBytes).take C.cfg.blocksize = X := by
      rw [← l1, List.drop_left, ← l2]; simp
    have e3 : ((id ++ (X ++ wire G)).drop C.cfg.blockIdBytes).drop C.cfg.blocksize = wire G := by
      rw [← l1, List.drop_left, ← l2]; simp
    have f1 : s.feed C i = { s.setFeeder i (.accepted id X P (wire G)) with stream := { s.stream with session := r1.session true .decryption } } := by
      simp only [State.feed, h3, w, e1, e2, e3, if_neg hne, h4, acc]
    have f2 : (s.feed C i).feed C i = { s with
        stream := { s.stream with session := r1.session true .decryption, queue := s.stream.queue ++ [P] }
        feeder := upd s.feeder i (.reading (wire G)), log := s.log ++ [⟨i, id, X, true⟩] } := by
      rw [f1]
      simp [State.feed, State.setFeeder, State.setQueue, upd_self', upd_upd']
    obtain ⟨log, f3, f4⟩ := ih ((s.feed C i).feed C i) (by rw [f2]; simp [upd_self']) (by rw [f2])
    refine ⟨log, ?_, fun _ => f4 (.inr (by rw [f2]; exact ⟨⟨i, id, X, true⟩, by simp, rfl⟩))⟩
    rw [List.length_cons, Nat.mul_add, Nat.mul_one, List.replicate_succ, List.replicate_succ, run_cons, run_cons]
    show ((s.feed C i).feed C i).run C _ = _
    rw [f3, f2]
    simp [upd_upd']

/-- A whole call. -/
theorem feed_whole {S : Sound C} (hs : Streamable C.cfg) {r r' : Ratchet κ} {Ps : List Bytes} {G : List Packet} (h : Path S r Ps G r') (hG : G ≠ [])
    (s : State κ) (h1 : s.feeder 0 = .outside) (h2 : s.owner = none) (h3 : s.stream.closed = false) (h4 : s.data 0 = wire G) (h5 : s.stream.session = r.session true .decryption) :
    ∃ log n, s.run C (List.replicate n (.feed 0)) =
      { s with stream := { s.stream with session := r'.session true .decryption, queue := s.stream.queue ++ Ps }, feeder := upd s.feeder 0 (.done .ok), log } ∧
      ∃ x ∈ log, x.taken = true := by
  have hlen : (wire G).length = C.cfg.packetsize * G.length := length_wire G h.sized
  have hpos : 0 < C.cfg.packetsize := by have := hs.id_pos; simp only [Sizes.packetsize]; omega
  have fits : ¬ (wire G = [] ∨ (wire G).length % C.cfg.packetsize ≠ 0) := by
    rintro (k | k)
    · rw [k] at hlen
      have := List.length_pos_iff.2 hG
      have := Nat.mul_pos hpos this
      simp only [List.length_nil] at hlen; omega
    · rw [hlen] at k; simp at k
  have f1 : s.feed C 0 = { s.setFeeder 0 .inside with owner := some (.feeder 0) } := by
    simp only [State.feed, h1, h4, if_neg fits, h2, if_true]
  have f2 : (s.feed C 0).feed C 0 = { s.setFeeder 0 (.reading (wire G)) with owner := some (.feeder 0) } := by
    rw [f1]
    simp [State.feed, State.setFeeder, upd_self', upd_upd', h3, h4]
  obtain ⟨log, f3, f4⟩ := feed_path hs 0 h ((s.feed C 0).feed C 0) (by rw [f2]; simp [State.setFeeder, upd_self']) (by rw [f2]; exact h5)
  refine ⟨log, 2 + (2 * G.length + 2), ?_, f4 (.inl hG)⟩
  rw [List.replicate_add, run_append, List.replicate_add, run_append]
  show ((((s.feed C 0).feed C 0).run C _).feed C 0).feed C 0 = _
  rw [f3, f2]
  simp [State.feed, State.setFeeder, upd_self', upd_upd', h2]

end

/-- C80 is false without the waiting: a thread that iterates before there is a packet gets an exception; if it tries again, and packets come in at the wrong moment, the first block it gets begins
with the timestamp and the random key that the stream keeps to itself, whatever the clock says and whatever the ttl is. -/
def Impatient {κ : Type} (C : Cipher κ) : Prop :=
  ∀ a : StreamArgs, a.OK C.cfg → ∀ bundle st, CipherStream.new C a.key a.draws a.salt a.aad = .ok (bundle, st) →
  ∀ saltDraw, saltDraw.length = C.cfg.saltBytes →
  ∀ ttl dst, DecipherStream.new C a.key saltDraw (some (usedSalt a.salt a.draws.salt)) a.aad a.draws.iv ttl = .ok dst →
  ∀ message now, (C.cfg.minStreamQueue + 1) * C.cfg.blocksize ≤ message.length →
  ∃ moves, OneTaker moves ∧ (∀ j t, .go j t ∈ moves → t = now) ∧
    ((begin dst fun _ => wire (st.execAll C [.buffer message, .finalize]).1).run C moves).outs
      = [(beDigits C.cfg.timestampBytes a.draws.reading.toNat ++ a.draws.sivKey ++ message).take C.cfg.blocksize]

/-- C80 is false of two takers: one sets the mark that the timestamp was tested before it tests, so that the other gets plaintext of a stream that no single thread can read, because it has
expired: whatever the clock says and whatever the ttl is. -/
def TwoTakers {κ : Type} (C : Cipher κ) : Prop :=
  ∀ a : StreamArgs, a.OK C.cfg → ∀ bundle st, CipherStream.new C a.key a.draws a.salt a.aad = .ok (bundle, st) →
  ∀ saltDraw, saltDraw.length = C.cfg.saltBytes →
  ∀ ttl dst, DecipherStream.new C a.key saltDraw (some (usedSalt a.salt a.draws.salt)) a.aad a.draws.iv ttl = .ok dst →
  ∀ message now, (C.cfg.minStreamQueue + 1) * C.cfg.blocksize ≤ message.length →
  ∃ moves, Patient C (begin dst fun _ => wire (st.execAll C [.buffer message, .finalize]).1) moves ∧ (∀ j t, .go j t ∈ moves → t = now) ∧
    ((begin dst fun _ => wire (st.execAll C [.buffer message, .finalize]).1).run C moves).out
      = [(1, message.take (C.cfg.blocksize - C.cfg.innerHeaderBytes))]

section
variable {κ : Type} {C : Cipher κ}

/-- A message that fills the queue. -/
theorem long_message (S : Sound C) (u : Usable C) (hs : Streamable C.cfg) {a : StreamArgs} (ha : a.OK C.cfg) {bundle : SaltAADIV} {st : CipherStream κ}
    (hst : CipherStream.new C a.key a.draws a.salt a.aad = .ok (bundle, st)) {saltDraw : Bytes} (hsd : saltDraw.length = C.cfg.saltBytes) {ttl : Option Int}
    {dst : DecipherStream κ} (hdst : DecipherStream.new C a.key saltDraw (some (usedSalt a.salt a.draws.salt)) a.aad a.draws.iv ttl = .ok dst) {message : Bytes}
    (hm : (C.cfg.minStreamQueue + 1) * C.cfg.blocksize ≤ message.length) :
    ∃ (r0 r : Ratchet κ) (G : List Packet) (Ps : List Bytes), (st.execAll C [.buffer message, .finalize]).1 = G ∧
      dst = ⟨r0.session true .decryption, ttl, false, [], C.cfg.innerHeaderBytes, false⟩ ∧
      Path S r0 ((beDigits C.cfg.timestampBytes a.draws.reading.toNat ++ a.draws.sivKey ++ message).take C.cfg.blocksize :: Ps) G r ∧ C.cfg.minStreamQueue ≤ Ps.length ∧ G ≠ [] ∧
      (beDigits C.cfg.timestampBytes a.draws.reading.toNat ++ a.draws.sivKey).length = C.cfg.innerHeaderBytes := by
  obtain ⟨r0, hr, _, _, hlen, hnew, hdec, _⟩ := stream_start S u ha
  rw [hnew] at hst
  simp only [Except.ok.injEq, Prod.mk.injEq] at hst
  obtain ⟨_, rfl⟩ := hst
  rw [hdec saltDraw ttl hsd] at hdst
  simp only [Except.ok.injEq] at hdst
  obtain ⟨endp, G, r, st', f1, f2, f3, f4⟩ := reference_run (S := S) u hs ha hr message hlen
  have hb := S.block_pos
  have hml : C.cfg.blocksize ≤ message.length := by
    have : C.cfg.blocksize ≤ (C.cfg.minStreamQueue + 1) * C.cfg.blocksize := Nat.le_mul_of_pos_left _ (Nat.succ_pos _)
    omega
  generalize hw : beDigits C.cfg.timestampBytes a.draws.reading.toNat ++ a.draws.sivKey ++ message ++ endp = whole at f2
  have hwl : message.length ≤ whole.length := by rw [← hw]; simp only [List.length_append]; omega
  have hbl := Path.blocks f2
  have hflat := Text.batch_flatten C.cfg.blocksize hb whole
  have hcount : whole.length = (Text.batch C.cfg.blocksize whole).length * C.cfg.blocksize := by
    have : ∀ (L : List Bytes), (∀ b ∈ L, b.length = C.cfg.blocksize) → L.flatten.length = L.length * C.cfg.blocksize := by
      intro L
      induction L with
      | nil => intro _; simp
      | cons b L ih =>
        intro h
        simp only [List.flatten_cons, List.length_append, List.length_cons, h b (by simp), ih (fun x hx => h x (List.mem_cons_of_mem _ hx))]
        rw [Nat.add_mul]; omega
    rw [← this _ hbl.1, hflat]
  have hne : whole ≠ [] := by
    rintro rfl
    simp only [List.length_nil] at hwl
    omega
  have hMIN : C.cfg.minStreamQueue + 1 ≤ (Text.batch C.cfg.blocksize whole).length := by
    apply Classical.byContradiction
    intro hlt
    have h1 : (Text.batch C.cfg.blocksize whole).length + 1 ≤ C.cfg.minStreamQueue + 1 := by omega
    have h2 := Nat.mul_le_mul_right C.cfg.blocksize h1
    rw [Nat.add_mul _ 1] at h2
    omega
  rw [Text.batch_cons hne hb] at f2 hMIN
  have htake : whole.take C.cfg.blocksize = (beDigits C.cfg.timestampBytes a.draws.reading.toNat ++ a.draws.sivKey ++ message).take C.cfg.blocksize := by
    rw [← hw, List.take_append_of_le_length]
    simp only [List.length_append]; omega
  rw [htake] at f2
  refine ⟨r0, r, G, _, by rw [f3], hdst.symm, f2, by simpa using hMIN, ?_, hlen⟩
  rintro rfl
  cases f2

theorem impatient (S : Sound C) (u : Usable C) (hs : Streamable C.cfg) : Impatient C := by
  intro a ha bundle st hst saltDraw hsd ttl dst hdst message now hm
  obtain ⟨r0, r, G, Ps, h1, h2, h3, h4, h5, -⟩ := long_message S u hs ha hst hsd hdst hm
  rw [h1, h2]
  have hh := u.accepted
  generalize (beDigits C.cfg.timestampBytes a.draws.reading.toNat ++ a.draws.sivKey ++ message).take C.cfg.blocksize = P at *
  generalize hs0 : begin (⟨r0.session true .decryption, ttl, false, [], C.cfg.innerHeaderBytes, false⟩ : DecipherStream κ) (fun _ => wire G) = s0
  have e1 : s0.run C [.next 0, .go 0 now, .go 0 now, .go 0 now, .next 0, .go 0 now, .go 0 now] =
      { s0 with stream := { s0.stream with isStreaming := true }, taker := upd s0.taker 0 (.taking false) } := by
    rw [← hs0]
    simp [begin, State.run, State.move, State.next, State.go, State.setTaker, State.raise, upd_self', upd_upd']
  generalize hs1 : s0.run C [.next 0, .go 0 now, .go 0 now, .go 0 now, .next 0, .go 0 now, .go 0 now] = s1 at e1
  obtain ⟨log, n, e2, e3⟩ := feed_whole hs h3 h5 s1 (by rw [e1, ← hs0]; rfl) (by rw [e1, ← hs0]; rfl) (by rw [e1, ← hs0]; rfl) (by rw [e1, ← hs0]; rfl)
    (by rw [e1, ← hs0]; rfl)
  refine ⟨[.next 0, .go 0 now, .go 0 now, .go 0 now, .next 0, .go 0 now, .go 0 now] ++ (List.replicate n (.feed 0) ++ [.go 0 now, .go 0 now]), ?_, ?_, ?_⟩
  · intro m hm
    simp only [List.mem_append, List.mem_replicate, List.mem_cons, List.not_mem_nil, or_false] at hm
    rcases hm with (rfl | rfl | rfl | rfl | rfl | rfl | rfl) | ⟨-, rfl⟩ | (rfl | rfl) <;> simp
  · intro j t hm
    simp only [List.mem_append, List.mem_replicate, List.mem_cons, List.not_mem_nil, or_false, reduceCtorEq, and_false, Move.go.injEq, false_or] at hm
    rcases hm with (⟨-, h⟩ | ⟨-, h⟩ | ⟨-, h⟩ | ⟨-, h⟩ | ⟨-, h⟩) | (⟨-, h⟩ | ⟨-, h⟩) <;> exact h
  · rw [run_append, hs1, run_append, e2, e1, ← hs0]
    have hl : C.cfg.minStreamQueue < Ps.length + 1 := by omega
    simp [begin, State.run, State.move, State.go, State.setTaker, State.setQueue, upd_self', upd_upd', hl, State.outs]

theorem two_takers (S : Sound C) (u : Usable C) (hs : Streamable C.cfg) (hh : C.cfg.innerHeaderBytes < C.cfg.blocksize) : TwoTakers C := by
  intro a ha bundle st hst saltDraw hsd ttl dst hdst message now hm
  obtain ⟨r0, r, G, Ps, h1, h2, h3, h4, h5, h6⟩ := long_message S u hs ha hst hsd hdst hm
  rw [h1, h2]
  have hml : C.cfg.blocksize ≤ message.length := by
    have : C.cfg.blocksize ≤ (C.cfg.minStreamQueue + 1) * C.cfg.blocksize := Nat.le_mul_of_pos_left _ (Nat.succ_pos _)
    omega
  have hP : ((beDigits C.cfg.timestampBytes a.draws.reading.toNat ++ a.draws.sivKey ++ message).take C.cfg.blocksize).drop C.cfg.innerHeaderBytes =
      message.take (C.cfg.blocksize - C.cfg.innerHeaderBytes) := by
    rw [List.drop_take, ← h6, List.drop_left]
  have hPl : ((beDigits C.cfg.timestampBytes a.draws.reading.toNat ++ a.draws.sivKey ++ message).take C.cfg.blocksize).length = C.cfg.blocksize := by
    rw [List.length_take, List.length_append]; omega
  rw [← hP]
  generalize (beDigits C.cfg.timestampBytes a.draws.reading.toNat ++ a.draws.sivKey ++ message).take C.cfg.blocksize = P at *
  generalize hs0 : begin (⟨r0.session true .decryption, ttl, false, [], C.cfg.innerHeaderBytes, false⟩ : DecipherStream κ) (fun _ => wire G) = s0
  obtain ⟨log, n, e2, e3⟩ := feed_whole hs h3 h5 s0 (by rw [← hs0]; rfl) (by rw [← hs0]; rfl) (by rw [← hs0]; rfl) (by rw [← hs0]; rfl)
    (by rw [← hs0]; rfl)
  refine ⟨List.replicate n (.feed 0) ++ .next 0 :: [.go 0 now, .go 0 now, .next 1, .go 1 now, .go 1 now, .go 1 now, .go 1 now, .go 1 now, .go 1 now], ?_, ?_, ?_⟩
  · intro before after he
    have : before = List.replicate n (.feed 0) := by
      rcases List.append_eq_append_iff.1 he with ⟨c, k1, k2⟩ | ⟨c, k1, k2⟩
      · cases c with
        | nil => simpa using k1
        | cons x c =>
          injection k2 with k2 k3
          have : Move.next 0 ∈ [Move.go 0 now, .go 0 now, .next 1, .go 1 now, .go 1 now, .go 1 now, .go 1 now, .go 1 now, .go 1 now] := by rw [k3]; simp
          simp at this
      · cases c with
        | nil => simpa using k1.symm
        | cons x c =>
          injection k2 with k2 k3
          have : Move.next 0 ∈ List.replicate n (Move.feed 0) := by rw [k1, k2]; simp
          simp at this
    rw [this, e2]
    exact e3
  · intro j t hm
    simp only [List.mem_append, List.mem_replicate, List.mem_cons, List.not_mem_nil, or_false, reduceCtorEq, and_false, Move.go.injEq, false_or] at hm
    rcases hm with ⟨-, h⟩ | ⟨-, h⟩ | ⟨-, h⟩ | ⟨-, h⟩ | ⟨-, h⟩ | ⟨-, h⟩ | ⟨-, h⟩ | ⟨-, h⟩ <;> exact h
  · rw [run_append, e2, ← hs0]
    have hl : C.cfg.minStreamQueue < Ps.length + 1 := by omega
    have hd : P.drop C.cfg.innerHeaderBytes ≠ [] := by
      intro k
      have := congrArg List.length k
      rw [List.length_drop, hPl] at this
      simp at this; omega
    have hmin : C.cfg.innerHeaderBytes - min C.cfg.innerHeaderBytes P.length = 0 := by omega
    by_cases h0 : C.cfg.innerHeaderBytes = 0
    · simp [begin, State.run, State.move, State.next, State.go, State.setTaker, State.setQueue, upd, hl, h0]
    · simp [begin, State.run, State.move, State.next, State.go, State.setTaker, State.setQueue, upd, hl, h0, hd, hmin]

end

/-- The hypotheses of the theorem about one taker hold of a thread that begins when the packets of a message are there. -/
theorem waiting_taker {κ : Type} {C : Cipher κ} (S : Sound C) (u : Usable C) (hs : Streamable C.cfg) {a : StreamArgs} (ha : a.OK C.cfg) {bundle : SaltAADIV} {st : CipherStream κ}
    (hst : CipherStream.new C a.key a.draws a.salt a.aad = .ok (bundle, st)) {saltDraw : Bytes} (hsd : saltDraw.length = C.cfg.saltBytes) {ttl : Option Int}
    {dst : DecipherStream κ} (hdst : DecipherStream.new C a.key saltDraw (some (usedSalt a.salt a.draws.salt)) a.aad a.draws.iv ttl = .ok dst) {message : Bytes}
    (hm : (C.cfg.minStreamQueue + 1) * C.cfg.blocksize ≤ message.length) (now : Int) :
    ∃ moves, OneTaker moves ∧ .next 0 ∈ moves ∧ Patient C (begin dst fun _ => wire (st.execAll C [.buffer message, .finalize]).1) moves ∧ ∃ n, moves =
      List.replicate n (.feed 0) ++ .next 0 :: [.go 0 now, .feed 1, .go 0 now] := by
  obtain ⟨r0, r, G, Ps, h1, h2, h3, h4, h5, h6⟩ := long_message S u hs ha hst hsd hdst hm
  rw [h1, h2]
  obtain ⟨log, n, e2, e3⟩ := feed_whole hs h3 h5 (begin (⟨r0.session true .decryption, ttl, false, [], C.cfg.innerHeaderBytes, false⟩ : DecipherStream κ) (fun _ => wire G)) rfl rfl rfl rfl rfl
  refine ⟨_, ?_, ?_, ?_, n, rfl⟩
  · intro m hm
    simp only [List.mem_append, List.mem_replicate, List.mem_cons, List.not_mem_nil, or_false] at hm
    rcases hm with ⟨-, rfl⟩ | rfl | rfl | rfl | rfl <;> simp
  · simp
  · intro before after he
    have : before = List.replicate n (.feed 0) := by
      rcases List.append_eq_append_iff.1 he with ⟨c, k1, k2⟩ | ⟨c, k1, k2⟩
      · cases c with
        | nil => simpa using k1
        | cons x c =>
          injection k2 with k2 k3
          have : Move.next 0 ∈ [Move.go 0 now, .feed 1, .go 0 now] := by rw [k3]; simp
          simp at this
      · cases c with
        | nil => simpa using k1.symm
        | cons x c =>
          injection k2 with k2 k3
          have : Move.next 0 ∈ List.replicate n (Move.feed 0) := by rw [k1, k2]; simp
          simp at this
    rw [this, e2]
    exact e3

/-! ### the ciphers -/

theorem C80_permute_one_taker_partial {E : Env} (h : PermuteSetup E) (hs : Streamable E.cfg) (hh : E.cfg.innerHeaderBytes ≤ E.cfg.blocksize) :
    OneTakerSound (permuteCipher E) := one_taker (permuteSound E h.permuteWF) h.usable hs hh

theorem C80_dual_one_taker_partial {E : DualEnv} (h : DualSetup E) (hs : Streamable E.cfg) (hh : E.cfg.innerHeaderBytes ≤ E.cfg.blocksize) :
    OneTakerSound (dualCipher E) := one_taker (dualSound E h.wf h.sides.1 h.sides.2) h.usable hs hh

/-- C80, nobody gets stuck, however many threads take plaintext: whatever has happened, every call of `buffer` and every taker can come to its end. -/
theorem C80_ends {κ : Type} (C : Cipher κ) (st : DecipherStream κ) (data : Nat → Bytes) (moves : List Move) (i j : Nat) :
    ∃ more, (∀ m ∈ more, (∃ i, m = .feed i) ∨ ∃ j now, m = .go j now) ∧ (∃ r, ((begin st data).run C (moves ++ more)).feeder i = .done r) ∧
      (((begin st data).run C (moves ++ more)).taker j = .yielded ∨ ∃ e, ((begin st data).run C (moves ++ more)).taker j = .ready e) :=
  all_end st data moves i j

/-- C80, order: what was read stays read in that order, and a call that is over reads nothing more; so the packets of calls that were over before others began come first. -/
theorem C80_order {κ : Type} (C : Cipher κ) (st : DecipherStream κ) (data : Nat → Bytes) (moves more : List Move) :
    ∃ new, ((begin st data).run C (moves ++ more)).log = ((begin st data).run C moves).log ++ new ∧
      ∀ i r, ((begin st data).run C moves).feeder i = .done r → (∀ x ∈ new, x.call ≠ i) ∧ ((begin st data).run C (moves ++ more)).feeder i = .done r := by
  rw [run_append]
  exact run_log more _

theorem C80_permute_impatient {E : Env} (h : PermuteSetup E) (hs : Streamable E.cfg) : Impatient (permuteCipher E) := impatient (permuteSound E h.permuteWF) h.usable hs

theorem C80_dual_impatient {E : DualEnv} (h : DualSetup E) (hs : Streamable E.cfg) : Impatient (dualCipher E) :=
  impatient (dualSound E h.wf h.sides.1 h.sides.2) h.usable hs

theorem C80_permute_two_takers {E : Env} (h : PermuteSetup E) (hs : Streamable E.cfg) (hh : E.cfg.innerHeaderBytes < E.cfg.blocksize) :
    TwoTakers (permuteCipher E) := two_takers (permuteSound E h.permuteWF) h.usable hs hh

theorem C80_dual_two_takers {E : DualEnv} (h : DualSetup E) (hs : Streamable E.cfg) (hh : E.cfg.innerHeaderBytes < E.cfg.blocksize) :
    TwoTakers (dualCipher E) := two_takers (dualSound E h.wf h.sides.1 h.sides.2) h.usable hs hh

example : OneTakerSound (permuteCipher sampleSlick) ∧ Impatient (permuteCipher sampleSlick) ∧ TwoTakers (permuteCipher sampleSlick) ∧
    OneTakerSound (dualCipher sampleChunky) ∧ Impatient (dualCipher sampleChunky) ∧ TwoTakers (dualCipher sampleChunky) ∧
    (⟨sampleKey, sampleDraws sampleSlick.cfg, none, [1]⟩ : StreamArgs).OK sampleSlick.cfg :=
  ⟨C80_permute_one_taker_partial sampleSlick_setup sampleSlick_streamable (by decide), C80_permute_impatient sampleSlick_setup sampleSlick_streamable,
    C80_permute_two_takers sampleSlick_setup sampleSlick_streamable (by decide), C80_dual_one_taker_partial sampleChunky_setup sampleChunky_streamable (by decide),
    C80_dual_impatient sampleChunky_setup sampleChunky_streamable, C80_dual_two_takers sampleChunky_setup sampleChunky_streamable (by decide), sampleArgs_ok⟩

/-- Two calls at once, and a taker that waited: the hypotheses of the theorem hold of moves that overlap. -/
example : OneTaker [.feed 0, .feed 1, .feed 0, .feed 1, .finalize 0, .go 0 7, .feed 0, .resume 0] := by
  intro m hm
  simp only [List.mem_cons, List.not_mem_nil, or_false] at hm
  rcases hm with rfl | rfl | rfl | rfl | rfl | rfl | rfl | rfl <;> simp

end Aiootp.Cipher.SharedDec
