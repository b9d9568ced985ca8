import Verif.Spec.Daemon

/-!
C77: the delays of the entropy daemon.
-/

namespace Aiootp.Daemon

theorem put_same' {α : Type} (f : Nat → α) (k : Nat) (a : α) : put f k a k = a := by simp [put]

theorem put_other' {α : Type} (f : Nat → α) {k n : Nat} (a : α) (h : n ≠ k) : put f k a n = f n := by simp [put, h]

/-! ### bounds -/

/-- A store of values that were asked for. -/
private def Write.Within (M : Int) : Write → Prop
  | .maxDelay d => 0 < d ∧ d ≤ M
  | .initial d => 0 < d ∧ d ≤ M
  | _ => True

private def Pc.Within (M now : Int) : Pc → Prop
  | .restored d => 0 < d ∧ d ≤ M
  | .clip d => 0 < d ∧ d ≤ M
  | .asleep u => u ≤ now + M
  | _ => True

private structure Inv (M : Int) (s : State) : Prop where
  maxDelay : 0 < s.maxDelay ∧ s.maxDelay ≤ M
  initial : 0 < s.initial ∧ s.initial ≤ M
  thread : ∀ i, (s.thread i).Within M s.now
  calls : ∀ k, ∀ w ∈ s.calls k, w.Within M

private theorem within_later {M now now' : Int} (h : now ≤ now') {p : Pc} (hp : p.Within M now) : p.Within M now' := by
  cases p <;> simp_all [Pc.Within] <;> omega

private theorem put_within {M now : Int} {f : Nat → Pc} (h : ∀ i, (f i).Within M now) {i : Nat} {p : Pc} (hp : p.Within M now) : ∀ j, (put f i p j).Within M now := by
  intro j
  unfold put
  split
  · exact hp
  · exact h j

private theorem inv_step {M sec : Int} (hsec : 0 ≤ sec) {s : State} (h : Inv M s) (e : Event) : Inv M (s.step sec e) := by
  cases e with
  | tick dt =>
    refine ⟨h.maxDelay, h.initial, fun i => within_later ?_ (h.thread i), h.calls⟩
    show s.now ≤ s.now + dt
    omega
  | cancel => exact ⟨h.maxDelay, h.initial, h.thread, h.calls⟩
  | start i =>
    simp only [State.step]
    split
    · exact ⟨h.maxDelay, h.initial, put_within h.thread trivial, h.calls⟩
    · exact h
  | call k =>
    simp only [State.step]
    cases hc : s.calls k with
    | nil => exact h
    | cons w ws =>
      have hw : w.Within M := h.calls k w (by rw [hc]; simp)
      have hcalls : ∀ j, ∀ x ∈ put s.calls k ws j, x.Within M := by
        intro j x hx
        by_cases hj : j = k
        · subst hj; rw [put_same'] at hx; exact h.calls j x (by rw [hc]; simp [hx])
        · rw [put_other' _ _ hj] at hx; exact h.calls j x hx
      cases w with
      | deadline d => exact ⟨h.maxDelay, h.initial, h.thread, hcalls⟩
      | maxDelay d => exact ⟨hw, h.initial, h.thread, hcalls⟩
      | mutating => exact ⟨h.maxDelay, h.initial, h.thread, hcalls⟩
      | initial d => exact ⟨h.maxDelay, hw, h.thread, hcalls⟩
  | daemon i u =>
    have hi := h.thread i
    simp only [State.step, State.advance]
    cases ht : s.thread i with
    | idle => exact h
    | mix => exact ⟨h.maxDelay, h.initial, put_within h.thread trivial, h.calls⟩
    | ack =>
      refine ⟨h.maxDelay, h.initial, put_within h.thread ?_, h.calls⟩
      split <;> trivial
    | delta => exact ⟨h.maxDelay, h.initial, put_within h.thread trivial, h.calls⟩
    | skips d =>
      refine ⟨h.maxDelay, h.initial, put_within h.thread ?_, h.calls⟩
      have := h.maxDelay
      by_cases h1 : d ≤ 0
      · rw [if_pos h1]; trivial
      · rw [if_neg h1]
        by_cases h2 : s.maxDelay - d > sec
        · rw [if_pos h2]; exact ⟨by omega, by omega⟩
        · rw [if_neg h2]; trivial
    | restore => exact ⟨h.maxDelay, h.initial, put_within h.thread h.initial, h.calls⟩
    | restored d =>
      rw [ht] at hi
      exact ⟨hi, h.initial, put_within h.thread trivial, h.calls⟩
    | flag => exact ⟨h.maxDelay, h.initial, put_within h.thread trivial, h.calls⟩
    | clip d =>
      rw [ht] at hi
      exact ⟨hi, h.initial, put_within h.thread trivial, h.calls⟩
    | sleep =>
      refine ⟨h.maxDelay, h.initial, put_within h.thread ?_, h.calls⟩
      have := h.maxDelay
      simp only [Pc.Within]
      omega
    | asleep v =>
      simp only
      split
      · exact ⟨h.maxDelay, h.initial, put_within h.thread trivial, h.calls⟩
      · exact h
    | check =>
      refine ⟨h.maxDelay, h.initial, put_within h.thread ?_, h.calls⟩
      split <;> trivial
    | ended => exact h

private theorem inv_run {M sec : Int} (hsec : 0 ≤ sec) (events : List Event) : ∀ {s : State}, Inv M s → Inv M (s.run sec events) := by
  induction events with
  | nil => intro s h; exact h
  | cons e es ih => intro s h; exact ih (inv_step hsec h e)

private theorem inv_new {M now d : Int} {calls : Nat → List Write} (hd : 0 < d ∧ d ≤ M) (ha : Asked M calls) : Inv M (State.new now d calls) := by
  refine ⟨hd, hd, fun _ => trivial, ?_⟩
  intro k w hw
  simp only [State.new] at hw
  rcases ha k with h | ⟨d, dur, hM, h⟩ | ⟨d, hM, h⟩
  · rw [h] at hw; cases hw
  · simp only [temporary] at h
    split at h
    · injection h with h
      rw [← h] at hw
      simp only [List.mem_cons, List.not_mem_nil, or_false] at hw
      rcases hw with rfl | rfl | rfl
      · trivial
      · exact ⟨by omega, hM⟩
      · trivial
    · cases h
  · simp only [permanent] at h
    split at h
    · injection h with h
      rw [← h] at hw
      simp only [List.mem_cons, List.not_mem_nil, or_false] at hw
      rcases hw with rfl | rfl <;> exact ⟨by omega, hM⟩
    · cases h

/-- C77: whatever is called when, the delay is positive and never larger than the largest one that was asked for, and no sleep is longer. -/
theorem C77_delays {M sec : Int} (hsec : 0 ≤ sec) {now d : Int} (hd : 0 < d ∧ d ≤ M) {calls : Nat → List Write} (ha : Asked M calls) (events : List Event) :
    let s := (State.new now d calls).run sec events
    (0 < s.maxDelay ∧ s.maxDelay ≤ M) ∧ ∀ i v, s.thread i = .asleep v → v ≤ s.now + M := by
  intro s
  have h := inv_run hsec events (inv_new (now := now) hd ha)
  refine ⟨h.maxDelay, ?_⟩
  intro i v hv
  have := h.thread i
  rw [hv] at this
  exact this

/-- C77: other delays are refused: the calls raise `ValueError` and change nothing. -/
theorem C77_refused (d duration : Int) : ((∃ w, temporary d duration = .ok w) ↔ 0 < d) ∧ ((∃ w, permanent d = .ok w) ↔ 0 < d) ∧
    (¬ 0 < d → temporary d duration = .error .value ∧ permanent d = .error .value) := by
  unfold temporary permanent
  by_cases h : 0 < d
  · simp [h]
  · simp [h]

/-- C77: a call that no other interrupts sets what it says: a permanent delay holds at once; a temporary one holds at once, until a deadline that is `duration` later, and the permanent
one is remembered. -/
theorem C77_set (sec : Int) (s : State) (k : Nat) (d duration : Int) :
    (permanent d = .ok (s.calls k) → ∃ t, s.run sec (whole k 2) = t ∧ t.calls k = [] ∧ t.maxDelay = d ∧ t.initial = d ∧ t.mutating = s.mutating ∧ t.deadline = s.deadline) ∧
    (temporary d duration = .ok (s.calls k) →
      ∃ t, s.run sec (whole k 3) = t ∧ t.calls k = [] ∧ t.maxDelay = d ∧ t.initial = s.initial ∧ t.mutating = true ∧ t.deadline = s.now + duration) := by
  constructor
  · intro h
    unfold permanent at h
    split at h
    · injection h with h
      refine ⟨_, rfl, ?_⟩
      simp [whole, List.replicate, State.run, State.step, ← h, State.write, put_same']
    · cases h
  · intro h
    unfold temporary at h
    split at h
    · injection h with h
      refine ⟨_, rfl, ?_⟩
      simp [whole, List.replicate, State.run, State.step, ← h, State.write, put_same']
    · cases h

/-! ### a temporary delay -/

/-- What is known at the places of one round that begins at `ack`. -/
private def At (sec : Int) (s t : State) : Pc → Prop
  | .ack => t.maxDelay = s.maxDelay ∧ t.mutating = true
  | .delta => t.maxDelay = s.maxDelay ∧ t.mutating = true
  | .skips d => t.maxDelay = s.maxDelay ∧ t.mutating = true ∧ s.deadline - t.now ≤ d ∧ d ≤ s.deadline - s.now
  | .restore => s.deadline ≤ t.now
  | .restored x => s.deadline ≤ t.now ∧ x = s.initial
  | .flag => s.deadline ≤ t.now ∧ t.maxDelay = s.initial
  | .clip d => t.mutating = true ∧ 0 < d ∧ s.maxDelay - d > sec ∧ s.deadline - t.now ≤ d ∧ d ≤ s.deadline - s.now
  | .sleep =>
    (s.deadline ≤ t.now ∧ t.maxDelay = s.initial ∧ t.mutating = false) ∨
    (s.now < s.deadline ∧ t.mutating = true ∧ t.maxDelay ≤ s.maxDelay ∧ t.maxDelay ≤ s.deadline - s.now + sec ∧ (s.maxDelay ≤ s.deadline - t.now + sec → t.maxDelay = s.maxDelay))
  | _ => True

private structure Round (sec : Int) (i : Nat) (s t : State) : Prop where
  now : s.now ≤ t.now
  initial : t.initial = s.initial
  deadline : t.deadline = s.deadline
  mixed : s.mixed i ≤ t.mixed i
  at_ : t.mixed i = s.mixed i → At sec s t (t.thread i)
  later : t.mixed i = s.mixed i → t.thread i ≠ .idle

private theorem at_later {sec : Int} {s t t' : State} (h1 : t.now ≤ t'.now) (h2 : t'.maxDelay = t.maxDelay) (h3 : t'.mutating = t.mutating) {p : Pc} (h : At sec s t p) : At sec s t' p := by
  cases p <;> simp only [At] at h ⊢ <;> (try rw [h2]) <;> (try rw [h3]) <;> try omega
  case skips => exact ⟨h.1, h.2.1, by omega, h.2.2.2⟩
  case clip => exact ⟨h.1, h.2.1, h.2.2.1, by omega, h.2.2.2.2⟩
  case sleep =>
    rcases h with h | h
    · exact .inl ⟨by omega, h.2⟩
    · right
      refine ⟨h.1, h.2.1, h.2.2.1, h.2.2.2.1, ?_⟩
      intro hh
      exact h.2.2.2.2 (by omega)

private theorem round_step {sec : Int} (hsec : 0 ≤ sec) {i : Nat} {s t : State} (h : Round sec i s t) {e : Event} (he : Alone i e) : Round sec i s (t.step sec e) := by
  cases e with
  | call k => cases he
  | start k => cases he
  | cancel => cases he
  | tick dt =>
    have hn : t.now ≤ t.now + dt := by omega
    exact ⟨Int.le_trans h.now hn, h.initial, h.deadline, h.mixed, fun hm => at_later (t := t) (t' := { t with now := t.now + dt }) hn rfl rfl (h.at_ hm), h.later⟩
  | daemon j u =>
    have hij : j = i := he
    subst hij
    simp only [State.step, State.advance]
    have hat := h.at_
    cases ht : t.thread j with
    | idle =>
      refine ⟨h.now, h.initial, h.deadline, h.mixed, ?_, h.later⟩
      exact h.at_
    | mix =>
      refine ⟨h.now, h.initial, h.deadline, ?_, ?_, ?_⟩
      · show s.mixed j ≤ put t.mixed j (t.mixed j + 1) j
        rw [put_same']; have := h.mixed; omega
      · intro hm
        exfalso
        have hm' : put t.mixed j (t.mixed j + 1) j = s.mixed j := hm
        rw [put_same'] at hm'
        have := h.mixed; omega
      · intro hm
        simp only [put_same']
        simp
    | ack =>
      rw [ht] at hat
      refine ⟨h.now, h.initial, h.deadline, h.mixed, ?_, ?_⟩
      · intro hm
        obtain ⟨h1, h2⟩ := hat hm
        simp only [put_same', h2, if_true]
        exact ⟨h1, rfl⟩
      · intro hm
        simp only [put_same']
        split <;> simp
    | delta =>
      rw [ht] at hat
      refine ⟨h.now, h.initial, h.deadline, h.mixed, ?_, by intro _; simp [put_same']⟩
      intro hm
      obtain ⟨h1, h2⟩ := hat hm
      simp only [put_same']
      have := h.now
      have := h.deadline
      exact ⟨h1, h2, by simp only; omega, by omega⟩
    | skips d =>
      rw [ht] at hat
      refine ⟨h.now, h.initial, h.deadline, h.mixed, ?_, ?_⟩
      · intro hm
        obtain ⟨h1, h2, h3, h4⟩ := hat hm
        simp only [put_same']
        by_cases hd : d ≤ 0
        · rw [if_pos hd]; simp only [At]; omega
        · rw [if_neg hd]
          by_cases hs : t.maxDelay - d > sec
          · rw [if_pos hs]; exact ⟨h2, by omega, by omega, h3, h4⟩
          · rw [if_neg hs]
            exact .inr ⟨by omega, h2, by simp only; omega, by simp only; omega, fun _ => h1⟩
      · intro hm
        simp only [put_same']
        split
        · simp
        · split <;> simp
    | restore =>
      rw [ht] at hat
      refine ⟨h.now, h.initial, h.deadline, h.mixed, ?_, by intro _; simp [put_same']⟩
      intro hm
      simp only [put_same']
      exact ⟨hat hm, h.initial⟩
    | restored x =>
      rw [ht] at hat
      refine ⟨h.now, h.initial, h.deadline, h.mixed, ?_, by intro _; simp [put_same']⟩
      intro hm
      simp only [put_same']
      exact hat hm
    | flag =>
      rw [ht] at hat
      refine ⟨h.now, h.initial, h.deadline, h.mixed, ?_, by intro _; simp [put_same']⟩
      intro hm
      simp only [put_same']
      obtain ⟨h1, h2⟩ := hat hm
      exact .inl ⟨h1, h2, rfl⟩
    | clip d =>
      rw [ht] at hat
      refine ⟨h.now, h.initial, h.deadline, h.mixed, ?_, by intro _; simp [put_same']⟩
      intro hm
      simp only [put_same']
      obtain ⟨h1, h2, h3, h4, h5⟩ := hat hm
      refine .inr ⟨by omega, h1, by simp only; omega, by simp only; omega, ?_⟩
      intro hh
      simp only at hh ⊢
      omega
    | sleep =>
      refine ⟨h.now, h.initial, h.deadline, h.mixed, ?_, by intro _; simp [put_same']⟩
      intro hm
      simp only [put_same']
      trivial
    | asleep v =>
      simp only
      split
      · refine ⟨h.now, h.initial, h.deadline, h.mixed, ?_, by intro _; simp [put_same']⟩
        intro hm
        simp only [put_same']
        trivial
      · exact h
    | check =>
      refine ⟨h.now, h.initial, h.deadline, h.mixed, ?_, ?_⟩
      · intro hm
        simp only [put_same']
        split <;> trivial
      · intro hm
        simp only [put_same']
        split <;> simp
    | ended => exact h

private theorem round_run {sec : Int} (hsec : 0 ≤ sec) {i : Nat} {s : State} (events : List Event) : ∀ {t : State}, Round sec i s t → (∀ e ∈ events, Alone i e) → Round sec i s (t.run sec events) := by
  induction events with
  | nil => intro t h _; exact h
  | cons e es ih =>
    intro t h he
    exact ih (round_step hsec h (he e (by simp))) (fun e' h' => he e' (by simp [h']))

/-- C77: a temporary delay is looked at once in every round of the daemon. If nobody calls the object during that time, then at the next sleep of the same round either the deadline
has passed, and the delay is the permanent one again; or the deadline has not passed at the beginning, and the delay is the temporary one, unless this would let the daemon sleep for more
than a second beyond the deadline. In the second case the sleep ends at most a second after the deadline, apart from the time that the round itself has taken. -/
theorem C77_temporary_partial {sec : Int} (hsec : 0 ≤ sec) {s : State} {i : Nat} (hack : s.thread i = .ack) (hmut : s.mutating = true) {events : List Event} (he : ∀ e ∈ events, Alone i e) :
    let t := s.run sec events
    t.thread i = .sleep → t.mixed i = s.mixed i →
      (s.deadline ≤ t.now ∧ t.maxDelay = s.initial ∧ t.mutating = false) ∨
      (s.now < s.deadline ∧ t.mutating = true ∧ t.deadline = s.deadline ∧ t.maxDelay ≤ s.maxDelay ∧ (s.maxDelay ≤ s.deadline - t.now + sec → t.maxDelay = s.maxDelay) ∧
        ∀ u v, 0 ≤ t.maxDelay → (t.step sec (.daemon i u)).thread i = .asleep v → v ≤ s.deadline + sec + (t.now - s.now)) := by
  intro t hs hm
  have h : Round sec i s t := round_run hsec events
    ⟨Int.le_refl _, rfl, rfl, Nat.le_refl _, fun _ => by rw [hack]; exact ⟨rfl, hmut⟩, fun _ => by rw [hack]; simp⟩ he
  have ha := h.at_ hm
  rw [hs] at ha
  rcases ha with ha | ⟨h1, h2, h3, h4, h5⟩
  · exact .inl ha
  · refine .inr ⟨h1, h2, h.deadline, h3, h5, ?_⟩
    intro u v h0 hv
    simp only [State.step, State.advance, hs, put_same', Pc.asleep.injEq] at hv
    have := h.now
    omega

/-! ### what can go wrong with it -/

/-- After the deadline the delay is the permanent one. -/
private def Over (i : Nat) (t : State) : Prop :=
  (t.mutating = true ∧ t.deadline ≤ t.now ∧ (t.thread i = .check ∨ t.thread i = .mix ∨ t.thread i = .ack ∨ t.thread i = .delta ∨ (∃ d, d ≤ 0 ∧ t.thread i = .skips d) ∨ t.thread i = .restore ∨
      t.thread i = .restored t.initial ∨ (t.thread i = .flag ∧ t.maxDelay = t.initial) ∨ t.thread i = .ended)) ∨
  (t.mutating = true ∧ ∃ v, t.thread i = .asleep v ∧ t.deadline ≤ v) ∨
  (t.mutating = false ∧ t.maxDelay = t.initial ∧ (t.thread i = .sleep ∨ (∃ v, t.thread i = .asleep v) ∨ t.thread i = .check ∨ t.thread i = .mix ∨ t.thread i = .ack ∨ t.thread i = .ended))

private theorem over_step {sec : Int} {i : Nat} {t : State} (h : Over i t) {e : Event} (he : Alone i e) : Over i (t.step sec e) := by
  cases e with
  | call k => cases he
  | start k => cases he
  | cancel => cases he
  | tick dt =>
    rcases h with ⟨h1, h2, h3⟩ | h | h
    · exact .inl ⟨h1, by show t.deadline ≤ t.now + dt; omega, h3⟩
    · exact .inr (.inl h)
    · exact .inr (.inr h)
  | daemon j u =>
    have hij : j = i := he
    subst hij
    rcases h with ⟨h1, h2, h3⟩ | ⟨h1, v, h2, h3⟩ | ⟨h1, h2, h3⟩
    · rcases h3 with h | h | h | h | ⟨d, hd, h⟩ | h | h | ⟨h, h'⟩ | h <;> simp only [State.step, State.advance, h]
      · refine .inl ⟨h1, h2, ?_⟩
        simp only [put_same']
        cases t.cancelled <;> simp
      · exact .inl ⟨h1, h2, by simp [put_same']⟩
      · exact .inl ⟨h1, h2, by simp [put_same', h1]⟩
      · exact .inl ⟨h1, h2, .inr (.inr (.inr (.inr (.inl ⟨t.deadline - t.now, by omega, by simp only [put_same']⟩))))⟩
      · exact .inl ⟨h1, h2, by simp [put_same', hd]⟩
      · exact .inl ⟨h1, h2, by simp [put_same']⟩
      · exact .inl ⟨h1, h2, by simp [put_same']⟩
      · exact .inr (.inr ⟨rfl, h', by simp [put_same']⟩)
      · exact .inl ⟨h1, h2, by simp [h]⟩
    · simp only [State.step, State.advance, h2]
      by_cases hv : v ≤ t.now
      · rw [if_pos hv]
        exact .inl ⟨h1, by show t.deadline ≤ t.now; omega, by simp [put_same']⟩
      · rw [if_neg hv]
        exact .inr (.inl ⟨h1, v, h2, h3⟩)
    · rcases h3 with h | ⟨v, h⟩ | h | h | h | h <;> simp only [State.step, State.advance, h]
      · exact .inr (.inr ⟨h1, h2, .inr (.inl ⟨_, put_same' _ _ _⟩)⟩)
      · by_cases hv : v ≤ t.now
        · rw [if_pos hv]
          exact .inr (.inr ⟨h1, h2, by simp [put_same']⟩)
        · rw [if_neg hv]
          exact .inr (.inr ⟨h1, h2, .inr (.inl ⟨v, h⟩)⟩)
      · refine .inr (.inr ⟨h1, h2, ?_⟩)
        simp only [put_same']
        cases t.cancelled <;> simp
      · exact .inr (.inr ⟨h1, h2, by simp [put_same']⟩)
      · exact .inr (.inr ⟨h1, h2, by simp [put_same', h1]⟩)
      · exact .inr (.inr ⟨h1, h2, by simp [h]⟩)

private theorem over_run {sec : Int} {i : Nat} (events : List Event) : ∀ {t : State}, Over i t → (∀ e ∈ events, Alone i e) → Over i (t.run sec events) := by
  induction events with
  | nil => intro t h _; exact h
  | cons e es ih =>
    intro t h he
    exact ih (over_step h (he e (by simp))) (fun e' h' => he e' (by simp [h']))

private theorem initial_run {sec : Int} {i : Nat} (events : List Event) : ∀ {t : State}, (∀ e ∈ events, Alone i e) → (t.run sec events).initial = t.initial := by
  induction events with
  | nil => intro t _; rfl
  | cons e es ih =>
    intro t he
    simp only [State.run]
    rw [ih (fun e' h' => he e' (by simp [h']))]
    have hee := he e (by simp)
    cases e with
    | call k => cases hee
    | start k => cases hee
    | cancel => cases hee
    | tick dt => rfl
    | daemon j u =>
      simp only [State.step, State.advance]
      split <;> try rfl
      split <;> rfl

/-- C77: a temporary delay that is set while the daemon sleeps, for a time that ends before the sleep, is never used: the daemon sleeps with its permanent delay only. -/
theorem C77_temporary_unused (sec : Int) (s : State) (i k : Nat) (d duration v : Int) (hd : temporary d duration = .ok (s.calls k)) (hsleep : s.thread i = .asleep v)
    (hlong : s.now + duration ≤ v) (events : List Event) (he : ∀ e ∈ events, Alone i e) :
    let t := s.run sec (whole k 3 ++ events)
    t.thread i = .sleep → t.maxDelay = s.initial := by
  intro t ht
  have hc : s.calls k = [.deadline duration, .maxDelay d, .mutating] := by
    unfold temporary at hd
    split at hd
    · injection hd with hd; exact hd.symm
    · cases hd
  have hrun : ∀ (a b : List Event) (s : State), s.run sec (a ++ b) = (s.run sec a).run sec b := by
    intro a
    induction a with
    | nil => intro b s; rfl
    | cons e a ih => intro b s; exact ih b _
  have hw : ∃ s', s.run sec (whole k 3) = s' ∧ s'.mutating = true ∧ s'.thread = s.thread ∧ s'.deadline = s.now + duration ∧ s'.initial = s.initial := by
    refine ⟨_, rfl, ?_⟩
    simp [whole, List.replicate, State.run, State.step, hc, State.write, put_same']
  obtain ⟨s', h0, h1, h2, h3, h4⟩ := hw
  have hover : Over i t := by
    show Over i (s.run sec (whole k 3 ++ events))
    rw [hrun, h0]
    refine over_run events (.inr (.inl ⟨h1, v, by rw [h2]; exact hsleep, by rw [h3]; exact hlong⟩)) he
  have hini : t.initial = s.initial := by
    show (s.run sec (whole k 3 ++ events)).initial = _
    rw [hrun, h0, initial_run events he, h4]
  rcases hover with ⟨_, _, h⟩ | ⟨_, v, h, _⟩ | ⟨_, h, _⟩
  · rw [ht] at h; simp at h
  · rw [ht] at h; cases h
  · rw [h, hini]

private theorem quiet_run {sec : Int} (events : List Event) : ∀ {t : State}, (∀ k, t.calls k = []) → t.mutating = false →
    (∀ i, t.thread i = .idle ∨ t.thread i = .sleep ∨ (∃ v, t.thread i = .asleep v) ∨ t.thread i = .check ∨ t.thread i = .mix ∨ t.thread i = .ack ∨ t.thread i = .ended) →
    (t.run sec events).maxDelay = t.maxDelay := by
  induction events with
  | nil => intro t _ _ _; rfl
  | cons e es ih =>
    intro t hc hm ht
    simp only [State.run]
    have put_ok : ∀ (i : Nat) (p : Pc), (p = .idle ∨ p = .sleep ∨ (∃ v, p = .asleep v) ∨ p = .check ∨ p = .mix ∨ p = .ack ∨ p = .ended) →
        ∀ j, put t.thread i p j = .idle ∨ put t.thread i p j = .sleep ∨ (∃ v, put t.thread i p j = .asleep v) ∨ put t.thread i p j = .check ∨ put t.thread i p j = .mix ∨ put t.thread i p j = .ack ∨ put t.thread i p j = .ended := by
      intro i p hp j
      unfold put
      split
      · exact hp
      · exact ht j
    have key : (t.step sec e).maxDelay = t.maxDelay ∧ (∀ k, (t.step sec e).calls k = []) ∧ (t.step sec e).mutating = false ∧
        (∀ i, (t.step sec e).thread i = .idle ∨ (t.step sec e).thread i = .sleep ∨ (∃ v, (t.step sec e).thread i = .asleep v) ∨ (t.step sec e).thread i = .check ∨ (t.step sec e).thread i = .mix ∨ (t.step sec e).thread i = .ack ∨ (t.step sec e).thread i = .ended) := by
      cases e with
      | tick dt => exact ⟨rfl, hc, hm, ht⟩
      | cancel => exact ⟨rfl, hc, hm, ht⟩
      | call k => simp only [State.step, hc k]; exact ⟨trivial, hc, hm, ht⟩
      | start i =>
        simp only [State.step]
        split
        · exact ⟨rfl, hc, hm, put_ok i .mix (by simp)⟩
        · exact ⟨rfl, hc, hm, ht⟩
      | daemon i u =>
        simp only [State.step, State.advance]
        rcases ht i with h | h | ⟨v, h⟩ | h | h | h | h <;> simp only [h]
        · exact ⟨trivial, hc, hm, ht⟩
        · exact ⟨trivial, hc, hm, put_ok i _ (.inr (.inr (.inl ⟨_, rfl⟩)))⟩
        · split
          · exact ⟨rfl, hc, hm, put_ok i _ (by simp)⟩
          · exact ⟨rfl, hc, hm, ht⟩
        · refine ⟨trivial, hc, hm, put_ok i _ ?_⟩
          cases t.cancelled <;> simp
        · exact ⟨trivial, hc, hm, put_ok i _ (by simp)⟩
        · exact ⟨trivial, hc, hm, put_ok i _ (by simp [hm])⟩
        · exact ⟨trivial, hc, hm, ht⟩
    rw [ih key.2.1 key.2.2.1 key.2.2.2, key.1]

/-- C77: a temporary delay that is set while the daemon ends an earlier one may stay for ever: for all delays and durations there is a schedule of the two calls and the daemon after
which, whatever happens, the delay is the temporary one. -/
theorem C77_temporary_forever (sec now d₀ d₁ d : Int) (duration₁ : Nat) (duration : Int) (h₁ : 0 < d₁) (h : 0 < d) :
    ∃ calls : Nat → List Write, temporary d₁ duration₁ = .ok (calls 0) ∧ temporary d duration = .ok (calls 1) ∧ (∀ k, k ≠ 0 → k ≠ 1 → calls k = []) ∧
      ∃ events, ((State.new now d₀ calls).run sec events).calls 1 = [] ∧
        ∀ more, (((State.new now d₀ calls).run sec events).run sec more).maxDelay = d := by
  refine ⟨fun k => if k = 0 then [.deadline duration₁, .maxDelay d₁, .mutating] else if k = 1 then [.deadline duration, .maxDelay d, .mutating] else [], ?_, ?_, ?_, ?_⟩
  · simp [temporary, h₁]
  · simp [temporary, h]
  · intro k h0 h1; simp [h0, h1]
  · refine ⟨[.call 0, .call 0, .call 0, .start 0, .tick duration₁, .daemon 0 0, .daemon 0 0, .daemon 0 0, .daemon 0 0, .daemon 0 0, .daemon 0 0, .call 1, .call 1, .call 1, .daemon 0 0], ?_, ?_⟩
    · simp [State.run, State.step, State.advance, State.new, State.write, put]
    · intro more
      rw [quiet_run more]
      · simp [State.run, State.step, State.advance, State.new, State.write, put]
      · intro k
        by_cases hk0 : k = 0
        · simp [State.run, State.step, State.advance, State.new, State.write, put, hk0]
        · by_cases hk1 : k = 1
          · simp [State.run, State.step, State.advance, State.new, State.write, put, hk1]
          · simp [State.run, State.step, State.advance, State.new, State.write, put, hk0, hk1]
      · simp [State.run, State.step, State.advance, State.new, State.write, put]
      · intro i
        by_cases hi : i = 0
        · simp [State.run, State.step, State.advance, State.new, State.write, put, hi]
        · simp [State.run, State.step, State.advance, State.new, State.write, put, hi]

/-! ### cancellation -/

private theorem cancelled_step {sec : Int} {s : State} (h : s.cancelled = true) (e : Event) : (s.step sec e).cancelled = true := by
  cases e with
  | tick dt => exact h
  | cancel => rfl
  | start i => simp only [State.step]; split <;> exact h
  | call k =>
    simp only [State.step]
    split
    · exact h
    · rename_i w ws _
      cases w <;> exact h
  | daemon i u =>
    simp only [State.step, State.advance]
    split <;> try exact h
    split <;> exact h

/-- The hashes that a thread still puts into the pool after `cancel`. -/
private def left : Pc → Nat
  | .idle => 1
  | .mix => 1
  | _ => 0

private theorem left_step {sec : Int} {s : State} (h : s.cancelled = true) (e : Event) (i : Nat) :
    (s.step sec e).mixed i + left ((s.step sec e).thread i) ≤ s.mixed i + left (s.thread i) := by
  cases e with
  | tick dt => exact Nat.le_refl _
  | cancel => exact Nat.le_refl _
  | start j =>
    simp only [State.step]
    cases hj : s.thread j <;> simp only [Nat.le_refl]
    by_cases hij : i = j
    · subst hij; simp [put_same', hj, left]
    · simp [put_other' _ _ hij]
  | call k =>
    simp only [State.step]
    cases hc : s.calls k with
    | nil => exact Nat.le_refl _
    | cons w ws => cases w <;> exact Nat.le_refl _
  | daemon j u =>
    by_cases hij : i = j
    · subst hij
      simp only [State.step, State.advance]
      cases hi : s.thread i with
      | asleep v => simp only; split <;> simp [put_same', hi, left]
      | ack => simp only [put_same']; split <;> simp [left]
      | skips d =>
        simp only [put_same']
        by_cases h1 : d ≤ 0
        · simp [h1, left]
        · by_cases h2 : s.maxDelay - d > sec <;> simp [h1, h2, left]
      | _ => simp [put_same', hi, left, h]
    · simp only [State.step, State.advance]
      cases hj : s.thread j with
      | asleep v => simp only; split <;> simp [put_other' _ _ hij]
      | _ => simp [put_other' _ _ hij]

/-- C77: after `cancel`, each thread of the daemon puts at most one more hash into the pool, whatever happens. This is so also for threads that are started later: a cancelled daemon
cannot be started again. -/
theorem C77_cancelled (sec : Int) (s : State) (h : s.cancelled = true) (events : List Event) (i : Nat) : (s.run sec events).mixed i ≤ s.mixed i + 1 := by
  have main : ∀ (events : List Event) (s : State), s.cancelled = true → (s.run sec events).mixed i + left ((s.run sec events).thread i) ≤ s.mixed i + left (s.thread i) := by
    intro events
    induction events with
    | nil => intro s _; exact Nat.le_refl _
    | cons e es ih =>
      intro s h
      exact Nat.le_trans (ih _ (cancelled_step h e)) (left_step h e i)
  have h1 := main events s h
  have h2 : left (s.thread i) ≤ 1 := by cases s.thread i <;> simp [left]
  omega

/-- How many steps a thread still makes after `cancel`. -/
private def rank : Pc → Nat
  | .idle => 20
  | .mix => 12
  | .ack => 11
  | .delta => 10
  | .skips _ => 9
  | .restore => 8
  | .restored _ => 7
  | .flag => 6
  | .clip _ => 6
  | .sleep => 3
  | .asleep _ => 2
  | .check => 1
  | .ended => 0

/-- C77: after `cancel` a thread of the daemon ends: whatever happens, it never moves away from its end, and each of its own steps brings it nearer, unless it is asleep and its time has
not come. -/
theorem C77_cancel_ends : ∃ distance : Pc → Nat, (∀ p, distance p = 0 ↔ p = .ended) ∧
    ∀ (sec : Int) (s : State) (i : Nat), s.cancelled = true → s.thread i ≠ .idle → ∀ e,
      distance ((s.step sec e).thread i) ≤ distance (s.thread i) ∧
      (∀ u, e = .daemon i u → s.thread i ≠ .ended → (∀ v, s.thread i = .asleep v → v ≤ s.now) → distance ((s.step sec e).thread i) < distance (s.thread i)) := by
  refine ⟨rank, by intro p; cases p <;> simp [rank], ?_⟩
  intro sec s i hc hi e
  cases e with
  | tick dt => exact ⟨Nat.le_refl _, fun u hu => by cases hu⟩
  | cancel => exact ⟨Nat.le_refl _, fun u hu => by cases hu⟩
  | start j =>
    refine ⟨?_, fun u hu => by cases hu⟩
    simp only [State.step]
    cases hj : s.thread j <;> simp only [Nat.le_refl]
    by_cases hij : i = j
    · subst hij; exact absurd hj hi
    · simp [put_other' _ _ hij]
  | call k =>
    refine ⟨?_, fun u hu => by cases hu⟩
    simp only [State.step]
    cases hc : s.calls k with
    | nil => exact Nat.le_refl _
    | cons w ws => cases w <;> exact Nat.le_refl _
  | daemon j u =>
    by_cases hij : i = j
    · subst hij
      simp only [State.step, State.advance]
      cases ht : s.thread i with
      | idle => exact absurd ht hi
      | ended => simp [ht]
      | asleep v =>
        simp only
        split
        · simp [put_same', rank]
        · rename_i hv
          refine ⟨by rw [ht]; exact Nat.le_refl _, ?_⟩
          intro u' _ _ h'
          exact absurd (h' v rfl) hv
      | ack => simp only [put_same']; split <;> simp [rank]
      | skips d =>
        simp only [put_same']
        by_cases h1 : d ≤ 0
        · simp [h1, rank]
        · by_cases h2 : s.maxDelay - d > sec <;> simp [h1, h2, rank]
      | check => simp [put_same', hc, rank]
      | _ => simp [put_same', rank]
    · refine ⟨?_, ?_⟩
      · simp only [State.step, State.advance]
        cases hj : s.thread j with
        | asleep v => simp only; split <;> simp [put_other' _ _ hij]
        | _ => simp [put_other' _ _ hij]
      · intro u' hu
        injection hu with h1 _
        exact absurd h1.symm hij

/-! ### examples -/

/-- A temporary delay of 1 for a time of 30, and another one. -/
private def calls₀ : Nat → List Write
  | 0 => [.deadline 30, .maxDelay 1, .mutating]
  | 1 => [.initial 50, .maxDelay 50]
  | _ => []

private theorem asked₀ : Asked 100 calls₀ := by
  intro k
  match k with
  | 0 => exact .inr (.inl ⟨1, 30, by decide, rfl⟩)
  | 1 => exact .inr (.inr ⟨50, by decide, rfl⟩)
  | k + 2 => exact .inl rfl

example : (0 < ((State.new 0 100 calls₀).run 10 [.start 0, .call 0, .call 1, .call 0, .call 0, .daemon 0 7]).maxDelay) :=
  (C77_delays (M := 100) (by decide) (by decide) asked₀ _).1.1

/-- The daemon in the middle of a round with a temporary delay that is too long. -/
private def s₀ : State := { now := 5, maxDelay := 60, initial := 100, deadline := 20, mutating := true, thread := fun _ => .ack }

-- the delay is cut: the temporary delay would go beyond the deadline
example : (s₀.run 10 [.daemon 0 0, .tick 1, .daemon 0 0, .tick 2, .daemon 0 0, .daemon 0 0]).thread 0 = .sleep ∧
    (s₀.run 10 [.daemon 0 0, .tick 1, .daemon 0 0, .tick 2, .daemon 0 0, .daemon 0 0]).maxDelay = 14 := ⟨rfl, rfl⟩

example : ∀ e ∈ [Event.daemon 0 0, .tick 1, .daemon 0 0, .tick 2, .daemon 0 0, .daemon 0 0], Alone 0 e := by simp [Alone]

-- a temporary delay that is never used
private def s₁ : State := { State.new 0 100 calls₀ with thread := fun _ => .asleep 40 }

private def rest₁ : List Event := [.tick 40, .daemon 0 0, .daemon 0 0, .daemon 0 0, .daemon 0 0, .daemon 0 0, .daemon 0 0, .daemon 0 0, .daemon 0 0, .daemon 0 0]

example : (s₁.run 10 (whole 0 3 ++ rest₁)).thread 0 = .sleep := rfl

example : (s₁.run 10 (whole 0 3 ++ rest₁)).maxDelay = 100 :=
  C77_temporary_unused 10 s₁ 0 0 1 30 40 rfl rfl (by decide) rest₁ (by simp [rest₁, Alone]) rfl

end Aiootp.Daemon
