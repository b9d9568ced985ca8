import Verif.Spec.Files

/-!
C78: files that are read, written and appended to.
-/

namespace Aiootp.Files

private theorem ps {α : Type} (f : Nat → α) (k : Nat) (a : α) : put f k a k = a := by simp [put]

private theorem po {α : Type} (f : Nat → α) {k n : Nat} (a : α) (h : n ≠ k) : put f k a n = f n := by simp [put, h]

/-- A call is where its kind of call can be. -/
private def Fits : Job → Pc → Prop
  | _, .ready => True
  | .read _ _, .reading _ => True
  | .write _ _, .writing _ _ => True
  | .append _ _, .appending _ => True
  | _, .done _ => True
  | _, _ => False

private theorem job_step (s : State) (k n : Nat) : (s.step k n).job = s.job := by
  unfold State.step
  split <;> (try split) <;> rfl

private theorem pc_step (s : State) {j k : Nat} (n : Nat) (h : j ≠ k) : (s.step k n).pc j = s.pc j := by
  unfold State.step
  split <;> (try split) <;> simp [po _ _ h]

private theorem file_step (s : State) (k n : Nat) {p : Nat} (h : p ≠ (s.job k).path) : (s.step k n).file p = s.file p := by
  unfold State.step
  split <;> rename_i e1 e2 <;> (try rw [e2] at h) <;> (try split) <;> simp_all [Job.path, put]

private theorem read_step (s : State) (k n p : Nat) (size : Int) (h : s.job k = .read p size) : (s.step k n).file = s.file := by
  unfold State.step
  split <;> rename_i e1 e2 <;> rw [h] at e2 <;> (try cases e2) <;> (try split) <;> rfl

private theorem fits_step {s : State} (h : ∀ j, Fits (s.job j) (s.pc j)) (k n : Nat) : ∀ j, Fits ((s.step k n).job j) ((s.step k n).pc j) := by
  intro j
  rw [job_step]
  by_cases hj : j = k
  · subst hj
    have hk := h j
    unfold State.step
    cases hp : s.pc j <;> cases hjob : s.job j <;> rw [hp, hjob] at hk <;> simp only [Fits] at hk
    case ready.read p size =>
      cases hf : s.file p
      · simp only [hf, ps]; trivial
      · simp only [hf, ps]
        by_cases hs : size < -1
        · rw [if_pos hs]; trivial
        · rw [if_neg hs]; trivial
    case ready.write => simp only [ps]; trivial
    case ready.append => simp only [ps]; trivial
    case reading.read g p size =>
      simp only [ps]
      by_cases hs : ((s.content p).drop g.length).take (if size < 0 then n + 1 else min (n + 1) (size.toNat - g.length)) = []
      · rw [if_pos hs]; trivial
      · rw [if_neg hs]; trivial
    case writing.write p l q d => cases l <;> simp only [ps] <;> trivial
    case appending.append l q d => cases l <;> simp only [ps] <;> trivial
    case done.read => simp only [hp]; trivial
    case done.write => simp only [hp]; trivial
    case done.append => simp only [hp]; trivial
  · rw [pc_step _ _ hj]; exact h j

/-- An invariant of all steps holds after all schedules. -/
private theorem run_inv {I : State → Prop} {ok : Nat × Nat → Prop} (h : ∀ s k n, ok (k, n) → I s → I (s.step k n)) (events : List (Nat × Nat)) :
    ∀ s : State, (∀ e ∈ events, ok e) → I s → I (s.run events) := by
  induction events with
  | nil => intro s _ hs; exact hs
  | cons e es ih =>
    intro s hok hs
    exact ih _ (fun e' h' => hok e' (by simp [h'])) (h s e.1 e.2 (hok e (by simp)) hs)

private theorem job_run (events : List (Nat × Nat)) (s : State) : (s.run events).job = s.job :=
  run_inv (I := fun t => t.job = s.job) (ok := fun _ => True) (fun t k n _ h => by rw [job_step, h]) events s (fun _ _ => trivial) rfl

/-- C78: a file is changed by calls for its own path only, and never by `read`. -/
theorem C78_frame (s : State) (p : Nat) (events : List (Nat × Nat)) (h : ∀ e ∈ events, (s.job e.1).path ≠ p ∨ ∃ size, s.job e.1 = .read p size) : (s.run events).file p = s.file p := by
  have := run_inv (I := fun t => t.job = s.job ∧ t.file p = s.file p) (ok := fun e => (s.job e.1).path ≠ p ∨ ∃ size, s.job e.1 = .read p size) (by
    intro t k n hok ⟨h1, h2⟩
    refine ⟨by rw [job_step, h1], ?_⟩
    rcases hok with hok | ⟨size, hok⟩
    · rw [file_step _ _ _ (by rw [h1]; exact fun e => hok e.symm), h2]
    · rw [read_step t k n p size (by rw [h1]; exact hok), h2]) events s h ⟨rfl, rfl⟩
  exact this.2

/-! ### one call at a time -/

theorem overlay_end (c d : Bytes) : overlay c c.length d = c ++ d := by
  simp [overlay]

/-- C78: a call of `write` that no other call interrupts leaves the file with exactly its data, whatever was there before. -/
theorem C78_write_alone (s : State) (k p : Nat) (d : Bytes) (hj : s.job k = .write p d) (hk : s.pc k = .ready) (events : List (Nat × Nat)) (he : ∀ e ∈ events, e.1 = k)
    (hdone : (s.run events).returned k) : (s.run events).file p = some d ∧ (s.run events).pc k = .done (.ok []) := by
  have := run_inv (I := fun t => t.job = s.job ∧ (t.pc k = .ready ∨ (∃ pos left, t.pc k = .writing pos left ∧ t.file p = some (d.take pos) ∧ left = d.drop pos ∧ pos ≤ d.length) ∨
      (t.pc k = .done (.ok []) ∧ t.file p = some d))) (ok := fun e => e.1 = k) (by
    intro t k' n hok ⟨h1, h2⟩
    have hok : k' = k := hok
    subst hok
    refine ⟨by rw [job_step, h1], ?_⟩
    rw [← h1] at hj
    rcases h2 with h2 | ⟨pos, left, h2, h3, h4, h5⟩ | ⟨h2, h3⟩
    · right; left
      refine ⟨0, d, ?_⟩
      simp [State.step, h2, hj, ps]
    · cases left with
      | nil =>
        right; right
        simp only [State.step, h2, hj, ps]
        refine ⟨trivial, ?_⟩
        have : d.length ≤ pos := by have := congrArg List.length h4; simp at this; omega
        rw [h3, List.take_of_length_le this]
      | cons x l =>
        right; left
        refine ⟨pos + ((x :: l).take (n + 1)).length, (x :: l).drop (n + 1), by simp only [State.step, h2, hj, ps], ?_, ?_, ?_⟩
        · simp only [State.step, h2, hj, ps, State.content, h3, Option.getD_some]
          have hl : (d.take pos).length = pos := by simp; omega
          have := overlay_end (d.take pos) ((x :: l).take (n + 1))
          rw [hl] at this
          have h6 : d.take (pos + ((x :: l).take (n + 1)).length) = d.take pos ++ (x :: l).take (n + 1) := by
            rw [List.take_add, ← h4, List.length_take, ← List.take_take, List.take_length]
          rw [this, h6]
        · rw [h4, List.drop_drop, List.length_take, List.length_drop]
          by_cases hh : n + 1 ≤ d.length - pos
          · rw [Nat.min_eq_left hh]
          · rw [Nat.min_eq_right (by omega), List.drop_eq_nil_of_le (by omega), List.drop_eq_nil_of_le (by omega)]
        · rw [h4, List.length_take, List.length_drop]; omega
    · right; right
      have hs : t.step k' n = t := by simp [State.step, h2]
      rw [hs]; exact ⟨h2, h3⟩) events s he ⟨rfl, .inl hk⟩
  obtain ⟨r, hr⟩ := hdone
  rcases this.2 with h | ⟨_, _, h, _⟩ | h
  · rw [h] at hr; cases hr
  · rw [h] at hr; cases hr
  · exact ⟨h.2, h.1⟩

/-- C78: a call of `append` that no other call interrupts adds exactly its data to the end of the file. A file that does not exist is created. -/
theorem C78_append_alone (s : State) (k p : Nat) (d : Bytes) (hj : s.job k = .append p d) (hk : s.pc k = .ready) (events : List (Nat × Nat)) (he : ∀ e ∈ events, e.1 = k)
    (hdone : (s.run events).returned k) : (s.run events).file p = some ((s.file p).getD [] ++ d) ∧ (s.run events).pc k = .done (.ok []) := by
  have := run_inv (I := fun t => t.job = s.job ∧ ((t.pc k = .ready ∧ t.file p = s.file p) ∨ (∃ front left, t.pc k = .appending left ∧ t.file p = some ((s.file p).getD [] ++ front) ∧ front ++ left = d) ∨
      (t.pc k = .done (.ok []) ∧ t.file p = some ((s.file p).getD [] ++ d)))) (ok := fun e => e.1 = k) (by
    intro t k' n hok ⟨h1, h2⟩
    have hok : k' = k := hok
    subst hok
    refine ⟨by rw [job_step, h1], ?_⟩
    rw [← h1] at hj
    rcases h2 with ⟨h2, h3⟩ | ⟨front, left, h2, h3, h4⟩ | ⟨h2, h3⟩
    · right; left
      refine ⟨[], d, ?_⟩
      simp [State.step, h2, hj, ps, State.content, h3]
    · cases left with
      | nil =>
        right; right
        simp only [State.step, h2, hj, ps]
        refine ⟨trivial, ?_⟩
        rw [h3, ← h4, List.append_nil]
      | cons x l =>
        right; left
        refine ⟨front ++ (x :: l).take (n + 1), (x :: l).drop (n + 1), by simp only [State.step, h2, hj, ps], ?_, ?_⟩
        · simp only [State.step, h2, hj, ps, State.content, h3, Option.getD_some, List.append_assoc]
        · rw [List.append_assoc, List.take_append_drop, h4]
    · right; right
      have hs : t.step k' n = t := by simp [State.step, h2]
      rw [hs]; exact ⟨h2, h3⟩) events s he ⟨rfl, .inl ⟨hk, rfl⟩⟩
  obtain ⟨r, hr⟩ := hdone
  rcases this.2 with h | ⟨_, _, h, _⟩ | h
  · rw [h.1] at hr; cases hr
  · rw [h] at hr; cases hr
  · exact ⟨h.2, h.1⟩

/-- How many steps a writing call still makes at most. -/
private def rank (d : Bytes) : Pc → Nat
  | .ready => d.length + 2
  | .writing _ left => left.length + 1
  | .appending left => left.length + 1
  | .reading _ => 0
  | .done _ => 0

/-- C78: `write` and `append` return, whatever the other calls do, after at most one step for each byte and two more. -/
theorem C78_returns (s : State) (hs : Begin s) (k : Nat) (hj : ∀ p size, s.job k ≠ .read p size) (events : List (Nat × Nat))
    (hn : (s.job k).data.length + 2 ≤ (events.filter (·.1 = k)).length) : (s.run events).returned k := by
  have main : ∀ (events : List (Nat × Nat)) (t : State), t.job = s.job → (∀ j, Fits (t.job j) (t.pc j)) → rank (s.job k).data (t.pc k) ≤ (events.filter (·.1 = k)).length →
      (t.run events).returned k := by
    intro events
    induction events with
    | nil =>
      intro t h1 h2 h3
      have hf := h2 k
      rw [h1] at hf
      simp only [List.filter_nil, List.length_nil] at h3
      show t.returned k
      cases hp : t.pc k with
      | done r => exact ⟨r, hp⟩
      | reading g =>
        cases hjob : s.job k with
        | read p size => exact absurd hjob (hj p size)
        | _ => rw [hp, hjob] at hf; cases hf
      | _ => rw [hp] at h3; simp [rank] at h3
    | cons e es ih =>
      intro t h1 h2 h3
      obtain ⟨k', n⟩ := e
      refine ih (t.step k' n) (by rw [job_step, h1]) (fits_step h2 k' n) ?_
      by_cases hk : k' = k
      · subst hk
        simp only [decide_true, List.filter_cons_of_pos, List.length_cons] at h3
        have hf := h2 k'
        rw [h1] at hf
        unfold State.step
        rw [h1]
        cases hp : t.pc k' <;> cases hjob : s.job k' <;> rw [hp, hjob] at hf <;> simp only [Fits] at hf <;> rw [hp, hjob] at h3 <;> simp only [rank, Job.data] at h3
        case ready.read p size => exact absurd hjob (hj p size)
        case reading.read p size => exact absurd hjob (hj p size)
        case ready.write => simp only [ps, rank]; omega
        case ready.append => simp only [ps, rank]; omega
        case writing.write p l q d =>
          cases l with
          | nil => simp [ps, rank]
          | cons x l => simp only [ps, rank, List.length_drop, List.length_cons] at h3 ⊢; omega
        case appending.append l q d =>
          cases l with
          | nil => simp [ps, rank]
          | cons x l => simp only [ps, rank, List.length_drop, List.length_cons] at h3 ⊢; omega
        case done.read => simp [hp, rank]
        case done.write => simp [hp, rank]
        case done.append => simp [hp, rank]
      · rw [pc_step _ _ (Ne.symm hk)]
        simpa [hk] using h3
  refine main events s rfl (fun j => by rw [hs j]; cases s.job j <;> trivial) ?_
  rw [hs k]
  exact hn

/-! ### appends at once -/

private theorem append_content {s : State} {p : Nat} (ha : AppendOnly s.job p) (k n : Nat) :
    (∃ d front left, s.job k = .append p d ∧ s.pc k = .appending (front ++ left) ∧ front ≠ [] ∧ (s.step k n).pc k = .appending left ∧ front = (front ++ left).take (n + 1) ∧
      (s.step k n).file p = some (s.content p ++ front)) ∨
    (∃ d, s.job k = .append p d ∧ s.pc k = .ready ∧ (s.step k n).pc k = .appending d ∧ (s.step k n).content p = s.content p) ∨
    (∃ d, s.job k = .append p d ∧ s.pc k = .appending [] ∧ (s.step k n).pc k = .done (.ok []) ∧ (s.step k n).content p = s.content p) ∨
    ((s.step k n).content p = s.content p ∧ ((s.step k n).pc k = s.pc k ∨ ∀ d, s.job k ≠ .append p d)) := by
  by_cases hp : p = (s.job k).path
  · cases hj : s.job k with
    | read q size =>
      exact .inr (.inr (.inr ⟨by unfold State.content; rw [read_step s k n q size hj], .inr (by simp)⟩))
    | write q d =>
      rw [hj] at hp
      have hp : p = q := hp
      subst hp
      exact absurd hj (ha k d)
    | append q d =>
      rw [hj] at hp
      have hp : p = q := hp
      subst hp
      cases hpc : s.pc k with
      | ready =>
        refine .inr (.inl ⟨d, rfl, rfl, ?_, ?_⟩)
        · simp [State.step, hpc, hj, ps]
        · simp [State.step, hpc, hj, ps, State.content]
      | appending left =>
        cases left with
        | nil =>
          refine .inr (.inr (.inl ⟨d, rfl, rfl, ?_, ?_⟩))
          · simp [State.step, hpc, hj, ps]
          · simp [State.step, hpc, hj, State.content]
        | cons x l =>
          refine .inl ⟨d, (x :: l).take (n + 1), (x :: l).drop (n + 1), rfl, by rw [List.take_append_drop], by simp, ?_, by rw [List.take_append_drop], ?_⟩
          · simp [State.step, hpc, hj, ps]
          · simp [State.step, hpc, hj, ps]
      | reading g => exact .inr (.inr (.inr (by simp [State.step, hpc, hj])))
      | writing a b => exact .inr (.inr (.inr (by simp [State.step, hpc, hj])))
      | done r => exact .inr (.inr (.inr (by simp [State.step, hpc])))
  · refine .inr (.inr (.inr ⟨by unfold State.content; rw [file_step _ _ _ hp], .inr ?_⟩))
    intro d hd
    rw [hd] at hp
    exact hp rfl

/-- C78: if a path is only appended to, by any number of calls at once, and each system call writes all it is asked to write, then at every moment the file is what it was before, followed by
the data of some of the calls, each whole and once; the data of calls that have returned are there. -/
theorem C78_append_whole (s : State) (hs : Begin s) (p : Nat) (ha : AppendOnly s.job p) (events : List (Nat × Nat)) (hw : Whole s.job events) :
    ∃ order : List Nat, order.Nodup ∧ (∀ k ∈ order, ∃ d, s.job k = .append p d) ∧ (∀ k d, s.job k = .append p d → (s.run events).returned k → k ∈ order) ∧
      (s.run events).content p = s.content p ++ order.flatMap fun k => (s.job k).data := by
  have := run_inv (I := fun t => t.job = s.job ∧ ∃ order : List Nat, order.Nodup ∧ (∀ k ∈ order, ∃ d, s.job k = .append p d) ∧
      (∀ k d, s.job k = .append p d → (k ∈ order ∧ (t.pc k = .appending [] ∨ t.pc k = .done (.ok []))) ∨ (k ∉ order ∧ (t.pc k = .ready ∨ t.pc k = .appending d))) ∧
      t.content p = s.content p ++ order.flatMap fun k => (s.job k).data) (ok := fun e => (s.job e.1).data.length ≤ e.2 + 1) (by
    intro t k n hok ⟨h1, order, hnd, hmem, hpc, hc⟩
    have hok : (s.job k).data.length ≤ n + 1 := hok
    refine ⟨by rw [job_step, h1], ?_⟩
    rcases append_content (by rw [h1]; exact ha) k n with ⟨d, front, left, e1, e2, e3, e4, e5, e6⟩ | ⟨d, e1, e2, e3, e4⟩ | ⟨d, e1, e2, e3, e4⟩ | ⟨e1, e2⟩
    · rw [h1] at e1
      have hk : k ∉ order ∧ front ++ left = d := by
        rcases hpc k d e1 with ⟨_, h | h⟩ | ⟨h0, h | h⟩
        · rw [e2] at h; injection h with h; simp at h; exact absurd h.1 e3
        · rw [e2] at h; cases h
        · rw [e2] at h; cases h
        · rw [e2] at h; injection h with h; exact ⟨h0, h⟩
      have hlen : d.length ≤ n + 1 := by rw [e1] at hok; exact hok
      have hfront : front = d := by rw [e5, hk.2, List.take_of_length_le hlen]
      have hleft : left = [] := by have := hk.2; rw [hfront] at this; simpa using this
      refine ⟨order ++ [k], ?_, ?_, ?_, ?_⟩
      · rw [List.nodup_append]
        exact ⟨hnd, by simp, fun a ha b hb => by simp at hb; subst hb; exact fun e => hk.1 (e ▸ ha)⟩
      · intro j hj
        rcases List.mem_append.1 hj with hj | hj
        · exact hmem j hj
        · simp at hj; subst hj; exact ⟨d, e1⟩
      · intro j d' hj
        by_cases hjk : j = k
        · subst hjk
          exact .inl ⟨by simp, .inl (by rw [e4, hleft])⟩
        · rw [pc_step _ _ hjk]
          rcases hpc j d' hj with ⟨h, h'⟩ | ⟨h, h'⟩
          · exact .inl ⟨by simp [h], h'⟩
          · exact .inr ⟨by simp [h, hjk], h'⟩
      · rw [State.content, e6, Option.getD_some, hc, hfront]
        simp [e1, Job.data]
    · rw [h1] at e1
      refine ⟨order, hnd, hmem, ?_, by rw [e4, hc]⟩
      intro j d' hj
      by_cases hjk : j = k
      · subst hjk
        rw [e1] at hj
        injection hj with _ hj
        subst hj
        rcases hpc j d e1 with ⟨_, h | h⟩ | ⟨h0, _⟩
        · rw [e2] at h; cases h
        · rw [e2] at h; cases h
        · exact .inr ⟨h0, .inr e3⟩
      · rw [pc_step _ _ hjk]; exact hpc j d' hj
    · rw [h1] at e1
      by_cases hin : k ∈ order
      · refine ⟨order, hnd, hmem, ?_, by rw [e4, hc]⟩
        intro j d' hj
        by_cases hjk : j = k
        · subst hjk
          exact .inl ⟨hin, .inr e3⟩
        · rw [pc_step _ _ hjk]; exact hpc j d' hj
      · have hd : d = [] := by
          rcases hpc k d e1 with ⟨h, _⟩ | ⟨_, h | h⟩
          · exact absurd h hin
          · rw [e2] at h; cases h
          · rw [e2] at h; injection h with h; exact h.symm
        refine ⟨order ++ [k], ?_, ?_, ?_, ?_⟩
        · rw [List.nodup_append]
          exact ⟨hnd, by simp, fun a ha b hb => by simp at hb; subst hb; exact fun e => hin (e ▸ ha)⟩
        · intro j hj
          rcases List.mem_append.1 hj with hj | hj
          · exact hmem j hj
          · simp at hj; subst hj; exact ⟨d, e1⟩
        · intro j d' hj
          by_cases hjk : j = k
          · subst hjk
            exact .inl ⟨by simp, .inr e3⟩
          · rw [pc_step _ _ hjk]
            rcases hpc j d' hj with ⟨h, h'⟩ | ⟨h, h'⟩
            · exact .inl ⟨by simp [h], h'⟩
            · exact .inr ⟨by simp [h, hjk], h'⟩
        · rw [e4, hc]
          simp [e1, Job.data, hd]
    · refine ⟨order, hnd, hmem, ?_, by rw [e1, hc]⟩
      intro j d' hj
      by_cases hjk : j = k
      · subst hjk
        rcases e2 with e2 | e2
        · rw [e2]; exact hpc j d' hj
        · rw [h1] at e2; exact absurd hj (e2 d')
      · rw [pc_step _ _ hjk]; exact hpc j d' hj) events s hw ⟨rfl, [], by simp, by simp, fun k d _ => .inr ⟨by simp, .inl (hs k)⟩, by simp⟩
  obtain ⟨_, order, h1, h2, h3, h4⟩ := this
  refine ⟨order, h1, h2, ?_, h4⟩
  intro k d hj ⟨r, hr⟩
  rcases h3 k d hj with ⟨h, _⟩ | ⟨_, h | h⟩
  · exact h
  · rw [hr] at h; cases h
  · rw [hr] at h; cases h

/-- C78: also if system calls write only parts, no byte of an append is lost, doubled, or out of order: each byte that was added belongs to one of the calls, and the bytes of each call, in the
order of the file, are the beginning of its data, or all of it if the call has returned. -/
theorem C78_append_bytes (s : State) (hs : Begin s) (p : Nat) (ha : AppendOnly s.job p) (events : List (Nat × Nat)) :
    ∃ added : List (Nat × UInt8), (s.run events).content p = s.content p ++ added.map (·.2) ∧ (∀ x ∈ added, ∃ d, s.job x.1 = .append p d) ∧
      ∀ k d, s.job k = .append p d → ((added.filter (·.1 = k)).map (·.2) <+: d) ∧ ((s.run events).returned k → (added.filter (·.1 = k)).map (·.2) = d) := by
  have := run_inv (I := fun t => t.job = s.job ∧ ∃ added : List (Nat × UInt8), t.content p = s.content p ++ added.map (·.2) ∧ (∀ x ∈ added, ∃ d, s.job x.1 = .append p d) ∧
      ∀ k d, s.job k = .append p d → (t.pc k = .ready ∧ (added.filter (·.1 = k)).map (·.2) = []) ∨ (∃ left, t.pc k = .appending left ∧ (added.filter (·.1 = k)).map (·.2) ++ left = d) ∨
        (∃ r, t.pc k = .done r ∧ (added.filter (·.1 = k)).map (·.2) = d)) (ok := fun _ => True) (by
    intro t k n _ ⟨h1, added, hc, hmem, hpc⟩
    refine ⟨by rw [job_step, h1], ?_⟩
    rcases append_content (by rw [h1]; exact ha) k n with ⟨d, front, left, e1, e2, e3, e4, e5, e6⟩ | ⟨d, e1, e2, e3, e4⟩ | ⟨d, e1, e2, e3, e4⟩ | ⟨e1, e2⟩
    · rw [h1] at e1
      refine ⟨added ++ front.map fun b => (k, b), ?_, ?_, ?_⟩
      · rw [State.content, e6, Option.getD_some, hc]
        simp [Function.comp_def]
      · intro x hx
        rcases List.mem_append.1 hx with hx | hx
        · exact hmem x hx
        · obtain ⟨b, _, rfl⟩ := List.mem_map.1 hx
          exact ⟨d, e1⟩
      · intro j d' hj
        by_cases hjk : j = k
        · subst hjk
          right; left
          refine ⟨left, e4, ?_⟩
          have hf : (front.map fun b => (j, b)).filter (·.1 = j) = front.map fun b => (j, b) := by rw [List.filter_eq_self]; simp
          rw [List.filter_append, hf]
          rcases hpc j d' hj with ⟨h, _⟩ | ⟨l, h, h'⟩ | ⟨r, h, _⟩
          · rw [e2] at h; cases h
          · rw [e2] at h; injection h with h
            rw [← h'.symm.symm, ← h]
            simp [Function.comp_def]
          · rw [e2] at h; cases h
        · have hf : (front.map fun b => (k, b)).filter (·.1 = j) = [] := by rw [List.filter_eq_nil_iff]; simp [Ne.symm hjk]
          rw [pc_step _ _ hjk, List.filter_append, hf, List.append_nil]
          exact hpc j d' hj
    · rw [h1] at e1
      refine ⟨added, by rw [e4, hc], hmem, ?_⟩
      intro j d' hj
      by_cases hjk : j = k
      · subst hjk
        rw [e1] at hj
        injection hj with _ hj
        subst hj
        right; left
        refine ⟨d, e3, ?_⟩
        rcases hpc j d e1 with ⟨_, h⟩ | ⟨l, h, _⟩ | ⟨r, h, _⟩
        · rw [h]; rfl
        · rw [e2] at h; cases h
        · rw [e2] at h; cases h
      · rw [pc_step _ _ hjk]; exact hpc j d' hj
    · rw [h1] at e1
      refine ⟨added, by rw [e4, hc], hmem, ?_⟩
      intro j d' hj
      by_cases hjk : j = k
      · subst hjk
        right; right
        refine ⟨_, e3, ?_⟩
        rcases hpc j d' hj with ⟨h, _⟩ | ⟨l, h, h'⟩ | ⟨r, h, _⟩
        · rw [e2] at h; cases h
        · rw [e2] at h; injection h with h
          rw [← h', ← h, List.append_nil]
        · rw [e2] at h; cases h
      · rw [pc_step _ _ hjk]; exact hpc j d' hj
    · refine ⟨added, by rw [e1, hc], hmem, ?_⟩
      intro j d' hj
      by_cases hjk : j = k
      · subst hjk
        rcases e2 with e2 | e2
        · rw [e2]; exact hpc j d' hj
        · rw [h1] at e2; exact absurd hj (e2 d')
      · rw [pc_step _ _ hjk]; exact hpc j d' hj) events s (fun _ _ => trivial) ⟨rfl, [], by simp, by simp, fun k d _ => .inl ⟨hs k, rfl⟩⟩
  obtain ⟨_, added, h1, h2, h3⟩ := this
  refine ⟨added, h1, h2, ?_⟩
  intro k d hj
  rcases h3 k d hj with ⟨h, h'⟩ | ⟨left, h, h'⟩ | ⟨r, h, h'⟩
  · exact ⟨by rw [h']; exact List.nil_prefix, fun ⟨r, hr⟩ => by rw [hr] at h; cases h⟩
  · exact ⟨⟨left, h'⟩, fun ⟨r, hr⟩ => by rw [hr] at h; cases h⟩
  · exact ⟨by rw [h']; exact List.prefix_rfl, fun _ => h'⟩

/-! ### readers -/

private theorem content_grows {s : State} {p : Nat} (ha : AppendOnly s.job p) (k n : Nat) : s.content p <+: (s.step k n).content p := by
  rcases append_content ha k n with ⟨d, front, left, e1, e2, e3, e4, e5, e6⟩ | ⟨d, e1, e2, e3, e4⟩ | ⟨d, e1, e2, e3, e4⟩ | ⟨e1, e2⟩
  · exact ⟨front, by rw [State.content.eq_def (s.step k n), e6, Option.getD_some]⟩
  · rw [e4]; exact List.prefix_rfl
  · rw [e4]; exact List.prefix_rfl
  · rw [e1]; exact List.prefix_rfl

/-- C78: a `read` of a file that is only appended to meanwhile returns the beginning of what the file holds at its end: at least what the file held when the call began, and at most `size` bytes
unless `size` is `-1`. -/
theorem C78_read (s : State) (k p : Nat) (size : Int) (hj : s.job k = .read p size) (hk : s.pc k = .ready) (hfile : s.file p ≠ none) (hsize : -1 ≤ size) (ha : AppendOnly s.job p)
    (events : List (Nat × Nat)) (r : Except Err Bytes) (hr : (s.run events).pc k = .done r) :
    ∃ b, r = .ok b ∧ b <+: (s.run events).content p ∧ (size = -1 → s.content p <+: b) ∧ (0 ≤ size → b.length ≤ size ∧ (s.content p).take size.toNat <+: b) := by
  have := run_inv (I := fun t => t.job = s.job ∧ t.file p ≠ none ∧ s.content p <+: t.content p ∧ (t.pc k = .ready ∨
      (∃ got, t.pc k = .reading got ∧ got <+: t.content p ∧ (0 ≤ size → got.length ≤ size)) ∨
      (∃ b, t.pc k = .done (.ok b) ∧ b <+: t.content p ∧ (size = -1 → s.content p <+: b) ∧ (0 ≤ size → b.length ≤ size ∧ (s.content p).take size.toNat <+: b)))) (ok := fun _ => True) (by
    intro t k' n _ ⟨h1, h2, h3, h4⟩
    have hg := content_grows (s := t) (p := p) (by rw [h1]; exact ha) k' n
    have hne : (t.step k' n).file p ≠ none := by
      by_cases hp : p = (t.job k').path
      · unfold State.step
        split <;> rename_i e1 e2 <;> (try rw [e2] at hp) <;> (try split) <;> simp_all [Job.path, put]
      · rw [file_step _ _ _ hp]; exact h2
    refine ⟨by rw [job_step, h1], hne, h3.trans hg, ?_⟩
    by_cases hkk : k = k'
    · subst hkk
      have hfs : (t.step k n).content p = t.content p := by unfold State.content; rw [read_step t k n p size (by rw [h1]; exact hj)]
      rw [hfs]
      rcases h4 with h4 | ⟨got, h4, h5, h6⟩ | ⟨b, h4, h5⟩
      · right; left
        refine ⟨[], ?_, List.nil_prefix, fun h => by simpa using h⟩
        obtain ⟨c, hc⟩ := Option.ne_none_iff_exists'.1 h2
        simp only [State.step, h4, h1, hj, hc, ps]
        rw [if_neg (by omega)]
      · obtain ⟨rest, hrest⟩ := h5
        have hdrop : (t.content p).drop got.length = rest := by rw [← hrest, List.drop_left]
        by_cases hchunk : rest.take (if size < 0 then n + 1 else min (n + 1) (size.toNat - got.length)) = []
        · right; right
          refine ⟨got, ?_, ⟨rest, hrest⟩, ?_, ?_⟩
          · simp only [State.step, h4, h1, hj, ps, hdrop, hchunk, if_true]
          · intro hs
            rw [if_pos (by omega)] at hchunk
            have : rest = [] := by cases rest with
              | nil => rfl
              | cons x l => simp at hchunk
            subst this
            rw [List.append_nil] at hrest
            rw [hrest]; exact h3
          · intro hs
            refine ⟨h6 hs, ?_⟩
            rw [if_neg (by omega)] at hchunk
            cases rest with
            | nil =>
              rw [List.append_nil] at hrest
              rw [hrest]
              exact (List.take_prefix _ _).trans h3
            | cons x l =>
              have hlen : size.toNat - got.length = 0 := by
                rcases Nat.eq_zero_or_pos (size.toNat - got.length) with h | h
                · exact h
                · exfalso
                  obtain ⟨m, hm⟩ : ∃ m, min (n + 1) (size.toNat - got.length) = m + 1 := ⟨min (n + 1) (size.toNat - got.length) - 1, by omega⟩
                  rw [hm] at hchunk
                  simp at hchunk
              have heq : got.length = size.toNat := by have := h6 hs; omega
              obtain ⟨more, hmore⟩ := h3
              have h7 : (s.content p).take size.toNat <+: t.content p := (List.take_prefix _ _).trans ⟨more, hmore⟩
              exact List.prefix_of_prefix_length_le h7 ⟨_, hrest⟩ (by rw [List.length_take]; omega)
        · right; left
          refine ⟨got ++ rest.take (if size < 0 then n + 1 else min (n + 1) (size.toNat - got.length)), ?_, ?_, ?_⟩
          · simp only [State.step, h4, h1, hj, ps, hdrop, hchunk, if_false]
          · refine ⟨rest.drop (if size < 0 then n + 1 else min (n + 1) (size.toNat - got.length)), ?_⟩
            rw [List.append_assoc, List.take_append_drop, hrest]
          · intro hs
            have := h6 hs
            rw [List.length_append, List.length_take, if_neg (by omega)]
            omega
      · right; right
        have hst : t.step k n = t := by simp [State.step, h4]
        rw [hst]; exact ⟨b, h4, h5⟩
    · rw [pc_step _ _ hkk]
      rcases h4 with h4 | ⟨got, h4, h5, h6⟩ | ⟨b, h4, h5, h6⟩
      · exact .inl h4
      · exact .inr (.inl ⟨got, h4, h5.trans hg, h6⟩)
      · exact .inr (.inr ⟨b, h4, h5.trans hg, h6⟩)) events s (fun _ _ => trivial) ⟨rfl, hfile, List.prefix_rfl, .inl hk⟩
  obtain ⟨_, _, _, h | ⟨g, h, _⟩ | ⟨b, h, h'⟩⟩ := this
  · rw [hr] at h; cases h
  · rw [hr] at h; cases h
  · rw [hr] at h; injection h with h; exact ⟨b, h, h'⟩

/-- C78: the first step of a `read` raises if the file does not exist, or if the size is negative and not `-1`. -/
theorem C78_read_raises (s : State) (k n p : Nat) (size : Int) (hj : s.job k = .read p size) (hk : s.pc k = .ready) :
    (s.file p = none → (s.step k n).pc k = .done (.error .fileNotFound)) ∧ (s.file p ≠ none → size < -1 → (s.step k n).pc k = .done (.error .value)) := by
  constructor
  · intro h; simp [State.step, hk, hj, h, ps]
  · intro h hs
    obtain ⟨c, hc⟩ := Option.ne_none_iff_exists'.1 h
    simp [State.step, hk, hj, hc, ps, hs]

/-! ### writes at once -/

/-- C78: calls of `write` at once, all with data of the same positive size, each written by one system call: at every moment the file is as it was, and then no call has returned; or it holds the data of
one of the calls; or it is empty, while a call is under way. -/
theorem C78_write_same_size_partial (s : State) (hs : Begin s) (p size : Nat) (hsize : 0 < size) (hjobs : ∀ k d, s.job k = .write p d → d.length = size) (happend : ∀ k d, s.job k ≠ .append p d)
    (events : List (Nat × Nat)) (hw : Whole s.job events) :
    let t := s.run events
    (t.file p = s.file p ∧ ∀ k d, s.job k = .write p d → ¬ t.returned k) ∨ (∃ k d, s.job k = .write p d ∧ t.file p = some d) ∨
      (t.file p = some [] ∧ ∃ k d, s.job k = .write p d ∧ t.pc k ≠ .ready ∧ ¬ t.returned k) := by
  intro t
  have := run_inv (I := fun t => t.job = s.job ∧ (∀ k d, s.job k = .write p d → t.pc k = .ready ∨ t.pc k = .writing 0 d ∨ t.pc k = .writing size [] ∨ t.pc k = .done (.ok [])) ∧
      ((t.file p = s.file p ∧ ∀ k d, s.job k = .write p d → t.pc k = .ready) ∨ (∃ k d, s.job k = .write p d ∧ t.file p = some d) ∨ (t.file p = some [] ∧ ∃ k d, s.job k = .write p d ∧ t.pc k = .writing 0 d)))
      (ok := fun e => (s.job e.1).data.length ≤ e.2 + 1) (by
    intro t k n hok ⟨h1, h2, h3⟩
    have hok : (s.job k).data.length ≤ n + 1 := hok
    refine ⟨by rw [job_step, h1], ?_⟩
    by_cases hp : ∃ d, s.job k = .write p d
    · obtain ⟨d, hd⟩ := hp
      have hlen := hjobs k d hd
      have hpos : d ≠ [] := by intro e; subst e; simp at hlen; omega
      have hle : d.length ≤ n + 1 := by rw [hd] at hok; exact hok
      have other : ∀ (q : Pc), (t.step k n).pc k = q → (q = .ready ∨ q = .writing 0 d ∨ q = .writing size [] ∨ q = .done (.ok [])) →
          ∀ j d', s.job j = .write p d' → (t.step k n).pc j = .ready ∨ (t.step k n).pc j = .writing 0 d' ∨ (t.step k n).pc j = .writing size [] ∨ (t.step k n).pc j = .done (.ok []) := by
        intro q hq hq' j d' hj
        by_cases hjk : j = k
        · subst hjk
          rw [hd] at hj
          injection hj with _ hj
          subst hj
          rw [hq]; exact hq'
        · rw [pc_step _ _ hjk]; exact h2 j d' hj
      rcases h2 k d hd with h | h | h | h
      · have hpc : (t.step k n).pc k = .writing 0 d := by simp [State.step, h, h1, hd, ps]
        refine ⟨other _ hpc (by simp), .inr (.inr ⟨?_, k, d, hd, hpc⟩)⟩
        simp [State.step, h, h1, hd, ps]
      · obtain ⟨x, l, hxl⟩ : ∃ x l, d = x :: l := by cases d with
          | nil => exact absurd rfl hpos
          | cons x l => exact ⟨x, l, rfl⟩
        have hst : t.step k n = { t with file := put t.file p (some (overlay (t.content p) 0 d)), pc := put t.pc k (.writing size []) } := by
          have e1 : d.take (n + 1) = d := List.take_of_length_le hle
          have e2 : d.drop (n + 1) = [] := List.drop_eq_nil_of_le hle
          subst hxl
          simp only [State.step, h, h1, hd, e1, e2, hlen, Nat.zero_add]
        refine ⟨other (.writing size []) (by rw [hst]; simp only [ps]) (by simp), .inr (.inl ⟨k, d, hd, ?_⟩)⟩
        rw [hst]
        simp only [ps]
        congr 1
        have hcl : (t.content p).length ≤ d.length := by
          rcases h3 with ⟨_, h3⟩ | ⟨j, d', hj, h3⟩ | ⟨h3, _⟩
          · have := h3 k d hd
            rw [h] at this; cases this
          · rw [State.content, h3, Option.getD_some, hlen, hjobs j d' hj]
            exact Nat.le_refl _
          · rw [State.content, h3]; simp
        simp [overlay, List.drop_eq_nil_of_le hcl]
      · have hst : t.step k n = { t with pc := put t.pc k (.done (.ok [])) } := by simp only [State.step, h, h1, hd]
        refine ⟨other (.done (.ok [])) (by rw [hst]; simp only [ps]) (by simp), ?_⟩
        rcases h3 with ⟨_, h3⟩ | h3 | ⟨h3, j, d', hj, hj'⟩
        · have := h3 k d hd
          rw [h] at this; cases this
        · right; left; rw [hst]; exact h3
        · right; right
          refine ⟨by rw [hst]; exact h3, j, d', hj, ?_⟩
          rw [pc_step, hj']
          intro e; subst e
          rw [h] at hj'
          injection hj' with e1 _
          omega
      · have hst : t.step k n = t := by simp [State.step, h]
        rw [hst]; exact ⟨h2, h3⟩
    · have hfile : (t.step k n).file p = t.file p := by
        by_cases hpath : (s.job k).path = p
        · cases hj : s.job k with
          | read q z => rw [read_step t k n q z (by rw [h1, hj])]
          | write q d => rw [hj] at hpath; have : q = p := hpath; subst this; exact absurd ⟨d, hj⟩ hp
          | append q d => rw [hj] at hpath; have : q = p := hpath; subst this; exact absurd hj (happend k d)
        · exact file_step _ _ _ (by rw [h1]; exact fun e => hpath e.symm)
      have hne : ∀ j d, s.job j = .write p d → j ≠ k := fun j d hj e => hp ⟨d, e ▸ hj⟩
      refine ⟨?_, ?_⟩
      · intro j d' hj
        rw [pc_step _ _ (hne j d' hj)]; exact h2 j d' hj
      · rw [hfile]
        rcases h3 with ⟨h3, h4⟩ | h3 | ⟨h3, j, d', hj, hj'⟩
        · exact .inl ⟨h3, fun j d' hj => by rw [pc_step _ _ (hne j d' hj)]; exact h4 j d' hj⟩
        · exact .inr (.inl h3)
        · exact .inr (.inr ⟨h3, j, d', hj, by rw [pc_step _ _ (hne j d' hj)]; exact hj'⟩)) events s hw
    ⟨rfl, fun k d _ => .inl (hs k), .inl ⟨rfl, fun k _ _ => hs k⟩⟩
  obtain ⟨_, h2, ⟨h3, h4⟩ | h3 | ⟨h3, j, d, hj, hj'⟩⟩ := this
  · refine .inl ⟨h3, fun k d hk ⟨r, hr⟩ => ?_⟩
    have := h4 k d hk
    rw [hr] at this; cases this
  · exact .inr (.inl h3)
  · refine .inr (.inr ⟨h3, j, d, hj, by rw [hj']; simp, fun ⟨r, hr⟩ => ?_⟩)
    rw [hj'] at hr; cases hr

/-- Two calls of `write` for one path, and calls of `read`. -/
private def two (old : Option Bytes) (a b : Bytes) : State where
  file _ := old
  job
    | 0 => .write 0 a
    | 1 => .write 0 b
    | _ => .read 0 (-1)

/-- C78: writes at once of different sizes may leave a mixture: for all data, the second shorter than the first, both calls return and the file begins with the one and ends with the rest of the other. -/
theorem C78_write_mixed (old : Option Bytes) (a b : Bytes) (hb : b ≠ []) (hlen : b.length < a.length) (hpre : ¬ b <+: a) :
    ∃ (s : State) (events : List (Nat × Nat)), Begin s ∧ s.file 0 = old ∧ s.job 0 = .write 0 a ∧ s.job 1 = .write 0 b ∧ Whole s.job events ∧ (s.run events).returned 0 ∧ (s.run events).returned 1 ∧
      ∃ c, (s.run events).file 0 = some c ∧ c = b ++ a.drop b.length ∧ c ≠ a ∧ c ≠ b := by
  refine ⟨two old a b, [(0, a.length), (1, b.length), (0, a.length), (1, b.length), (0, a.length), (1, b.length)], fun _ => rfl, rfl, rfl, rfl, ?_, ?_⟩
  · intro e he
    simp only [List.mem_cons, List.not_mem_nil, or_false] at he
    rcases he with rfl | rfl | rfl | rfl | rfl | rfl <;> simp [two, Job.data]
  · obtain ⟨x, l, rfl⟩ : ∃ x l, a = x :: l := by cases a with
      | nil => simp at hlen
      | cons x l => exact ⟨x, l, rfl⟩
    obtain ⟨y, m, rfl⟩ : ∃ y m, b = y :: m := by cases b with
      | nil => exact absurd rfl hb
      | cons y m => exact ⟨y, m, rfl⟩
    have h1 : l.drop (l.length + 1) = [] := List.drop_eq_nil_of_le (by omega)
    have h2 : m.drop (m.length + 1) = [] := List.drop_eq_nil_of_le (by omega)
    have h3 : l.take (l.length + 1) = l := List.take_of_length_le (by omega)
    have h4 : m.take (m.length + 1) = m := List.take_of_length_le (by omega)
    refine ⟨⟨.ok [], ?_⟩, ⟨.ok [], ?_⟩, (y :: m) ++ (x :: l).drop (y :: m).length, ?_, rfl, ?_, ?_⟩
    · simp [State.run, State.step, two, put, State.content, h1, h2, h3, h4]
    · simp [State.run, State.step, two, put, State.content, h1, h2, h3, h4]
    · simp [State.run, State.step, two, put, State.content, overlay, h1, h2, h3, h4]
    · intro e
      exact hpre ⟨_, e⟩
    · intro e
      have := congrArg List.length e
      rw [List.length_append, List.length_drop] at this
      omega

/-- C78: `write` first empties the file: after a crash at this moment both the old content and the data are lost, and a `read` meanwhile returns nothing. -/
theorem C78_write_loses (old a b : Bytes) :
    ∃ (s : State) (events : List (Nat × Nat)), Begin s ∧ s.file 0 = some old ∧ s.job 0 = .write 0 a ∧ s.job 2 = .read 0 (-1) ∧ (∀ e ∈ events, e.1 = 0 ∨ e.1 = 2) ∧
      (s.run events).file 0 = some [] ∧ (s.run events).pc 2 = .done (.ok []) := by
  refine ⟨two (some old) a b, [(0, 0), (2, 0), (2, 0)], fun _ => rfl, rfl, rfl, rfl, by simp, ?_, ?_⟩
  · simp [State.run, State.step, two, put, State.content]
  · simp [State.run, State.step, two, put, State.content]

/-! ### examples -/

/-- Two appends to one file and a read of it. -/
private def s₀ : State where
  file
    | 0 => some [1]
    | _ => none
  job
    | 0 => .append 0 [2, 3, 4]
    | 1 => .append 0 [5]
    | _ => .read 0 2

private theorem only₀ : AppendOnly s₀.job 0 := by
  intro k d
  match k with
  | 0 => simp [s₀]
  | 1 => simp [s₀]
  | k + 2 => simp [s₀]

example : (s₀.run [(0, 2), (1, 2), (1, 2), (0, 2), (2, 9), (0, 2), (2, 9), (2, 9)]).content 0 = [1, 5, 2, 3, 4] := rfl

example : ∃ order : List Nat, order.Nodup ∧ 0 ∈ order ∧ ([1, 5, 2, 3, 4] : Bytes) = [1] ++ order.flatMap fun k => (s₀.job k).data := by
  obtain ⟨order, h1, _, h3, h4⟩ := C78_append_whole s₀ (fun _ => rfl) 0 only₀ [(0, 2), (1, 2), (1, 2), (0, 2), (2, 9), (0, 2), (2, 9), (2, 9)] (by unfold Whole; decide)
  exact ⟨order, h1, h3 0 [2, 3, 4] rfl ⟨.ok [], rfl⟩, h4⟩

-- torn system calls mix the bytes
example : (s₀.run [(0, 0), (1, 0), (0, 0), (1, 0), (0, 0), (0, 0)]).content 0 = [1, 2, 5, 3, 4] := rfl

example : ∃ b, (.ok [1, 5] : Except Err Bytes) = .ok b ∧ b <+: ([1, 5, 2, 3, 4] : Bytes) := by
  obtain ⟨b, h1, h2, _⟩ := C78_read s₀ 2 0 2 rfl rfl (by simp [s₀]) (by decide) only₀ [(0, 2), (1, 2), (1, 2), (0, 2), (2, 9), (0, 2), (2, 9), (2, 9)] (.ok [1, 5]) rfl
  exact ⟨b, h1, h2⟩

example : ¬ ([7] : Bytes) <+: [8, 9] := by decide

example (events : List (Nat × Nat)) (hw : Whole (two none [1, 2] [3, 4]).job events) (h : ((two none [1, 2] [3, 4]).run events).file 0 = some [1, 4]) : False := by
  rcases C78_write_same_size_partial (two none [1, 2] [3, 4]) (fun _ => rfl) 0 2 (by decide) (by
      intro k d hk
      match k, hk with
      | 0, hk => injection hk with _ hk; subst hk; rfl
      | 1, hk => injection hk with _ hk; subst hk; rfl) (by
      intro k d hk
      match k, hk with
      | 0, hk => cases hk
      | 1, hk => cases hk
      | k + 2, hk => cases hk) events hw with h' | ⟨k, d, hk, h'⟩ | h'
  · rw [h] at h'; exact absurd h'.1 (by simp [two])
  · rw [h] at h'
    match k, hk with
    | 0, hk => injection hk with _ hk; subst hk; simp at h'
    | 1, hk => injection hk with _ hk; subst hk; simp at h'
  · rw [h] at h'; simp at h'

end Aiootp.Files
