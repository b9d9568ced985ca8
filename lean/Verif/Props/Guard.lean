import Verif.Lemmas.GuardLive
import Verif.Lemmas.GuardTracker
import Verif.Lemmas.GuardMulti

/-! C33-C37: concurrency guards.

`exclusive g` tells whether the guard object `g` has the exclusive policy. A schedule is a list of events: one atomic
operation of a guard, someone entering a guard object a second time, the cancellation of a task that waits in the guard.
All theorems hold for every number of guards. -/

namespace Aiootp.Guard

/-! ### C33 -/

/-- C33: in every state that any schedule leads to, a guard that is inside of its block and exclusive is the only one that
is inside of its block. -/
theorem C33_mutual_exclusion (exclusive : Nat → Bool) (schedule : List Event) (g h : Nat) (hx : exclusive g = true)
    (hg : (State.init.run exclusive schedule).pc g = .run) (hh : (State.init.run exclusive schedule).pc h = .run) : g = h := by
  have hi := inv_reachable (x := exclusive) schedule
  cases hxh : exclusive h with
  | true =>
    have h1 := hi.queue.head g (by rw [hg, hx]; rfl)
    have h2 := hi.queue.head h (by rw [hh, hxh]; rfl)
    rw [h1] at h2
    exact Option.some.inj h2
  | false =>
    have := hi.alone g hx (by rw [hg]; rfl) h hxh
    rw [hh] at this
    simp [inN] at this

/-- C33: no guard ever finds the deques in an incoherent state (an empty deque, or someone else at its own place). -/
theorem C33_never_incoherent (exclusive : Nat → Bool) (schedule : List Event) (g : Nat) :
    (State.init.run exclusive schedule).pc g ≠ .broken := by
  intro h
  have := (inv_reachable (x := exclusive) schedule).fits g
  rw [h] at this
  cases exclusive g <;> simp [fits] at this

/-- Two monitors are inside of their blocks while an exclusive guard waits; then the exclusive guard is alone. -/
example :
    let x : Nat → Bool := fun g => g = 2
    let sched : List Event := [.step 0, .step 0, .step 1, .step 1, .step 0, .step 0, .step 0, .step 0, .step 1, .step 1, .step 1, .step 1,
      .step 2, .step 2, .step 2, .step 2, .step 2]
    let s := State.init.run x sched
    s.pc 0 = .run ∧ s.pc 1 = .run ∧ s.pc 2 = .check ∧
    let s2 := s.run x [.step 0, .step 0, .step 0, .step 1, .step 1, .step 1, .step 2, .step 2, .step 2]
    s2.pc 0 = .done ∧ s2.pc 1 = .done ∧ s2.pc 2 = .run := by decide +kernel

/-- A guard that was not entered was not entered twice. -/
theorem idle_clean (exclusive : Nat → Bool) (g : Nat) : ∀ (schedule : List Event) (s : State), (s.pc g = .idle → s.spoiled g = false) →
    (s.run exclusive schedule).pc g = .idle → (s.run exclusive schedule).spoiled g = false
  | [], _, h => h
  | e :: es, s, h => by
    refine idle_clean exclusive g es (s.next exclusive e) fun hp => ?_
    cases e with
    | step k =>
      simp only [State.next] at hp ⊢
      by_cases hk : g = k
      · subst hk
        simp only [if_true] at hp
        exfalso
        cases hpc : s.pc g <;> simp only [hpc, move] at hp <;> (repeat' split at hp) <;> simp at hp
      · simp only [hk, if_false] at hp
        exact h hp
    | reenter k =>
      simp only [State.next] at hp ⊢
      split at hp
      · rename_i hi
        rw [if_pos hi]
        exact h hp
      · rename_i hi
        rw [if_neg hi]
        simp only at hp ⊢
        split
        · rename_i hk
          subst hk
          exact absurd hp hi
        · exact h hp
    | cancel k =>
      simp only [State.next] at hp ⊢
      by_cases hk : g = k
      · subst hk
        simp only [if_true] at hp
        refine h ?_
        cases hpc : s.pc g <;> rw [hpc] at hp <;> simp [cancelled] at hp
      · simp only [hk, if_false] at hp
        exact h hp

/-- C33: monitors run together. If all guards that were entered are over, or are non-exclusive ones inside of their blocks, then a further non-exclusive guard gets into its block by itself,
however many there are: no one has to leave for it. -/
theorem C33_monitors_together (exclusive : Nat → Bool) (schedule : List Event) (g : Nat) (hx : exclusive g = false) (hg : (State.init.run exclusive schedule).pc g = .idle)
    (hothers : ∀ h, (State.init.run exclusive schedule).pc h = .idle ∨ (State.init.run exclusive schedule).pc h = .done ∨ (State.init.run exclusive schedule).pc h = .failed ∨
      ((State.init.run exclusive schedule).pc h = .run ∧ exclusive h = false)) :
    ∃ more, (∀ e ∈ more, e = .step g) ∧ ((State.init.run exclusive schedule).run exclusive more).pc g = .run ∧
      ∀ h, h ≠ g → ((State.init.run exclusive schedule).run exclusive more).pc h = (State.init.run exclusive schedule).pc h := by
  have hi := inv_reachable (x := exclusive) schedule
  have hs := idle_clean exclusive g schedule State.init (fun _ => rfl) hg
  generalize State.init.run exclusive schedule = s at hi hg hothers hs
  have hq : s.deques.queue = [] := by
    cases hqq : s.deques.queue with
    | nil => rfl
    | cons b _ =>
      have := (hi.queue.mem b).1 (by rw [hqq]; simp)
      rcases hothers b with e | e | e | ⟨e, e'⟩
      · rw [e] at this; cases exclusive b <;> simp [inQueue] at this
      · rw [e] at this; cases exclusive b <;> simp [inQueue] at this
      · rw [e] at this; cases exclusive b <;> simp [inQueue] at this
      · rw [e, e'] at this; simp [inQueue] at this
  refine ⟨List.replicate 6 (.step g), by simp, ?_, ?_⟩
  · simp [List.replicate, State.run, State.next, move, hg, hx, hq, hs]
  · intro h hne
    simp [List.replicate, State.run, State.next, hne]

/-- With two monitors inside of their blocks, a third one gets in. -/
example : ((State.init.run (fun _ => false) [.step 0, .step 0, .step 0, .step 0, .step 0, .step 0, .step 1, .step 1, .step 1, .step 1, .step 1, .step 1]).run (fun _ => false)
    [.step 2, .step 2, .step 2, .step 2, .step 2, .step 2]).pc 2 = .run := by decide +kernel

/-! ### C34 -/

/-- The mark `a` is in the log, and the mark `b` after it. -/
def Earlier (log : List Mark) (a b : Mark) : Prop := ∃ l1 l2 l3, log = l1 ++ a :: (l2 ++ b :: l3)

theorem before_entries {log : List Mark} {g h : Nat} (hb : Earlier log (.entered g) (.entered h)) : Before (entries log) g h := by
  obtain ⟨l1, l2, l3, rfl⟩ := hb
  exact ⟨entries l1, entries l2, entries l3, by simp [entries]⟩

theorem before_starts {log : List Mark} {g h : Nat} (hb : Earlier log (.started g) (.started h)) : Before (starts log) g h := by
  obtain ⟨l1, l2, l3, rfl⟩ := hb
  exact ⟨starts l1, starts l2, starts l3, by simp [starts]⟩

theorem mem_starts {log : List Mark} {g : Nat} : g ∈ starts log ↔ .started g ∈ log := by
  simp only [starts, List.mem_filterMap]
  constructor
  · rintro ⟨m, hm, e⟩
    cases m <;> simp at e
    subst e; exact hm
  · intro h; exact ⟨_, h, rfl⟩

/-- C34 for any two guards of which one is exclusive: if `g` got into the queue before `h`, then `h` does not start before
`g`, and when `h` has started, then the block of `g` is over (or was never to run, since `g` was entered twice). -/
theorem C34_order_partial (exclusive : Nat → Bool) (schedule : List Event) (g h : Nat) (hx : exclusive g = true ∨ exclusive h = true)
    (hb : Earlier (State.init.run exclusive schedule).log (.entered g) (.entered h)) :
    ¬ Earlier (State.init.run exclusive schedule).log (.started h) (.started g) ∧
    (.started h ∈ (State.init.run exclusive schedule).log →
      (State.init.run exclusive schedule).pc g = .finish ∨ (State.init.run exclusive schedule).pc g = .done ∨
      (State.init.run exclusive schedule).pc g = .failed) := by
  have ho := order_reachable (x := exclusive) schedule
  refine ⟨fun hs => ho.fifo g h (before_entries hb) hx (before_starts hs), fun hs => ?_⟩
  have h1 := ho.began h (mem_starts.2 hs)
  have h2 : hasLeft ((State.init.run exclusive schedule).pc g) = true := by
    refine ho.turn g h (before_entries hb) hx ?_
    cases hp : (State.init.run exclusive schedule).pc h <;> rw [hp] at h1 <;> simp [hasStarted] at h1 <;> rfl
  cases hp : (State.init.run exclusive schedule).pc g <;> rw [hp] at h2 <;> simp [hasLeft] at h2 <;> simp

/-- Exclusive guard 1 starts after monitor 0, which was first in the queue. -/
example :
    let x : Nat → Bool := fun g => g = 1
    let s := State.init.run x [.step 0, .step 0, .step 1, .step 1, .step 1, .step 0, .step 0, .step 0, .step 0, .step 0, .step 0, .step 0,
      .step 1, .step 1, .step 1]
    s.log = [.entered 0, .entered 1, .started 0, .started 1] ∧ s.pc 0 = .done ∧ s.pc 1 = .run := by decide +kernel

/-- C34 is false for two non-exclusive guards: one that got into the queue later may start earlier. (The first leaves the
queue before it records that it runs.) -/
theorem C34_monitors_out_of_order :
    ∃ schedule : List Event,
      Earlier (State.init.run (fun _ => false) schedule).log (.entered 0) (.entered 1) ∧
      Earlier (State.init.run (fun _ => false) schedule).log (.started 1) (.started 0) :=
  ⟨[.step 0, .step 0, .step 1, .step 1, .step 0, .step 0, .step 0, .step 1, .step 1, .step 1, .step 1, .step 0],
    ⟨[], [], [.started 1, .started 0], by decide +kernel⟩, ⟨[.entered 0, .entered 1], [], [], by decide +kernel⟩⟩

/-- C36: no block starts twice, whoever enters the guard objects again. -/
theorem C36_block_starts_once (exclusive : Nat → Bool) (schedule : List Event) (g : Nat) :
    ((State.init.run exclusive schedule).log.filter (fun m => m = .started g)).length ≤ 1 := by
  have ho := (order_reachable (x := exclusive) schedule).once
  generalize (State.init.run exclusive schedule).log = log at ho
  have key : ∀ log : List Mark, (log.filter (fun m => m = .started g)).length = (starts log).count g := by
    intro log
    induction log with
    | nil => rfl
    | cons m log ih =>
      cases m with
      | entered k => simpa [starts] using ih
      | started k =>
        have e : starts (.started k :: log) = k :: starts log := rfl
        rw [e, List.count_cons, ← ih]
        by_cases hk : k = g
        · subst hk; simp
        · simp [hk]
  rw [key]
  exact List.nodup_iff_count.1 ho g

/-! ### C35 -/

/-- An endless schedule in which no task is cancelled, and in which every guard that was begun and has not ended does its
next operation at some time. -/
structure FairSchedule (exclusive : Nat → Bool) (e : Nat → Event) : Prop where
  noCancel : ∀ n g, e n ≠ .cancel g
  turn : ∀ n g, (runs exclusive e n).pc g ≠ .idle → (runs exclusive e n).pc g ≠ .done → (runs exclusive e n).pc g ≠ .failed →
    ∃ m, n ≤ m ∧ e m = .step g

theorem FairSchedule.fair {x : Nat → Bool} {e : Nat → Event} (h : FairSchedule x e) : Fair x e := by
  refine ⟨h.noCancel, fun n g ha => ?_⟩
  refine h.turn n g ?_ ?_ ?_ <;> intro hp <;> rw [hp] at ha <;> simp [isActive] at ha

/-- C35 without cancelled tasks: under every fair schedule every guard that was begun gets its turn and ends. In particular no
state is reached in which guards wait and none can start. -/
theorem C35_everyone_ends_partial (exclusive : Nat → Bool) (e : Nat → Event) (hfair : FairSchedule exclusive e) (n g : Nat)
    (hg : (runs exclusive e n).pc g ≠ .idle) :
    ∃ m, n ≤ m ∧ ((runs exclusive e m).pc g = .done ∨ (runs exclusive e m).pc g = .failed) := by
  obtain ⟨m, h1, h2⟩ := begun_ends hfair.fair hg
  refine ⟨m, h1, ?_⟩
  cases hp : (runs exclusive e m).pc g <;> rw [hp] at h2 <;> simp [hasEnded] at h2 <;> simp

/-- A schedule that is fair for every number of guards: 0, 0 1, 0 1 2, ... -/
def triangle : Nat → Nat × Nat
  | 0 => (0, 0)
  | n + 1 => if (triangle n).1 = (triangle n).2 then (0, (triangle n).2 + 1) else ((triangle n).1 + 1, (triangle n).2)

theorem triangle_row (k : Nat) : ∃ n, triangle n = (0, k) ∧ k ≤ n := by
  induction k with
  | zero => exact ⟨0, rfl, Nat.le_refl 0⟩
  | succ k ih =>
    obtain ⟨n, hn, hk⟩ := ih
    have walk : ∀ j, j ≤ k → triangle (n + j) = (j, k) := by
      intro j
      induction j with
      | zero => intro _; exact hn
      | succ j ihj =>
        intro hj
        have := ihj (by omega)
        rw [← Nat.add_assoc]
        simp only [triangle, this]
        rw [if_neg (by omega)]
    refine ⟨n + k + 1, ?_, by omega⟩
    simp only [triangle, walk k (Nat.le_refl k)]
    simp

theorem triangle_often (g n : Nat) : ∃ m, n ≤ m ∧ (triangle m).1 = g := by
  obtain ⟨m, hm, hk⟩ := triangle_row (max g n)
  have walk : ∀ j, j ≤ max g n → triangle (m + j) = (j, max g n) := by
    intro j
    induction j with
    | zero => intro _; exact hm
    | succ j ihj =>
      intro hj
      have := ihj (by omega)
      rw [← Nat.add_assoc]
      simp only [triangle, this]
      rw [if_neg (by omega)]
  exact ⟨m + g, by omega, by rw [walk g (by omega)]⟩

/-- Fair schedules exist, whatever the policies are, and begin many guards. -/
example (exclusive : Nat → Bool) : FairSchedule exclusive (fun n => .step (triangle n).1) := by
  refine ⟨by simp, fun n g _ _ _ => ?_⟩
  obtain ⟨m, h1, h2⟩ := triangle_often g n
  exact ⟨m, h1, by rw [h2]⟩

/-- C35: when no guard is in use (each is new or has ended), the queue and the observers are empty. -/
theorem C35_empty_when_left (exclusive : Nat → Bool) (schedule : List Event)
    (h : ∀ g, (State.init.run exclusive schedule).pc g = .idle ∨ (State.init.run exclusive schedule).pc g = .done ∨
      (State.init.run exclusive schedule).pc g = .failed) :
    (State.init.run exclusive schedule).deques = ⟨[], []⟩ := by
  have hi := inv_reachable (x := exclusive) schedule
  generalize State.init.run exclusive schedule = s at h hi
  have hq : s.deques.queue = [] := by
    cases hqq : s.deques.queue with
    | nil => rfl
    | cons b _ =>
      have := (hi.queue.mem b).1 (by rw [hqq]; simp)
      rcases h b with e | e | e <;> rw [e] at this <;> cases exclusive b <;> simp [inQueue] at this
  have ho : s.deques.observers = [] := by
    apply hi.observers.empty <;> intro k _ <;> rcases h k with e | e | e <;> rw [e] <;> rfl
  cases hd : s.deques with
  | mk q o => rw [hd] at hq ho; simp only at hq ho; rw [hq, ho]

example : (State.init.run (fun g => g = 1) [.step 0, .step 0, .step 1, .step 1, .step 1, .step 0, .step 0, .step 0, .step 0, .step 0, .step 0,
    .step 0, .step 1, .step 1, .step 1, .step 1, .step 1, .step 1, .step 1]).deques = ⟨[], []⟩ := by decide +kernel

/-- C35 is false for cancelled tasks: when the task that waits in an exclusive guard is cancelled, the guard stays in the queue,
and whatever happens afterwards, no guard of these deques ever starts. -/
theorem C35_cancelled_task_blocks (exclusive : Nat → Bool) (hx : exclusive 0 = true) (later : List Event) :
    ∀ g, .started g ∉ (State.init.run exclusive ([.step 0, .step 0, .step 0, .cancel 0] ++ later)).log := by
  have hrun : ∀ (a b : List Event) (s : State), s.run exclusive (a ++ b) = (s.run exclusive a).run exclusive b := by
    intro a
    induction a with
    | nil => intro b s; rfl
    | cons e a ih => intro b s; exact ih b _
  rw [hrun]
  have stuck : ∀ (es : List Event) (s : State), Inv exclusive s.deques s.pc → s.pc 0 = .lostWaiting → s.deques.queue.head? = some 0 →
      (∀ g, hasPassed (s.pc g) = false ∧ s.pc g ≠ .announce ∧ s.pc g ≠ .takeOff) → (∀ g, .started g ∉ s.log) →
      ∀ g, .started g ∉ (s.run exclusive es).log := by
    intro es
    induction es with
    | nil => intro s _ _ _ _ h; exact h
    | cons e es ih =>
      intro s hi h0 hh hp hl
      have hi' := hi.next e
      refine ih _ hi' ?_ ?_ ?_ ?_
      · cases e with
        | step k =>
          simp only [State.next]
          split
          · rename_i hk; subst hk; rw [h0]; rfl
          · exact h0
        | reenter k => simp only [State.next]; split <;> exact h0
        | cancel k =>
          simp only [State.next]
          split
          · rename_i hk; subst hk; rw [h0]; rfl
          · exact h0
      · cases e with
        | reenter k => simp only [State.next]; split <;> exact hh
        | cancel k => exact hh
        | step k =>
          simp only [State.next]
          obtain ⟨rest, hq⟩ : ∃ rest, s.deques.queue = 0 :: rest := by
            cases hq : s.deques.queue with
            | nil => rw [hq] at hh; simp at hh
            | cons a r => rw [hq] at hh; simp only [List.head?_cons, Option.some.injEq] at hh; exact ⟨r, by rw [hh]⟩
          have hpk := hp k
          cases hk : s.pc k <;> rw [hk] at hpk <;> simp [hasPassed] at hpk <;> simp only [move, hq]
          all_goals
            (repeat' split) <;> simp [hq]
      · intro g
        cases e with
        | reenter k => simp only [State.next]; split <;> exact hp g
        | cancel k =>
          simp only [State.next]
          split
          · have := hp k
            cases hk : s.pc k <;> rw [hk] at this <;> simp_all [hasPassed, cancelled]
          · exact hp g
        | step k =>
          simp only [State.next]
          split
          · rename_i hgk
            subst hgk
            have hpk := hp g
            cases hk : s.pc g with
            | check =>
              have hne : g ≠ 0 := by rintro rfl; rw [h0] at hk; cases hk
              obtain ⟨rest, hq⟩ : ∃ rest, s.deques.queue = 0 :: rest := by
                cases hq : s.deques.queue with
                | nil => rw [hq] at hh; simp at hh
                | cons a r => rw [hq] at hh; simp only [List.head?_cons, Option.some.injEq] at hh; exact ⟨r, by rw [hh]⟩
              simp only [move, hq]
              split
              · simp [hasPassed]
              · simp [Ne.symm hne, hasPassed]
            | checkObservers b =>
              have hf := hi.fits g
              rw [hk] at hf
              have hxg : exclusive g = true := by cases hx : exclusive g <;> simp [hx, fits] at hf ⊢
              have hb : b = false := by
                cases b with
                | false => rfl
                | true =>
                  exfalso
                  have := hi.queue.head g (by rw [hk, hxg]; rfl)
                  rw [hh] at this
                  simp only [Option.some.injEq] at this
                  rw [← this, h0] at hk
                  cases hk
              obtain ⟨a, rest, ho, _⟩ := hi.observers.first hxg (by rw [hk]; rfl)
              simp [move, ho, hb, hasPassed]
            | _ =>
              rw [hk] at hpk
              first
              | (exfalso; simp [hasPassed] at hpk; done)
              | (simp only [move]; (repeat' split) <;> simp [hasPassed])
          · exact hp g
      · intro g hg
        cases e with
        | reenter k =>
          simp only [State.next] at hg
          split at hg <;> exact hl g hg
        | cancel k => exact hl g hg
        | step k =>
          simp only [State.next, List.mem_append] at hg
          rcases hg with hg | hg
          · exact hl g hg
          · have hm := (move_stable (x := exclusive) k (s.spoiled k) s.deques (s.pc k)).mark
            have hpk := hp k
            rcases hm with hm | ⟨hm, _⟩ | ⟨_, hm, _⟩
            · rw [hm] at hg; simp at hg
            · rw [hm] at hg; simp at hg
            · rw [hm] at hpk; simp [hasPassed] at hpk
  apply stuck later
  · exact inv_reachable _
  · simp [State.run, State.next, State.init, move, hx, cancelled]
  · simp [State.run, State.next, State.init, move, hx]
  · intro g
    simp only [State.run, State.next, State.init, move, hx, cancelled]
    by_cases hg : g = 0 <;> simp [hg, hasPassed]
  · intro g; simp [State.run, State.next, State.init, move, hx]

/-! ### C36 -/

/-- C36: over all threads and interleavings of the two halves of their calls, and whatever faults are set in between, no two
calls that make the same transition of a guard's use tracker return. So of all who enter a guard object only one gets to
wait, and one to run. -/
theorem C36_each_transition_once (calls : Nat → Transition) (events : List TrackerEvent) (i j : Nat) (t : Transition)
    (hi : ((Tracker.new calls).run events).calls i = .returned t) (hj : ((Tracker.new calls).run events).calls j = .returned t) : i = j :=
  (TInv.run (es := events) (TInv.new calls)).pastOne i j t hi hj

/-- Of three threads that enter, one that starts to run and one that leaves: one enters, one runs, one is done. -/
example :
    let calls : Nat → Transition := fun i => if i < 3 then .toPending else if i = 3 then .toRunning else .toDone
    let s := (Tracker.new calls).run [.step 0, .step 1, .step 0, .step 3, .step 3, .step 4, .step 4, .step 2]
    s.calls 0 = .returned .toPending ∧ s.calls 1 = .raised ∧ s.calls 3 = .returned .toRunning ∧ s.calls 4 = .returned .toDone ∧
    s.calls 2 = .raised ∧ s.state = [] := by decide +kernel

/-- C36: a transition from any state but the one before it raises: leaving (`toDone`) a guard that is not running, entering
(`toPending`) one that was used. -/
theorem C36_wrong_state_raises (s : Tracker) (i : Nat) (t : Transition) (u : Use) (hc : s.calls i = .before t) (hs : s.state.getLast? = some u)
    (hu : match t with | .toPending => u ≠ .unused | .toRunning => u ≠ .pending | .toDone => u ≠ .running) :
    (s.step i).calls i = .raised := by
  have : t.apply u = none := by cases t <;> cases u <;> simp_all [Transition.apply]
  simp [Tracker.step, hc, hs, this]

/-- ... and a guard whose state was taken away stays unusable. -/
theorem C36_faulted_raises (s : Tracker) (i : Nat) (t : Transition) (hc : s.calls i = .before t) (hs : s.state = []) :
    (s.step i).calls i = .raised := by
  simp [Tracker.step, hc, hs]

/-- A finding beside C36: leaving a guard object that was never entered does raise, but only after it took someone else's place
off the deques. Guard 0 is in its exclusive block and guard 1 waits; after a stray `__exit__` of guard 2 both are in their
exclusive blocks. -/
theorem C36_stray_exit_breaks_exclusion :
    ∃ (exclusive : Nat → Bool) (before after : List Event),
      let s := State.init.run exclusive before
      let s' := ({ s with deques := leaveUnused exclusive 2 s.deques } : State).run exclusive after
      s.pc 2 = .idle ∧ s.pc 0 = .run ∧ exclusive 0 = true ∧ exclusive 1 = true ∧ s'.pc 0 = .run ∧ s'.pc 1 = .run :=
  ⟨fun _ => true, [.step 0, .step 0, .step 0, .step 1, .step 1, .step 1, .step 0, .step 0, .step 0], [.step 1, .step 1, .step 1], by decide +kernel⟩

/-- A finding beside C36: entering a guard object again while its first user is waiting raises for both. The first one's block
never starts. -/
theorem C36_reentered_never_starts (exclusive : Nat → Bool) (before after : List Event) (g : Nat)
    (hw : (State.init.run exclusive before).pc g ≠ .idle) (hn : Mark.started g ∉ (State.init.run exclusive before).log) :
    Mark.started g ∉ (State.init.run exclusive (before ++ .reenter g :: after)).log := by
  have run_append : ∀ (a b : List Event) (s : State), s.run exclusive (a ++ b) = (s.run exclusive a).run exclusive b := by
    intro a
    induction a with
    | nil => intro b s; rfl
    | cons x a ih => intro b s; exact ih b _
  have gen : ∀ (es : List Event) (s : State), s.spoiled g = true → Mark.started g ∉ s.log → Mark.started g ∉ (s.run exclusive es).log := by
    intro es
    induction es with
    | nil => intro s _ h; exact h
    | cons e es ih =>
      intro s hs h
      refine ih _ ?_ ?_
      · cases e with
        | step j => exact hs
        | reenter j =>
          simp only [State.next]
          split
          · exact hs
          · simp only; split
            · rfl
            · exact hs
        | cancel j => exact hs
      · cases e with
        | step j =>
          simp only [State.next, List.mem_append, not_or]
          refine ⟨h, fun hm => ?_⟩
          simp only [Option.mem_toList] at hm
          by_cases e : j = g
          · subst e
            rw [hs] at hm
            cases hp : s.pc j <;> rw [hp] at hm <;> simp only [move] at hm <;> (repeat' split at hm) <;> simp at hm
            rename_i h
            exact h trivial
          · cases hp : s.pc j <;> rw [hp] at hm <;> simp only [move] at hm <;> (repeat' split at hm) <;> simp at hm
            exact e hm
        | reenter j => simp only [State.next]; split <;> exact h
        | cancel j => exact h
  rw [run_append]
  refine gen after _ ?_ ?_
  · simp [State.next, hw]
  · simp only [State.next, if_neg hw]; exact hn

/-- Guard 1 waits for guard 0 when it is entered again. It fails when its turn has come. -/
example :
    let s := State.init.run (fun _ => true) (List.replicate 6 (.step 0) ++ List.replicate 4 (.step 1))
    s.pc 1 ≠ .idle ∧ Mark.started 1 ∉ s.log ∧
    (s.run (fun _ => true) (.reenter 1 :: List.replicate 4 (.step 0) ++ List.replicate 6 (.step 1))).pc 1 = .failed := by decide +kernel

/-! ### C37 -/

/-- C37: guards of one target that are in use share their deques, and guards of different targets do not. -/
theorem C37_deques_shared (exclusive : Nat → Bool) (target : Nat → Nat) (schedule : List Event) (g h i j : Nat) (p q : PC)
    (hg : (Multi.init.run exclusive target schedule).place g = .inside i p)
    (hh : (Multi.init.run exclusive target schedule).place h = .inside j q) : i = j ↔ target g = target h := by
  have hi := minv_reachable (x := exclusive) (target := target) schedule
  obtain ⟨r, hr, hri⟩ := hi.shared g i p hg
  obtain ⟨r', hr', hri'⟩ := hi.shared h j q hh
  constructor
  · intro e
    exact hi.apart _ _ r r' hr hr' (by rw [hri, hri', e])
  · intro e
    rw [e, hr'] at hr
    rw [← hri, ← hri', Option.some.inj hr]

/-- C37: for the guards of one target it is as if the guards of other targets did not exist: their progress, the users and the
deques of the target are the same as in the schedule without the others. -/
theorem C37_targets_isolated (exclusive : Nat → Bool) (target : Nat → Nat) (schedule : List Event) (t : Nat) :
    let s := Multi.init.run exclusive target schedule
    let alone := Multi.init.run exclusive target (schedule.filter (fun e => target e.guard = t))
    (∀ g, target g = t → (s.place g).shape = (alone.place g).shape) ∧
    (s.records t).map (fun r => (r.users, s.deques r.inst)) = (alone.records t).map (fun r => (r.users, alone.deques r.inst)) := by
  intro s alone
  have := same_filter (x := exclusive) (target := target) t schedule _ _ MInv.init MInv.init (Same.refl t _)
  exact ⟨this.place, this.record⟩

/-- C37, C33: of the guards of one target an exclusive one is alone in its block. -/
theorem C37_mutual_exclusion (exclusive : Nat → Bool) (target : Nat → Nat) (schedule : List Event) (g h i j : Nat) (ht : target g = target h)
    (hx : exclusive g = true) (hg : (Multi.init.run exclusive target schedule).place g = .inside i .run)
    (hh : (Multi.init.run exclusive target schedule).place h = .inside j .run) : g = h := by
  have hij := (C37_deques_shared exclusive target schedule g h i j _ _ hg hh).2 ht
  subst hij
  have hi := (minv_reachable (x := exclusive) (target := target) schedule).inv i
  cases hxh : exclusive h with
  | true =>
    have h1 := hi.queue.head g (by rw [hg, hx]; simp [Place.at, isHead])
    have h2 := hi.queue.head h (by rw [hh, hxh]; simp [Place.at, isHead])
    rw [h1] at h2
    exact Option.some.inj h2
  | false =>
    have := hi.alone g hx (by rw [hg]; simp [Place.at, isAlone]) h hxh
    rw [hh] at this
    simp [Place.at, inN] at this

/-- C37 without reuse of guards and without cancelled tasks: a target has a record exactly as long as someone uses it. -/
theorem C37_discarded_partial (exclusive : Nat → Bool) (target : Nat → Nat) (steps : List Nat) (t : Nat) :
    (Multi.init.run exclusive target (steps.map .step)).records t = none ↔
      ∀ g, target g = t → ∀ i p, (Multi.init.run exclusive target (steps.map .step)).place g ≠ .inside i p := by
  have hi := minv_reachable (x := exclusive) (target := target) (steps.map .step)
  have hc := clean_reachable (x := exclusive) (target := target) steps
  generalize Multi.init.run exclusive target (steps.map .step) = s at hi hc
  constructor
  · intro hn g hg i p hp
    obtain ⟨r, hr, _⟩ := hi.shared g i p hp
    rw [hg, hn] at hr
    cases hr
  · intro hall
    cases hr : s.records t with
    | none => rfl
    | some r =>
      exfalso
      obtain ⟨a, _, hm, hl, hne⟩ := hc.exact t r hr
      cases a with
      | nil => exact hne (List.eq_nil_of_length_eq_zero hl.symm)
      | cons g a =>
        obtain ⟨h1, h2⟩ := (hm g).1 (by simp)
        obtain ⟨i, p, e⟩ := isInside_iff.1 h2
        exact hall g h1 i p e

/-- Two guards of target 5 and one of target 6: the record of 5 lives until the second guard has left. -/
example :
    let target : Nat → Nat := fun g => if g < 2 then 5 else 6
    let steps : List Nat := [0, 1, 2] ++ List.replicate 11 0
    let s := Multi.init.run (fun g => g = 2) target (steps.map .step)
    s.records 5 = some ⟨0, [1]⟩ ∧ s.records 6 = some ⟨1, [2]⟩ ∧
    (s.run (fun g => g = 2) target ((List.replicate 11 1).map .step)).records 5 = none := by decide +kernel

/-- C37 is false for guards that are entered again: the second `with` raises, but its entry in the users stays, and so does the
record when everyone has left. -/
theorem C37_reuse_keeps_record :
    ∃ (exclusive : Nat → Bool) (target : Nat → Nat) (schedule : List Event),
      let s := Multi.init.run exclusive target schedule
      (s.place 0).shape = .left .done ∧ s.records 0 = some ⟨0, [0]⟩ ∧ s.deques 0 = ⟨[], []⟩ :=
  ⟨fun _ => true, fun _ => 0, .step 0 :: .reenter 0 :: List.replicate 12 (.step 0), by decide +kernel⟩

/-- C37 is false for cancelled tasks: the record of the target of a guard whose task was cancelled while waiting stays. -/
theorem C37_cancel_keeps_record :
    ∃ (exclusive : Nat → Bool) (target : Nat → Nat) (schedule : List Event),
      let s := Multi.init.run exclusive target schedule
      (s.place 0).shape = .left .done ∧ (s.place 1).shape = .inside .lostWaiting ∧
      s.records 0 = some ⟨0, [1]⟩ ∧ s.deques 0 = ⟨[1], [0]⟩ :=
  ⟨fun _ => true, fun _ => 0, List.replicate 7 (.step 0) ++ List.replicate 4 (.step 1) ++ [.cancel 1] ++ List.replicate 5 (.step 0), by decide +kernel⟩

/-- C37 is false for tasks that are cancelled while they leave, too: the guard is no user of the target any more, but its places in
the deques keep the record. -/
theorem C37_cancel_leaving_keeps_record :
    ∃ (exclusive : Nat → Bool) (target : Nat → Nat) (schedule : List Event),
      let s := Multi.init.run exclusive target schedule
      (s.place 0).shape = .left .lostLeaving ∧ s.records 0 = some ⟨0, []⟩ ∧ s.deques 0 = ⟨[0], [0]⟩ :=
  ⟨fun _ => true, fun _ => 0, List.replicate 8 (.step 0) ++ [.cancel 0] ++ List.replicate 3 (.step 0), by decide +kernel⟩

end Aiootp.Guard
