import Verif.Model.EventLoop
import Verif.Props.Guard

/-!
C60: the asynchronous salt file functions and the event loop (Model/EventLoop.lean). `calls k` is the call that task or thread `k` makes. A schedule is an
endless list of moments. -/

namespace Aiootp.EventLoop

open Guard (PC)

section
variable {calls : Nat → Fn} {ticks : Nat → Tick}

/-- Threads make the synchronous calls, tasks of the loop the asynchronous ones. -/
def Valid (calls : Nat → Fn) (ticks : Nat → Tick) : Prop :=
  ∀ n k, (ticks n = .thread k → (calls k).inLoop = false) ∧ (ticks n = .loop k → (calls k).inLoop = true)

/-- The operating system lets every thread go on again and again; and if the loop is free again and again, then it goes on with
every task again and again. -/
structure Fair (calls : Nat → Fn) (ticks : Nat → Tick) : Prop where
  threads : ∀ k, (calls k).inLoop = false → ∀ n, ∃ m, n ≤ m ∧ ticks m = .thread k
  loop : ∀ n, ∃ m k, n ≤ m ∧ ticks m = .loop k
  tasks : (∀ n, ∃ m, n ≤ m ∧ (worlds calls ticks m).holder = none) →
    ∀ k, (calls k).inLoop = true → ∀ n, ∃ m, n ≤ m ∧ (worlds calls ticks m).holder = none ∧ ticks m = .loop k

theorem holder_inLoop (hv : Valid calls ticks) : ∀ n j, (worlds calls ticks n).holder = some j → (calls j).inLoop = true := by
  intro n
  induction n with
  | zero => intro j h; cases h
  | succ n ih =>
    intro j h
    simp only [worlds, World.next] at h
    cases ht : ticks n with
    | thread k => simp only [ht] at h; exact ih j h
    | loop k =>
      simp only [ht, World.actor] at h
      split at h
      · cases h
      · cases hh : (worlds calls ticks n).holder with
        | none =>
          rw [hh] at h
          cases h
          exact (hv n _).2 ht
        | some i =>
          rw [hh] at h
          cases h
          exact ih _ hh

/-- The events of the guards in a schedule. -/
def events (calls : Nat → Fn) (ticks : Nat → Tick) (n : Nat) : Guard.Event := .step ((worlds calls ticks n).actor (ticks n))

theorem worlds_guards (n : Nat) : (worlds calls ticks n).guards = Guard.runs (fun k => (calls k).exclusive) (events calls ticks) n := by
  induction n with
  | zero => rfl
  | succ n ih =>
    simp only [worlds, World.next, Guard.runs, events]
    rw [← ih]
    cases ticks n <;> rfl

theorem pc_next (n k : Nat) : (worlds calls ticks (n + 1)).guards.pc k =
    if k = (worlds calls ticks n).actor (ticks n) then
      (Guard.move (fun k => (calls k).exclusive) k ((worlds calls ticks n).guards.spoiled k) (worlds calls ticks n).guards.deques ((worlds calls ticks n).guards.pc k)).2.1
    else (worlds calls ticks n).guards.pc k := by
  have : (worlds calls ticks (n + 1)).guards = (worlds calls ticks n).guards.next (fun k => (calls k).exclusive) (.step ((worlds calls ticks n).actor (ticks n))) := by
    simp only [worlds, World.next]
    cases ticks n <;> rfl
  rw [this]
  simp only [Guard.State.next]
  split
  · rename_i h; rw [← h]
  · rfl

/-- Nobody enters a guard twice here. -/
theorem spoiled_not (n k : Nat) : (worlds calls ticks n).guards.spoiled k = false := by
  induction n with
  | zero => rfl
  | succ n ih =>
    simp only [worlds, World.next]
    cases ticks n <;> exact ih

/-- How many operations a task with `async with` can do before it pauses. -/
def rank : PC → Nat
  | .idle => 9
  | .notifyOn => 8
  | .getIn => 7
  | .check => 6
  | .checkObservers _ => 5
  | .announce => 4
  | .takeOff => 3
  | .start => 2
  | .notifyOff => 3
  | .getOff => 2
  | .finish => 1
  | .fault1 => 1
  | _ => 0

theorem rank_move (x : Nat → Bool) (g : Nat) (sp : Bool) (d : Guard.Deques) {pc : PC} (hl : pc ≠ .lostWaiting) (hl' : pc ≠ .lostLeaving) :
    pauses true pc (Guard.move x g sp d pc).2.1 = true ∨ rank (Guard.move x g sp d pc).2.1 < rank pc := by
  cases pc <;> simp only [Guard.move, ne_eq, not_true_eq_false, reduceCtorEq] at * <;>
    (repeat' split) <;> simp_all [pauses, rank]

theorem not_lost (n k : Nat) : (worlds calls ticks n).guards.pc k ≠ .lostWaiting ∧ (worlds calls ticks n).guards.pc k ≠ .lostLeaving := by
  induction n with
  | zero => exact ⟨(by simp [worlds, World.init, Guard.State.init]), (by simp [worlds, World.init, Guard.State.init])⟩
  | succ n ih =>
    rw [pc_next]
    split
    · generalize (worlds calls ticks n).guards.pc k = pc at ih
      cases pc <;> simp only [Guard.move, ne_eq, not_true_eq_false, reduceCtorEq, and_false, false_and, not_false_eq_true, and_self] at * <;>
        (repeat' split) <;> simp
    · exact ih

theorem loop_free (hv : Valid calls ticks) (hf : Fair calls ticks) (hno : ∀ k, calls k ≠ .adelete) : ∀ n, ∃ m, n ≤ m ∧ (worlds calls ticks m).holder = none := by
  have hasync : ∀ j, (calls j).inLoop = true → (calls j).asyncWith = true := by
    intro j h
    have := hno j
    cases hc : calls j <;> simp_all [Fn.inLoop, Fn.asyncWith]
  -- one operation of the holder
  have now : ∀ n j i, (worlds calls ticks n).holder = some j → ticks n = .loop i →
      (worlds calls ticks (n + 1)).holder = none ∨ ((worlds calls ticks (n + 1)).holder = some j ∧
        rank ((worlds calls ticks (n + 1)).guards.pc j) < rank ((worlds calls ticks n).guards.pc j)) := by
    intro n j i hj ht
    have ha : (worlds calls ticks n).actor (ticks n) = j := by rw [ht]; simp [World.actor, hj]
    have hp := pc_next (calls := calls) (ticks := ticks) n j
    rw [if_pos ha.symm] at hp
    have hw : (worlds calls ticks (n + 1)).holder =
        if pauses (calls j).asyncWith ((worlds calls ticks n).guards.pc j) ((worlds calls ticks (n + 1)).guards.pc j) then none else some j := by
      simp only [worlds, World.next, ha]
      simp only [ht]
    rw [hw, hasync j (holder_inLoop hv n j hj), hp]
    obtain ⟨l1, l2⟩ := not_lost (calls := calls) (ticks := ticks) n j
    rcases rank_move (fun k => (calls k).exclusive) j ((worlds calls ticks n).guards.spoiled j) (worlds calls ticks n).guards.deques l1 l2 with h | h
    · left; rw [if_pos h]
    · by_cases hpz : pauses true ((worlds calls ticks n).guards.pc j)
          (Guard.move (fun k => (calls k).exclusive) j ((worlds calls ticks n).guards.spoiled j) (worlds calls ticks n).guards.deques ((worlds calls ticks n).guards.pc j)).2.1 = true
      · left; rw [if_pos hpz]
      · right; rw [if_neg hpz]; exact ⟨rfl, h⟩
  have one : ∀ gap n j, (worlds calls ticks n).holder = some j → (∃ k, ticks (n + gap) = .loop k) →
      ∃ m, n ≤ m ∧ ((worlds calls ticks m).holder = none ∨ ((worlds calls ticks m).holder = some j ∧
        rank ((worlds calls ticks m).guards.pc j) < rank ((worlds calls ticks n).guards.pc j))) := by
    intro gap
    induction gap with
    | zero => intro n j hj ⟨k, hk⟩; exact ⟨n + 1, by omega, now n j k hj hk⟩
    | succ gap ih =>
      intro n j hj ⟨k, hk⟩
      cases ht : ticks n with
      | loop i => exact ⟨n + 1, by omega, now n j i hj ht⟩
      | thread i =>
        have hj' : (worlds calls ticks (n + 1)).holder = some j := by simp only [worlds, World.next, ht]; exact hj
        have hij : j ≠ i := by
          rintro rfl
          have h1 := holder_inLoop hv n j hj
          rw [(hv n j).1 ht] at h1
          cases h1
        have hp := pc_next (calls := calls) (ticks := ticks) n j
        rw [if_neg (by rw [ht]; exact hij)] at hp
        obtain ⟨m, h1, h2⟩ := ih (n + 1) j hj' ⟨k, by rw [← hk]; congr 1; omega⟩
        rw [hp] at h2
        exact ⟨m, by omega, h2⟩
  have all : ∀ r n j, (worlds calls ticks n).holder = some j → rank ((worlds calls ticks n).guards.pc j) ≤ r →
      ∃ m, n ≤ m ∧ (worlds calls ticks m).holder = none := by
    intro r
    induction r with
    | zero =>
      intro n j hj hr
      obtain ⟨m, k, hm, hk⟩ := hf.loop n
      obtain ⟨m', h1, h2 | ⟨h2, h3⟩⟩ := one (m - n) n j hj ⟨k, by rw [← hk]; congr 1; omega⟩
      · exact ⟨m', h1, h2⟩
      · omega
    | succ r ih =>
      intro n j hj hr
      obtain ⟨m, k, hm, hk⟩ := hf.loop n
      obtain ⟨m', h1, h2 | ⟨h2, h3⟩⟩ := one (m - n) n j hj ⟨k, by rw [← hk]; congr 1; omega⟩
      · exact ⟨m', h1, h2⟩
      · obtain ⟨m'', h4, h5⟩ := ih m' j h2 (by omega)
        exact ⟨m'', by omega, h5⟩
  intro n
  cases hh : (worlds calls ticks n).holder with
  | none => exact ⟨n, Nat.le_refl n, hh⟩
  | some j => exact all _ n j hh (Nat.le_refl _)

/-- **C60** without `adelete_salt_file`: whatever tasks and threads make which of the other calls on a salt file, and in whatever order they are run, the
thread of the event loop is free again and again, and every call that was begun leaves its guard.

What is missing: `adelete_salt_file`, see `C60_adelete_hangs`. -/
theorem C60_loop_goes_on_partial (calls : Nat → Fn) (ticks : Nat → Tick) (hv : Valid calls ticks) (hf : Fair calls ticks) (hno : ∀ k, calls k ≠ .adelete) (n : Nat) :
    (∃ m, n ≤ m ∧ (worlds calls ticks m).holder = none) ∧
    ∀ g, (worlds calls ticks n).guards.pc g ≠ .idle → ∃ m, n ≤ m ∧ (worlds calls ticks m).guards.pc g = .done := by
  refine ⟨loop_free hv hf hno n, fun g hg => ?_⟩
  have hfs : Guard.FairSchedule (fun k => (calls k).exclusive) (events calls ticks) := by
    refine ⟨by simp [events], fun n g _ _ _ => ?_⟩
    cases hl : (calls g).inLoop with
    | false =>
      obtain ⟨m, h1, h2⟩ := hf.threads g hl n
      exact ⟨m, h1, by simp [events, h2, World.actor]⟩
    | true =>
      obtain ⟨m, h1, h2, h3⟩ := hf.tasks (loop_free hv hf hno) g hl n
      exact ⟨m, h1, by simp [events, h3, World.actor, h2]⟩
  rw [worlds_guards] at hg
  obtain ⟨m, h1, h2⟩ := Guard.C35_everyone_ends_partial _ _ hfs n g hg
  rw [← worlds_guards] at h2
  refine ⟨m, h1, h2.resolve_right ?_⟩
  have : ∀ m, (worlds calls ticks m).guards.pc g ≠ .failed ∧ (worlds calls ticks m).guards.pc g ≠ .fault1 ∧ (worlds calls ticks m).guards.pc g ≠ .fault2 := by
    intro m
    induction m with
    | zero => exact ⟨(by simp [worlds, World.init, Guard.State.init]), (by simp [worlds, World.init, Guard.State.init]), (by simp [worlds, World.init, Guard.State.init])⟩
    | succ m ih =>
      rw [pc_next, spoiled_not]
      split
      · generalize (worlds calls ticks m).guards.pc g = pc at ih
        cases pc <;> simp only [Guard.move, ne_eq, not_true_eq_false, reduceCtorEq, and_false, false_and, not_false_eq_true, and_self] at * <;>
          (repeat' split) <;> simp_all
      · exact ih
  exact (this m).1

/-- A loop that takes the tasks in the order 0, 0 1, 0 1 2, ... -/
def turns (calls : Nat → Fn) : Nat → World × Nat
  | 0 => (.init, 0)
  | n + 1 => ((turns calls n).1.next calls (.loop (Guard.triangle (turns calls n).2).1), if (turns calls n).1.holder = none then (turns calls n).2 + 1 else (turns calls n).2)

/-- The hypotheses of `C60_loop_goes_on_partial` can be met, whichever asynchronous calls are made; and some begin. -/
example (calls : Nat → Fn) (hl : ∀ k, (calls k).inLoop = true) :
    let ticks := fun n => Tick.loop (Guard.triangle (turns calls n).2).1
    Valid calls ticks ∧ Fair calls ticks ∧ (worlds calls ticks 1).guards.pc 0 ≠ .idle := by
  intro ticks
  have hw : ∀ n, worlds calls ticks n = (turns calls n).1 := by
    intro n
    induction n with
    | zero => rfl
    | succ n ih => simp only [worlds, turns, ih]; rfl
  refine ⟨fun n k => ⟨fun h => (by cases h), fun _ => hl k⟩, ⟨fun k h => ?_, fun n => ⟨n, _, Nat.le_refl n, rfl⟩, fun hf k _ n => ?_⟩, ?_⟩
  · rw [hl k] at h; cases h
  · obtain ⟨i, h1, h2⟩ := Guard.triangle_often k (turns calls n).2
    have key : ∀ gap n, (turns calls n).2 + gap = i → ∃ m, n ≤ m ∧ (turns calls m).1.holder = none ∧ (turns calls m).2 = i := by
      intro gap
      -- the next moment at which the loop is free
      have first : ∀ d n, (worlds calls ticks (n + d)).holder = none → ∃ m, n ≤ m ∧ (turns calls m).1.holder = none ∧ (turns calls m).2 = (turns calls n).2 := by
        intro d
        induction d with
        | zero => intro n h; exact ⟨n, Nat.le_refl n, by rw [← hw]; exact h, rfl⟩
        | succ d ih =>
          intro n h
          by_cases hn : (turns calls n).1.holder = none
          · exact ⟨n, Nat.le_refl n, hn, rfl⟩
          · obtain ⟨m, h1, h2, h3⟩ := ih (n + 1) (by rw [← h]; congr 2; omega)
            refine ⟨m, by omega, h2, ?_⟩
            rw [h3]
            simp only [turns, if_neg hn]
      induction gap with
      | zero =>
        intro n hn
        obtain ⟨m, hm1, hm2⟩ := hf n
        obtain ⟨m', a, b, c⟩ := first (m - n) n (by rw [show n + (m - n) = m by omega]; exact hm2)
        exact ⟨m', a, b, by rw [c]; exact hn⟩
      | succ gap ih =>
        intro n hn
        obtain ⟨m, hm1, hm2⟩ := hf n
        obtain ⟨m', a, b, c⟩ := first (m - n) n (by rw [show n + (m - n) = m by omega]; exact hm2)
        obtain ⟨m'', a', b', c'⟩ := ih (m' + 1) (by simp only [turns, if_pos b]; omega)
        exact ⟨m'', by omega, b', c'⟩
    obtain ⟨m, a, b, c⟩ := key (i - (turns calls n).2) n (by omega)
    exact ⟨m, a, by rw [hw]; exact b, by show Tick.loop (Guard.triangle (turns calls m).2).1 = _; rw [c, h2]⟩
  · have : calls 0 = .amake ∨ calls 0 = .aread ∨ calls 0 = .aupdate ∨ calls 0 = .adelete := by
      have := hl 0
      cases h : calls 0 <;> simp_all [Fn.inLoop]
    rcases this with h | h | h | h <;> simp [worlds, World.next, World.actor, World.init, ticks, turns, Guard.triangle, Guard.State.next, Guard.State.init, Guard.move, Fn.exclusive, h]

/-- C60 is false: `adelete_salt_file` enters a guard that blocks its thread. Whenever a task begins it while another task of the loop is inside of its block,
the loop hangs: from then on, for ever, the loop is not free, no other task does anything, and the deletion does not begin. -/
theorem C60_adelete_hangs (calls : Nat → Fn) (ticks : Nat → Tick) (hv : Valid calls ticks) {n deleter other : Nat} (hd : calls deleter = .adelete)
    (hpc : (worlds calls ticks n).guards.pc deleter = .idle) (hfree : (worlds calls ticks n).holder = none) (htick : ticks n = .loop deleter)
    (hl : (calls other).inLoop = true) (hin : (worlds calls ticks n).guards.pc other = .run) (m : Nat) (hm : n < m) :
    (worlds calls ticks m).holder = some deleter ∧ (worlds calls ticks m).guards.pc deleter ≠ .run ∧
    ∀ k, (calls k).inLoop = true → k ≠ deleter → (worlds calls ticks m).guards.pc k = (worlds calls ticks n).guards.pc k := by
  have hne : other ≠ deleter := by rintro rfl; rw [hin] at hpc; cases hpc
  have hx : (calls deleter).exclusive = true := by rw [hd]; rfl
  have key : ∀ i, (worlds calls ticks (n + 1 + i)).holder = some deleter ∧
      ((worlds calls ticks (n + 1 + i)).guards.pc deleter = .notifyOn ∨ (worlds calls ticks (n + 1 + i)).guards.pc deleter = .getIn ∨
        (worlds calls ticks (n + 1 + i)).guards.pc deleter = .check ∨ (∃ b, (worlds calls ticks (n + 1 + i)).guards.pc deleter = .checkObservers b) ∨
        (worlds calls ticks (n + 1 + i)).guards.pc deleter = .start) ∧
      ∀ k, (calls k).inLoop = true → k ≠ deleter → (worlds calls ticks (n + 1 + i)).guards.pc k = (worlds calls ticks n).guards.pc k := by
    intro i
    induction i with
    | zero =>
      have ha : (worlds calls ticks n).actor (ticks n) = deleter := by rw [htick]; simp [World.actor, hfree]
      have hp := pc_next (calls := calls) (ticks := ticks) n deleter
      rw [if_pos ha.symm, hpc] at hp
      simp only [Guard.move, hx, if_true] at hp
      refine ⟨?_, .inl hp, fun k _ hk => ?_⟩
      · have hw : (worlds calls ticks (n + 1)).holder =
            if pauses (calls deleter).asyncWith ((worlds calls ticks n).guards.pc deleter) ((worlds calls ticks (n + 1)).guards.pc deleter) then none else some deleter := by
          simp only [worlds, World.next, ha]
          simp only [htick]
        rw [Nat.add_zero, hw, hp]
        simp [pauses]
      · have hk' := pc_next (calls := calls) (ticks := ticks) n k
        rw [ha, if_neg hk] at hk'
        exact hk'
    | succ i ih =>
      obtain ⟨h1, h2, h3⟩ := ih
      rw [← Nat.add_assoc]
      generalize n + 1 + i = j at h1 h2 h3
      have hother : (worlds calls ticks (j + 1)).guards.pc other = .run → (worlds calls ticks (j + 1)).guards.pc deleter ≠ .run := by
        intro ho hr
        rw [worlds_guards] at ho hr
        have hrun : ∀ n, ∃ s, Guard.runs (fun k => (calls k).exclusive) (events calls ticks) n = Guard.State.init.run (fun k => (calls k).exclusive) s := by
          intro n
          induction n with
          | zero => exact ⟨[], rfl⟩
          | succ n ih =>
            obtain ⟨s, hs⟩ := ih
            refine ⟨s ++ [events calls ticks n], ?_⟩
            have happ : ∀ (s : List Guard.Event) (s0 : Guard.State) e, s0.run (fun k => (calls k).exclusive) (s ++ [e]) =
                (s0.run (fun k => (calls k).exclusive) s).next (fun k => (calls k).exclusive) e := by
              intro s
              induction s with
              | nil => intro s0 e; rfl
              | cons a s ih => intro s0 e; exact ih _ e
            rw [happ, ← hs]
            rfl
        obtain ⟨s, hs⟩ := hrun (j + 1)
        rw [hs] at ho hr
        exact hne (Guard.C33_mutual_exclusion _ s deleter other hx hr ho).symm
      have hbroken : (worlds calls ticks (j + 1)).guards.pc deleter ≠ .broken := by
        intro hr
        rw [worlds_guards] at hr
        have := (Guard.runs_order (x := fun k => (calls k).exclusive) (events calls ticks) (j + 1)).inv.fits deleter
        rw [hr] at this
        simp [Guard.fits, hx] at this
      cases ht : ticks j with
      | thread t =>
        have hna : ∀ k, (calls k).inLoop = true → (worlds calls ticks (j + 1)).guards.pc k = (worlds calls ticks j).guards.pc k := by
          intro k hk
          rw [pc_next, ht]
          refine if_neg ?_
          intro e
          simp only [World.actor] at e
          subst e
          rw [(hv j _).1 ht] at hk
          cases hk
        refine ⟨by simp only [worlds, World.next, ht]; exact h1, ?_, fun k hk hkd => by rw [hna k hk]; exact h3 k hk hkd⟩
        rw [hna deleter (by rw [hd]; rfl)]
        exact h2
      | loop t =>
        have ha : (worlds calls ticks j).actor (ticks j) = deleter := by rw [ht]; simp [World.actor, h1]
        have hrest : ∀ k, (calls k).inLoop = true → k ≠ deleter → (worlds calls ticks (j + 1)).guards.pc k = (worlds calls ticks n).guards.pc k := by
          intro k hk hkd
          rw [pc_next, ha, if_neg hkd]
          exact h3 k hk hkd
        have hnr := hother (by rw [hrest other hl hne]; exact hin)
        have hp := pc_next (calls := calls) (ticks := ticks) j deleter
        rw [if_pos ha.symm, spoiled_not] at hp
        have hw : (worlds calls ticks (j + 1)).holder =
            if pauses (calls deleter).asyncWith ((worlds calls ticks j).guards.pc deleter) ((worlds calls ticks (j + 1)).guards.pc deleter) then none else some deleter := by
          simp only [worlds, World.next, ha]
          simp only [ht]
        have hA : (calls deleter).asyncWith = false := by rw [hd]; rfl
        rw [hw, hA]
        refine ⟨?_, ?_, hrest⟩
        all_goals
          rcases h2 with h2 | h2 | h2 | ⟨b, h2⟩ | h2 <;> rw [h2] at hp <;> simp only [Guard.move, hx, if_true] at hp <;>
            (repeat' split at hp) <;> simp_all [pauses]
  obtain ⟨h1, h2, h3⟩ := key (m - (n + 1))
  rw [show n + 1 + (m - (n + 1)) = m by omega] at h1 h2 h3
  refine ⟨h1, ?_, h3⟩
  rcases h2 with h2 | h2 | h2 | ⟨b, h2⟩ | h2 <;> rw [h2] <;> simp

/-- A task reads the file when another one begins to delete it. -/
example :
    let calls : Nat → Fn := fun k => if k = 0 then .aread else .adelete
    let ticks : Nat → Tick := fun n => .loop (if n < 6 then 0 else 1)
    Valid calls ticks ∧ (worlds calls ticks 6).guards.pc 1 = .idle ∧ (worlds calls ticks 6).holder = none ∧ ticks 6 = .loop 1 ∧
    (worlds calls ticks 6).guards.pc 0 = .run := by
  refine ⟨fun n k => ⟨fun h => (by cases h), fun _ => ?_⟩, by decide +kernel, by decide +kernel, by decide +kernel, by decide +kernel⟩
  by_cases h : k = 0 <;> simp [h, Fn.inLoop]

end

end Aiootp.EventLoop
