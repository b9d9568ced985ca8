import Verif.Model.Spawn

/-
C70: `Threads.new`, `Processes.new` and their asynchronous variants.
-/

namespace Aiootp.Spawn

/-- C70. What is returned is what the function has returned. -/
theorem C70_returned (k : Kind) (f : Func) (es : List Event) (v : Nat) (hret : (State.init.run k f es).caller = .returned v) :
    ∃ size pickles, f = .returns v size pickles := by
  revert hret
  have gen : ∀ (es : List Event) (s : State), (∀ v, s.queue = some v ∨ s.caller = .returned v → ∃ size pickles, f = .returns v size pickles) →
      ∀ v, (s.run k f es).queue = some v ∨ (s.run k f es).caller = .returned v → ∃ size pickles, f = .returns v size pickles := by
    intro es
    induction es with
    | nil => intro s h; exact h
    | cons e es ih =>
      intro s hs
      refine ih _ ?_
      intro v
      
      cases e with
      | work =>
        simp only [State.next, State.work]
        split
        · split
          · exact hs v
          · rename_i w _ _
            rintro (hq | hc)
            · simp only [Option.some.injEq] at hq; subst hq; exact ⟨_, _, rfl⟩
            · exact hs v (.inr hc)
          · split <;> exact hs v
        · split
          · rintro (hq | hc)
            · simp only [Option.some.injEq] at hq; subst hq; exact ⟨_, _, rfl⟩
            · exact hs v (.inr hc)
          · exact hs v
        · split
          · split <;> exact hs v
          · exact hs v
        · exact hs v
      | poll =>
        simp only [State.next, State.poll]
        split
        · rename_i hq
          rintro (hq' | hc)
          · exact hs v (.inl hq')
          · simp only [Caller.returned.injEq] at hc; subst hc; exact hs _ (.inl hq)
        · rintro (hq' | hc)
          · exact hs v (.inl hq')
          · cases hc
        · exact hs v
      | kill =>
        simp only [State.next]
        split <;> exact hs v
  intro hret
  exact gen es State.init (fun v h => by simp [State.init] at h) v (.inr hret)

/-- A schedule in which nobody kills the process. -/
def Unkilled (es : List Event) : Prop := Event.kill ∉ es

def isWork : Event → Bool
  | .work => true
  | _ => false

/-- C70 for threads: once the thread has done its step, the next look at it returns the value, whatever was done before. -/
theorem C70_thread_returns (v size : Nat) (pickles : Bool) (es : List Event) (hw : 1 ≤ es.countP isWork) :
    (State.init.run .thread (.returns v size pickles) (es ++ [.poll])).caller = .returned v := by
  have run_append : ∀ (a b : List Event) (s : State), s.run .thread (.returns v size pickles) (a ++ b) =
      (s.run .thread (.returns v size pickles) a).run .thread (.returns v size pickles) b := by
    intro a
    induction a with
    | nil => intro b s; rfl
    | cons x a ih => intro b s; exact ih b _
  have ended : ∀ (es : List Event) (s : State), s.worker = .ended → s.queue = some v → s.caller = .polling ∨ s.caller = .returned v →
      let s' := s.run .thread (.returns v size pickles) es
      s'.worker = .ended ∧ s'.queue = some v ∧ (s'.caller = .polling ∨ s'.caller = .returned v) := by
    intro es
    induction es with
    | nil => intro s h1 h2 h3; exact ⟨h1, h2, h3⟩
    | cons e es ih =>
      intro s h1 h2 h3
      refine ih _ ?_ ?_ ?_
      · cases e <;> simp only [State.next, State.work, State.poll, h1] <;> (try split) <;> simp_all
      · cases e <;> simp only [State.next, State.work, State.poll, h1] <;> (try split) <;> simp_all
      · cases e <;> simp only [State.next, State.work, State.poll, h1] <;> (try split) <;> simp_all
  have gen : ∀ (es : List Event), 1 ≤ es.countP isWork → let s' := State.init.run .thread (.returns v size pickles) es
      s'.worker = .ended ∧ s'.queue = some v ∧ (s'.caller = .polling ∨ s'.caller = .returned v) := by
    intro es
    induction es with
    | nil => intro h; simp at h
    | cons e es ih =>
      intro h
      cases e with
      | work => exact ended es _ rfl rfl (.inl rfl)
      | poll => exact ih (by simpa [isWork] using h)
      | kill => exact ih (by simpa [isWork] using h)
  rw [run_append]
  obtain ⟨h1, h2, h3⟩ := gen es hw
  simp only [State.run, State.next, State.poll, h1, h2]
  rcases h3 with h3 | h3 <;> simp [h3]

/-- C70 for processes, in part: if the pickled result is not larger than what a pipe holds, then once the process has done its steps the next
look at it returns the value. Missing: larger results. -/
theorem C70_process_returns_partial (capacity v size : Nat) (hsize : size ≤ capacity) (es : List Event) (hk : Unkilled es)
    (hw : size + 2 ≤ es.countP isWork) :
    (State.init.run (.process capacity) (.returns v size true) (es ++ [.poll])).caller = .returned v := by
  let f : Func := .returns v size true
  let K : Kind := .process capacity
  show (State.init.run K f (es ++ [.poll])).caller = .returned v
  have run_append : ∀ (a b : List Event) (s : State), s.run K f (a ++ b) = (s.run K f a).run K f b := by
    intro a
    induction a with
    | nil => intro b s; rfl
    | cons x a ih => intro b s; exact ih b _
  -- how far the process is
  let Inv : Nat → State → Prop := fun n s =>
    (n = 0 ∧ s = State.init) ∨ (1 ≤ n ∧ n ≤ size + 1 ∧ s = ⟨.flushing (size + 1 - n), n - 1, none, .polling⟩) ∨
    (size + 2 ≤ n ∧ s.worker = .ended ∧ s.queue = some v ∧ (s.caller = .polling ∨ s.caller = .returned v))
  have gen : ∀ (es : List Event) (n : Nat) (s : State), Unkilled es → Inv n s → Inv (n + es.countP isWork) (s.run K f es) := by
    intro es
    induction es with
    | nil => intro n s _ h; exact h
    | cons e es ih =>
      intro n s hk h
      have hk' : Unkilled es := fun hm => hk (List.mem_cons_of_mem _ hm)
      cases e with
      | kill => exact absurd (by simp) hk
      | poll =>
        have : Inv n (s.next K f .poll) := by
          rcases h with ⟨h0, rfl⟩ | ⟨h1, h2, rfl⟩ | ⟨h1, h2, h3, h4⟩
          · exact .inl ⟨h0, rfl⟩
          · exact .inr (.inl ⟨h1, h2, rfl⟩)
          · refine .inr (.inr ⟨h1, ?_⟩)
            simp only [State.next, State.poll, h2, h3]
            rcases h4 with h4 | h4 <;> simp [h4, h2, h3]
        have := ih n _ hk' this
        simpa [isWork, State.run] using this
      | work =>
        have : Inv (n + 1) (s.next K f .work) := by
          rcases h with ⟨h0, rfl⟩ | ⟨h1, h2, rfl⟩ | ⟨h1, h2, h3, h4⟩
          · subst h0
            exact .inr (.inl ⟨by omega, by omega, by simp [State.next, State.work, State.init, f, K]⟩)
          · by_cases hn : n = size + 1
            · subst hn
              refine .inr (.inr ⟨by omega, ?_⟩)
              simp [State.next, State.work, f]
            · have e : size + 1 - n = (size - n) + 1 := by omega
              refine .inr (.inl ⟨by omega, by omega, ?_⟩)
              have hlt : n - 1 < capacity := by omega
              have e2 : n - 1 + 1 = n := by omega
              have e3 : size + 1 - (n + 1) = size - n := by omega
              have e4 : n + 1 - 1 = n := by omega
              simp only [State.next, State.work, e, K, if_pos hlt, e2, e3, e4]
          · refine .inr (.inr ⟨by omega, ?_⟩)
            simp only [State.next, State.work, h2]
            exact ⟨trivial, h3, h4⟩
        have := ih (n + 1) _ hk' this
        have e : n + List.countP isWork (.work :: es) = n + 1 + es.countP isWork := by
          rw [List.countP_cons]; simp [isWork]; omega
        rw [e]
        exact this
  rw [run_append]
  have h := gen es 0 State.init hk (.inl ⟨rfl, rfl⟩)
  rw [Nat.zero_add] at h
  rcases h with ⟨h0, _⟩ | ⟨_, h2, _⟩ | ⟨_, h1, h2, h3⟩
  · omega
  · omega
  · simp only [State.run, State.next, State.poll, h1, h2]
    rcases h3 with h3 | h3 <;> simp [h3]

/-- C70 is false for processes with results that are larger than what a pipe holds: the process waits until the pipe is read, and the
caller reads the pipe when the process has ended. In no schedule, however long, does `Processes.new` end, unless the process is killed before
it has a result. -/
theorem C70_large_result_hangs (capacity v size : Nat) (hsize : capacity < size) (es : List Event) (hk : Unkilled es) :
    (State.init.run (.process capacity) (.returns v size true) es).caller = .polling ∧
    (State.init.run (.process capacity) (.returns v size true) es).worker ≠ .ended := by
  have gen : ∀ (es : List Event) (s : State), Unkilled es → s.caller = .polling → (s.worker = .running ∧ s.pipe = 0 ∨ ∃ n, s.worker = .flushing n ∧ n + s.pipe = size ∧ s.pipe ≤ capacity) →
      (s.run (.process capacity) (.returns v size true) es).caller = .polling ∧ (s.run (.process capacity) (.returns v size true) es).worker ≠ .ended := by
    intro es
    induction es with
    | nil =>
      intro s _ hc h
      refine ⟨hc, ?_⟩
      rcases h with ⟨h, _⟩ | ⟨n, h, _⟩ <;> (show s.worker ≠ .ended; rw [h]; simp)
    | cons e es ih =>
      intro s hk hc h
      have hk' : Unkilled es := fun hm => hk (List.mem_cons_of_mem _ hm)
      cases e with
      | kill => exact absurd (by simp) hk
      | poll =>
        have : s.next (.process capacity) (.returns v size true) .poll = s := by
          rcases h with ⟨h, _⟩ | ⟨n, h, _⟩ <;> simp [State.next, State.poll, h]
        show (State.run _ _ (s.next _ _ .poll) es).caller = _ ∧ _
        simp only [State.run]
        rw [this]
        exact ih s hk' hc h
      | work =>
        refine ih _ hk' ?_ ?_
        · rcases h with ⟨h, _⟩ | ⟨n, h, _⟩
          · simp [State.next, State.work, h, hc]
          · cases n <;> simp only [State.next, State.work, h]
            · exact hc
            · split <;> exact hc
        · rcases h with ⟨h, hp⟩ | ⟨n, h, hn, hp⟩
          · exact .inr ⟨size, by simp [State.next, State.work, h], by simp [State.next, State.work, h, hp], by simp [State.next, State.work, h, hp]⟩
          · cases n with
            | zero => omega
            | succ n =>
              right
              simp only [State.next, State.work, h]
              split
              · exact ⟨n, rfl, by simp only; omega, by simp only; omega⟩
              · exact ⟨n + 1, h, hn, hp⟩
  exact gen es State.init hk rfl (.inl ⟨rfl, rfl⟩)

/-- C70 is false for exceptions: the caller of a function that raises never learns of its exception. It gets `queue.Empty`. -/
theorem C70_exception_lost (k : Kind) (e : Nat) (es : List Event) :
    (State.init.run k (.raises e) es).caller = .polling ∨ (State.init.run k (.raises e) es).caller = .empty := by
  cases h : (State.init.run k (.raises e) es).caller with
  | polling => exact .inl rfl
  | empty => exact .inr rfl
  | returned v =>
    obtain ⟨_, _, h'⟩ := C70_returned k _ es v h
    cases h'

/-- As soon as such a function has ended, the next look gives `queue.Empty`. -/
theorem C70_exception_is_empty (k : Kind) (e : Nat) (es : List Event) (hw : 1 ≤ es.countP isWork) :
    (State.init.run k (.raises e) (es ++ [.poll])).caller = .empty := by
  have gen : ∀ (es : List Event) (s : State), s.queue = none → s.worker = .running ∨ s.worker = .ended → (s.caller = .polling ∨ s.caller = .empty) →
      (1 ≤ es.countP isWork ∨ s.worker = .ended) → (s.run k (.raises e) (es ++ [.poll])).caller = .empty := by
    intro es
    induction es with
    | nil =>
      intro s hq hr hc h
      rcases h with h | h
      · simp at h
      · rcases hc with hc | hc <;> simp [State.run, State.next, State.poll, h, hq, hc]
    | cons x es ih =>
      intro s hq hr hc h
      have hrun : s.run k (.raises e) (x :: es ++ [.poll]) = (s.next k (.raises e) x).run k (.raises e) (es ++ [.poll]) := rfl
      rw [hrun]
      cases x with
      | work =>
        have hx : s.next k (.raises e) .work = { s with worker := .ended } := by
          rcases hr with hr | hr
          · cases k <;> simp [State.next, State.work, hr]
          · simp only [State.next, State.work, hr]
            cases s; simp_all
        rw [hx]
        exact ih _ hq (.inr rfl) hc (.inr rfl)
      | poll =>
        have hh : 1 ≤ es.countP isWork ∨ s.worker = .ended := by simpa [isWork] using h
        rcases hr with hr | hr
        · have hx : s.next k (.raises e) .poll = s := by rcases hc with hc | hc <;> simp [State.next, State.poll, hr, hc]
          rw [hx]
          exact ih s hq (.inl hr) hc hh
        · have hx : s.next k (.raises e) .poll = { s with caller := .empty } := by
            rcases hc with hc | hc
            · simp [State.next, State.poll, hr, hc, hq]
            · cases s; simp_all [State.next, State.poll]
          rw [hx]
          exact ih _ hq (.inr hr) (.inr rfl) (.inr hr)
      | kill =>
        have hh : 1 ≤ es.countP isWork ∨ s.worker = .ended := by simpa [isWork] using h
        have hx : s.next k (.raises e) .kill = s ∨ s.next k (.raises e) .kill = { s with worker := .ended } := by
          simp only [State.next]
          split
          · exact .inr rfl
          · exact .inl rfl
        rcases hx with hx | hx
        · rw [hx]; exact ih s hq hr hc hh
        · rw [hx]; exact ih _ hq (.inr rfl) hc (.inr rfl)
  exact gen es State.init rfl (.inl rfl) (.inl rfl) (.inl hw)

/-- The same for functions whose result cannot be pickled, which have done their work. -/
theorem C70_unpicklable_lost (capacity v size : Nat) :
    (State.init.run (.process capacity) (.returns v size false) [.work, .poll]).caller = .empty := rfl

/-! ### the hypotheses are met -/

example : (State.init.run (.process 3) (.returns 7 3 true) [.work, .work, .poll, .work, .work, .work, .poll]).caller = .returned 7 := by decide
example : Unkilled [.work, .work, .poll, .work, .work, .work] ∧ 3 + 2 ≤ [Event.work, .work, .poll, .work, .work, .work].countP isWork := by
  unfold Unkilled; decide
example : (State.init.run (.process 3) (.returns 7 4 true) (List.replicate 50 .work ++ [.poll])).worker = .flushing 1 := by decide
example : (State.init.run .thread (.raises 7) [.poll, .work, .poll]).caller = .empty := by decide

end Aiootp.Spawn
