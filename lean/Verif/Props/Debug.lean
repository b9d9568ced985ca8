import Verif.Model.Debug
import Verif.Props.Views

/-!
C125: debug mode is on from `enable_debugging` to `disable_debugging`, and only then.
-/

namespace Aiootp.Debug

open Views (Obj Show Op Cls)

/-! ### specification -/

/-- The last call decides; without calls, nothing has changed. -/
def lastOf (before : Bool) : List Call → Bool
  | [] => before
  | c :: cs => lastOf c.on cs

/-! ### lemmas -/

theorem call_flag (c : Call) (s : State) : (call c s).2.flag = c.on := by
  obtain ⟨on, loop⟩ := c
  obtain ⟨flag, loops⟩ := s
  cases loop <;> cases on <;> cases flag <;> simp [call, step]

theorem call_ended (c : Call) (s : State) : (call c s).1 = if c.loop = none ∧ s.flag ≠ c.on then .raised else .returned := by
  obtain ⟨on, loop⟩ := c
  obtain ⟨flag, loops⟩ := s
  cases loop <;> cases on <;> cases flag <;> simp [call, step]

theorem call_loops (c : Call) (s : State) (m : Nat) :
    (call c s).2.loops m = if c.loop = some m ∧ s.flag ≠ c.on then c.on else s.loops m := by
  obtain ⟨on, loop⟩ := c
  obtain ⟨flag, loops⟩ := s
  cases loop <;> cases on <;> cases flag <;> simp [call, step, eq_comm]

theorem calls_append (cs ds : List Call) (s : State) : calls (cs ++ ds) s = calls ds (calls cs s) := by
  induction cs generalizing s with
  | nil => rfl
  | cons c cs ih => exact ih _

/-! ### the properties -/

/-- **C125** After any calls, `is_debugging()` is what the last call asked for, also if calls raised. -/
theorem C125_flag (cs : List Call) (s : State) : (calls cs s).flag = lastOf s.flag cs := by
  induction cs generalizing s with
  | nil => rfl
  | cons c cs ih => rw [calls, ih, call_flag]; rfl

/-- **C125** Once debugging was disabled, and whatever calls were made before, masked containers show no values: containers of a class with the same names, and with
values of the same types, have the same `repr`. -/
theorem C125_masked {V : Type} (cs : List Call) (loop : Option Nat) (s : State) (S : Show V) (c : Cls) (hc : c.Sound) (ops₁ ops₂ : List (Op V))
    (hp₁ : ∀ op ∈ ops₁, op.Plain) (hp₂ : ∀ op ∈ ops₂, op.Plain)
    (hk : ((Obj.new c : Obj V).run ops₁).keys = ((Obj.new c : Obj V).run ops₂).keys)
    (ht : ∀ n ∈ ((Obj.new c : Obj V).run ops₁).keys, (S.str n).toList.head? ≠ some '_' → ∀ v w, ((Obj.new c : Obj V).run ops₁).get n = .ok v →
      ((Obj.new c : Obj V).run ops₂).get n = .ok w → S.type v = S.type w) :
    let debugging := (calls (cs ++ [⟨false, loop⟩]) s).flag
    ((Obj.new c : Obj V).run ops₁).repr S true debugging = ((Obj.new c : Obj V).run ops₂).repr S true debugging := by
  have h : (calls (cs ++ [⟨false, loop⟩]) s).flag = false := by
    rw [calls_append]
    exact call_flag _ _
  simp only [h]
  exact Views.C75_masked S c hc ops₁ ops₂ hp₁ hp₂ hk ht

/-- **C125** If all calls are made where the same event loop runs, its debug mode is on while debugging is, and no other event loop is changed. -/
theorem C125_loop_partial (l : Nat) (cs : List Call) (hcs : ∀ c ∈ cs, c.loop = some l) (s : State) (hs : s.loops l = s.flag) :
    (calls cs s).loops l = lastOf s.flag cs ∧ ∀ m, m ≠ l → (calls cs s).loops m = s.loops m := by
  induction cs generalizing s with
  | nil => exact ⟨hs, fun _ _ => rfl⟩
  | cons c cs ih =>
    have hl := hcs c (by simp)
    have h1 : (call c s).2.loops l = (call c s).2.flag := by
      rw [call_loops, call_flag, hl, hs]
      by_cases h : s.flag = c.on <;> simp [h]
    obtain ⟨h2, h3⟩ := ih (fun d hd => hcs d (by simp [hd])) _ h1
    rw [call_flag] at h2
    refine ⟨h2, fun m hm => ?_⟩
    show (calls cs (call c s).2).loops m = _
    rw [h3 m hm, call_loops, hl, if_neg (by simp [Ne.symm hm])]

/-- **C125** A call raises exactly if there is no event loop and the mode is to be changed. It is changed nevertheless. -/
theorem C125_raises (c : Call) (s : State) : ((call c s).1 = .raised ↔ c.loop = none ∧ s.flag ≠ c.on) ∧
    ((call c s).1 = .raised ∨ (call c s).1 = .returned) ∧ (call c s).2.flag = c.on := by
  rw [call_ended, call_flag]
  by_cases h : c.loop = none ∧ s.flag ≠ c.on <;> simp [h]

/-- C125 is false: where there is no event loop `enable_debugging` raises, and masked containers show their values all the same. -/
theorem C125_raised_reveals {V : Type} (s : State) (h : s.flag = false) (S : Show V) (o : Obj V) :
    (call ⟨true, none⟩ s).1 = .raised ∧ o.repr S true (call ⟨true, none⟩ s).2.flag = o.repr S false false := by
  refine ⟨((C125_raises _ _).1).2 ⟨rfl, by simp [h]⟩, ?_⟩
  rw [call_flag]
  rfl

/-- C125 is false: an event loop stays in debug mode if debugging is disabled where another one runs, or none. -/
theorem C125_left (s : State) (h : s.flag = false) (l : Nat) (other : Option Nat) (ho : other ≠ some l) :
    (calls [⟨true, some l⟩, ⟨false, other⟩] s).flag = false ∧ (calls [⟨true, some l⟩, ⟨false, other⟩] s).loops l = true := by
  refine ⟨C125_flag _ _, ?_⟩
  simp only [calls]
  rw [call_loops, call_loops]
  simp [h, ho]

/-! ### threads -/

/-- What is known while threads make calls of one kind. -/
structure Kept (call : Nat → Call) (b : Bool) (sched : List Nat) (t : Threads) : Prop where
  past : ∀ i ∈ sched, t.pc i ≠ .start → t.pc i ≠ .assign → t.state.flag = b
  value : ∀ i ∈ sched, ∀ v, t.pc i = .apply v → v = b

theorem Kept.step {call : Nat → Call} {b : Bool} {sched : List Nat} (hb : ∀ i ∈ sched, (call i).on = b) {t : Threads} (h : Kept call b sched t) {i : Nat} (hi : i ∈ sched) :
    let r := Debug.step (call i) (t.pc i) t.state
    Kept call b sched { state := r.2, pc := fun j => if j = i then r.1 else t.pc j } ∧ (t.state.flag = b → r.2.flag = b) := by
  intro r
  have hon := hb i hi
  have hflag : t.state.flag = b → r.2.flag = b := by
    intro hf
    simp only [r]
    cases hpc : t.pc i <;> simp only [Debug.step] <;> try exact hf
    · exact hon
    · split <;> exact hf
  refine ⟨⟨?_, ?_⟩, hflag⟩
  · intro j hj h1 h2
    by_cases hji : j = i
    · subst hji
      simp only [if_true] at h1 h2
      show r.2.flag = b
      cases hpc : t.pc j with
      | start =>
        simp only [r, hpc, Debug.step] at h1 h2 ⊢
        split at h2
        · rename_i hf; rw [hf, hon]
        · exact absurd rfl h2
      | assign => simp only [r, hpc, Debug.step]; exact hon
      | _ => exact hflag (h.past j hj (by simp [hpc]) (by simp [hpc]))
    · simp only [hji, if_false] at h1 h2
      exact hflag (h.past j hj h1 h2)
  · intro j hj v hv
    by_cases hji : j = i
    · subst hji
      simp only [if_true] at hv
      cases hpc : t.pc j with
      | read =>
        simp only [r, hpc, Debug.step, Pc.apply.injEq] at hv
        rw [← hv]
        exact h.past j hj (by simp [hpc]) (by simp [hpc])
      | start => simp only [r, hpc, Debug.step] at hv; split at hv <;> cases hv
      | loop => simp only [r, hpc, Debug.step] at hv; split at hv <;> cases hv
      | apply w => simp only [r, hpc, Debug.step] at hv; split at hv <;> cases hv
      | _ => simp [r, hpc, Debug.step] at hv
    · simp only [hji, if_false] at hv
      exact h.value j hj v hv

theorem Kept.run {call : Nat → Call} {b : Bool} {all : List Nat} (hb : ∀ i ∈ all, (call i).on = b) : ∀ (sched : List Nat) (t : Threads), (∀ i ∈ sched, i ∈ all) →
    Kept call b all t → Kept call b all (Debug.run call sched t)
  | [], _, _, h => h
  | i :: is, t, hs, h => Kept.run hb is _ (fun j hj => hs j (by simp [hj])) (h.step hb (hs i (by simp))).1

/-- **C125** However the calls of any number of threads interleave, if all of them disable debugging (or all enable it) it is so as soon as one has ended. -/
theorem C125_threads (call : Nat → Call) (b : Bool) (sched : List Nat) (t : Threads) (hb : ∀ i ∈ sched, (call i).on = b) (h0 : ∀ i ∈ sched, t.pc i = .start)
    (i : Nat) (hi : i ∈ sched) (hend : ((run call sched t).pc i).ended = true) : (run call sched t).state.flag = b := by
  have h : Kept call b sched (run call sched t) := Kept.run hb sched t (fun _ h => h)
    ⟨fun j hj h1 _ => absurd (h0 j hj) h1, fun j hj v hv => by rw [h0 j hj] at hv; cases hv⟩
  exact h.past i hi (by intro h; simp [h, Pc.ended] at hend) (by intro h; simp [h, Pc.ended] at hend)

/-- The event loop is as it should be, or some call is about to make it so. -/
def Due (b : Bool) (l : Nat) (all : List Nat) (t : Threads) : Prop :=
  t.state.flag = b → t.state.loops l = b ∨ ∃ i ∈ all, t.pc i = .loop ∨ t.pc i = .read ∨ ∃ v, t.pc i = .apply v

theorem due_step {call : Nat → Call} {b : Bool} {l : Nat} {all : List Nat} (hl : ∀ i ∈ all, (call i).loop = some l) {t : Threads}
    (hk : Kept call b all t) (h : Due b l all t) {i : Nat} (hi : i ∈ all) :
    let r := Debug.step (call i) (t.pc i) t.state
    Due b l all { state := r.2, pc := fun j => if j = i then r.1 else t.pc j } := by
  intro r
  have same : r.2 = t.state → (t.pc i ≠ .loop ∧ t.pc i ≠ .read ∧ ∀ v, t.pc i ≠ .apply v) →
      Due b l all { state := r.2, pc := fun j => if j = i then r.1 else t.pc j } := by
    intro hr hn hf
    rw [hr] at hf ⊢
    rcases h hf with h1 | ⟨j, hj, h2⟩
    · exact .inl h1
    · have hji : j ≠ i := by
        rintro rfl
        rcases h2 with h2 | h2 | ⟨v, h2⟩
        · exact hn.1 h2
        · exact hn.2.1 h2
        · exact hn.2.2 v h2
      exact .inr ⟨j, hj, by simpa [hji] using h2⟩
  cases hpc : t.pc i with
  | start => exact same (by simp [r, hpc, Debug.step]) (by simp [hpc])
  | returned => exact same (by simp [r, hpc, Debug.step]) (by simp [hpc])
  | raised => exact same (by simp [r, hpc, Debug.step]) (by simp [hpc])
  | assign => exact fun _ => .inr ⟨i, hi, .inl (by simp [r, hpc, Debug.step])⟩
  | loop => exact fun _ => .inr ⟨i, hi, .inr (.inl (by simp [r, hpc, Debug.step, hl i hi]))⟩
  | read => exact fun _ => .inr ⟨i, hi, .inr (.inr ⟨t.state.flag, by simp [r, hpc, Debug.step]⟩)⟩
  | apply v => exact fun _ => .inl (by simp [r, hpc, Debug.step, hl i hi, hk.value i hi v hpc])

theorem due_run {call : Nat → Call} {b : Bool} {l : Nat} {all : List Nat} (hb : ∀ i ∈ all, (call i).on = b) (hl : ∀ i ∈ all, (call i).loop = some l) :
    ∀ (sched : List Nat) (t : Threads), (∀ i ∈ sched, i ∈ all) → Kept call b all t → Due b l all t → Due b l all (Debug.run call sched t)
  | [], _, _, _, h => h
  | i :: is, t, hs, hk, h => due_run hb hl is _ (fun j hj => hs j (by simp [hj])) (hk.step hb (hs i (by simp))).1 (due_step hl hk h (hs i (by simp)))

/-- **C125** If these threads call it where the same event loop is given, it is in debug mode (or not) when all of them have ended. -/
theorem C125_threads_loop_partial (call : Nat → Call) (b : Bool) (l : Nat) (sched : List Nat) (t : Threads) (hb : ∀ i ∈ sched, (call i).on = b)
    (hl : ∀ i ∈ sched, (call i).loop = some l) (h0 : ∀ i ∈ sched, t.pc i = .start) (hs : t.state.loops l = t.state.flag) (hne : sched ≠ [])
    (hend : ∀ i ∈ sched, ((run call sched t).pc i).ended = true) : (run call sched t).state.loops l = b := by
  have hk : Kept call b sched t := ⟨fun j hj h1 _ => absurd (h0 j hj) h1, fun j hj v hv => by rw [h0 j hj] at hv; cases hv⟩
  have hd := due_run hb hl sched t (fun _ h => h) hk fun hf => .inl (hs.trans hf)
  obtain ⟨i, hi⟩ := List.exists_mem_of_ne_nil _ hne
  rcases hd (C125_threads call b sched t hb h0 i hi (hend i hi)) with h | ⟨j, hj, h⟩
  · exact h
  · have := hend j hj
    rcases h with h | h | ⟨v, h⟩ <;> simp [h, Pc.ended] at this

/-- C125 is false of threads: `enable_debugging` and `disable_debugging` at the same time on one event loop can leave it in debug mode, with debugging off. -/
theorem C125_race (s : State) (h : s.flag = false) (l : Nat) :
    let c : Nat → Call := fun i => if i = 0 then ⟨true, some l⟩ else ⟨false, some l⟩
    let t := run c [0, 0, 0, 0, 1, 1, 1, 1, 1, 0] ⟨s, fun _ => .start⟩
    t.pc 0 = .returned ∧ t.pc 1 = .returned ∧ t.state.flag = false ∧ t.state.loops l = true := by
  simp [run, step, h]

/-! ### examples -/

/-- Two threads that disable debugging at the same time; both end. -/
example : let c : Nat → Call := fun _ => ⟨false, some 7⟩
    let t := run c [0, 1, 0, 1, 0, 0, 1, 1, 0, 1] ⟨⟨true, fun _ => true⟩, fun _ => .start⟩
    (t.pc 0).ended = true ∧ (t.pc 1).ended = true ∧ t.state.loops 7 = false ∧ t.state.loops 8 = true := by
  decide

/-- Debugging is turned on, on again, and off on one event loop. -/
example : (calls [⟨true, some 3⟩, ⟨true, some 3⟩, ⟨false, some 3⟩, ⟨true, some 3⟩] ⟨false, fun _ => false⟩).loops 3 = true :=
  (C125_loop_partial 3 _ (by simp) _ rfl).1

end Aiootp.Debug
