import Verif.Lemmas.Salt
import Verif.Props.Guard

/-! C38, C39: salt files that many threads use.

`ops k` is the call that thread `k` makes. A schedule is a list of threads; the next in it does its next atomic operation, on the
file or on the deques of its guard. `privileged` users are not bound by file modes. `s.prog k = .over o`: the call of `k` is over and
its outcome is `o`. All theorems hold for any number of threads. -/

namespace Aiootp.Salt

open Guard (PC)

/-- The call has set the mode of the file and not yet restored it. -/
def Reading (s : Sys) (k : Nat) : Prop := s.prog k = .at1 ∨ ∃ o, s.prog k = .closing o

/-! ### C38 -/

/-- C38 is false: two threads that read a salt file at the same time may fail, since the one that is first done takes away the
permission to read before the other has read. -/
theorem C38_readers_fail :
    ∃ schedule : List Nat, ∃ salt : Bytes, 32 ≤ salt.length ∧
      ((Sys.init (some ⟨true, salt⟩)).run false (fun _ => .read) schedule).prog 1 = .over .denied :=
  ⟨List.replicate 8 0 ++ List.replicate 8 1 ++ [0, 0, 1, 1], List.replicate 32 7, by decide, by decide +kernel⟩

/-- C38, in part: whatever the schedule, threads which read a salt file leave the salt in it, and each obtains it or fails with
`PermissionError`; when no one is in the middle of reading then the file has mode 000. Missing: that no one fails. -/
theorem C38_readers_partial (privileged : Bool) (ops : Nat → Op) (hops : ∀ k, ops k = .read) (salt : Bytes) (hsalt : 32 ≤ salt.length)
    (schedule : List Nat) :
    let s := (Sys.init (some ⟨true, salt⟩)).run privileged ops schedule
    (∀ k o, s.prog k = .over o → o = .value salt ∨ o = .denied) ∧
    (∃ f, s.file = some f ∧ f.content = salt) ∧
    ((∀ k, ¬ Reading s k) → s.file = some ⟨true, salt⟩) := by
  intro s
  have h : Readers privileged ops salt s := Readers.run hops hsalt (Base.init _) Readers.init
  have hb : Base ops s := Base.run (Base.init _)
  obtain ⟨f, hf, hfc, hl⟩ := h.file
  refine ⟨fun k o hk => ?_, ⟨f, hf, hfc⟩, fun hq => ?_⟩
  · have := h.at' k
    rw [hk] at this
    exact this.imp id (·.1)
  · rcases hl with hl | ⟨k, hk⟩
    · obtain ⟨l, c⟩ := f
      simp only at hl hfc
      rw [hf, hl, hfc]
    · exfalso
      have h2 := h.at' k
      cases hp : s.prog k <;> rw [hp] at hk h2 <;> simp [isMid] at hk
      · exact hq k (.inl hp)
      · exact h2
      · exact hq k (.inr ⟨_, hp⟩)

/-- C38 for users whom modes do not bind: no one fails. -/
theorem C38_privileged (ops : Nat → Op) (hops : ∀ k, ops k = .read) (salt : Bytes) (hsalt : 32 ≤ salt.length) (schedule : List Nat) (k : Nat)
    (o : Outcome) (hk : ((Sys.init (some ⟨true, salt⟩)).run true ops schedule).prog k = .over o) : o = .value salt := by
  have h : Readers true ops salt _ := Readers.run (ks := schedule) hops hsalt (Base.init _) Readers.init
  have := h.at' k
  rw [hk] at this
  rcases this with h | h
  · exact h
  · cases h.2

/-- C38, in part: no one fails in a schedule in which no two threads are ever in the middle of reading at the same time. -/
theorem C38_one_at_a_time_partial (privileged : Bool) (ops : Nat → Op) (hops : ∀ k, ops k = .read) (salt : Bytes) (hsalt : 32 ≤ salt.length)
    (schedule : List Nat)
    (one : ∀ a b, schedule = a ++ b → ∀ i j, Reading ((Sys.init (some ⟨true, salt⟩)).run privileged ops a) i →
      Reading ((Sys.init (some ⟨true, salt⟩)).run privileged ops a) j → i = j)
    (k : Nat) (o : Outcome) (hk : ((Sys.init (some ⟨true, salt⟩)).run privileged ops schedule).prog k = .over o) : o = .value salt := by
  have key : ∀ (b : List Nat) (s : Sys), Base ops s → Solo ops salt s →
      (∀ b1 b2, b = b1 ++ b2 → ∀ i j, Reading (s.run privileged ops b1) i → Reading (s.run privileged ops b1) j → i = j) →
      Solo ops salt (s.run privileged ops b) := by
    intro b
    induction b with
    | nil => intro s _ h _; exact h
    | cons t b ih =>
      intro s hb h h1
      refine ih _ (hb.step t) (h.step hops hsalt hb ?_ t) ?_
      · intro i j hi hj
        have read : ∀ i, isMid (s.prog i) = true → Reading s i := by
          intro i hi
          have hst := hb.steps i
          cases hp : s.prog i <;> rw [hp] at hi hst <;> simp [isMid] at hi
          · exact .inl hp
          · rw [hops] at hst; cases hst
          · exact .inr ⟨_, hp⟩
        exact h1 [] (t :: b) rfl i j (read i hi) (read j hj)
      · intro b1 b2 hb12 i j hi hj
        exact h1 (t :: b1) b2 (by rw [hb12]; rfl) i j hi hj
  exact (key schedule _ (Base.init _) Solo.init one).fine k o (.inr hk)

/-- Two threads that read one after the other both obtain the salt. -/
example :
    let s := (Sys.init (some ⟨true, List.replicate 32 7⟩)).run false (fun _ => .read) (List.replicate 14 0 ++ List.replicate 14 1)
    s.prog 0 = .over (.value (List.replicate 32 7)) ∧ s.prog 1 = .over (.value (List.replicate 32 7)) ∧
    s.guard.pc 0 = .done ∧ s.guard.pc 1 = .done ∧ s.file = some ⟨true, List.replicate 32 7⟩ := by decide +kernel

/-! ### C39 -/

/-- Calls of `make_salt_file`, `SecureSaltPath` and `read_salt_file`. -/
def Keeping (ops : Nat → Op) : Prop := ∀ k, (∃ salt, ops k = .make salt) ∨ (∃ salt, ops k = .ensure salt) ∨ ops k = .read

theorem Keeping.spec {ops : Nat → Op} (h : Keeping ops) (k : Nat) : (ops k).isMaker = true ∨ ops k = .read := by
  rcases h k with ⟨c, h⟩ | ⟨c, h⟩ | h
  · exact .inl (by rw [h]; rfl)
  · exact .inl (by rw [h]; rfl)
  · exact .inr h

/-- C39: once the salt file is made, no later call of `make_salt_file`, `SecureSaltPath` or `read_salt_file` replaces its content. -/
theorem C39_kept (ops : Nat → Op) (hops : Keeping ops) (file : Option File) (before after : List Nat) (k : Nat) (salt : Bytes)
    (hk : ops k = .make salt ∨ ops k = .ensure salt) (hmade : ((Sys.init file).run false ops before).prog k = .over .ok) :
    ∃ f, ((Sys.init file).run false ops (before ++ after)).file = some f ∧ f.content = salt := by
  have hb : Base ops ((Sys.init file).run false ops before) := Base.run (Base.init _)
  have h := Made.run (ks := before) hops.spec (Base.init file) (Made.init file)
  have hkept := h.done k salt (by rcases hk with h | h <;> rw [h] <;> rfl) (by rcases hk with h | h <;> rw [h] <;> rfl) hmade
  have := Kept.run (ks := after) hops.spec hb hkept
  rw [run_append]
  obtain ⟨f, hf, hfc, _⟩ := this.file
  exact ⟨f, hf, hfc⟩

/-- C39: a salt file which is there from the beginning is not replaced, either. -/
theorem C39_existing_kept (ops : Nat → Op) (hops : Keeping ops) (salt : Bytes) (schedule : List Nat) :
    ∃ f, ((Sys.init (some ⟨true, salt⟩)).run false ops schedule).file = some f ∧ f.content = salt := by
  have hkept : Kept ops salt (Sys.init (some ⟨true, salt⟩)) :=
    ⟨⟨_, rfl, rfl, .inl rfl⟩, fun k => by simp only [Sys.init]; cases ops k <;> rfl⟩
  obtain ⟨f, hf, hfc, _⟩ := (Kept.run (ks := schedule) hops.spec (Base.init _) hkept).file
  exact ⟨f, hf, hfc⟩

/-- C39: of the calls that make a salt file at most one succeeds, if their salts are distinct. -/
theorem C39_one_maker (ops : Nat → Op) (hops : Keeping ops) (file : Option File) (schedule : List Nat) (j k : Nat) (a b : Bytes)
    (hj : ops j = .make a ∨ ops j = .ensure a) (hk : ops k = .make b ∨ ops k = .ensure b)
    (hjmade : ((Sys.init file).run false ops schedule).prog j = .over .ok)
    (hkmade : ((Sys.init file).run false ops schedule).prog k = .over .ok) : a = b := by
  obtain ⟨f, hf, hfa⟩ := C39_kept ops hops file schedule [] j a hj hjmade
  obtain ⟨g, hg, hgb⟩ := C39_kept ops hops file schedule [] k b hk hkmade
  rw [hf] at hg
  cases hg
  rw [← hfa, hgb]

/-- C39: whatever the calls, also those that update and delete, no one ever obtains a salt other than the first or one that someone
set: a half written salt is never read. -/
theorem C39_no_torn_salt (privileged : Bool) (ops : Nat → Op) (file : Option File) (schedule : List Nat) (k : Nat) (salt : Bytes)
    (hk : ((Sys.init file).run privileged ops schedule).prog k = .over (.value salt)) :
    (∃ f, file = some f ∧ f.content = salt) ∨ ∃ j, ops j = .make salt ∨ ops j = .ensure salt ∨ ops j = .update salt := by
  let S : Bytes → Prop := fun c => (∃ f, file = some f ∧ f.content = c) ∨ ∃ j, ops j = .make c ∨ ops j = .ensure c ∨ ops j = .update c
  have hS : ∀ k c, (ops k).salt? = some c → S c := by
    intro k c h
    refine .inr ⟨k, ?_⟩
    cases hop : ops k <;> rw [hop] at h <;> simp [Op.salt?] at h <;> simp [h]
  have h0 : Whole ops S (Sys.init file) := by
    refine ⟨?_, ?_⟩
    · intro f hf
      refine .inl ?_
      exact .inl ⟨f, hf, rfl⟩
    · intro k c h
      simp [Sys.init, gotSalt] at h
  have h := Whole.run (priv := privileged) (ks := schedule) hS (Base.init file) h0
  exact h.got k salt (by rw [hk]; rfl)

/-- C39 is false for users whom modes do not bind: one call of `SecureSaltPath` may find no file, wait for another that makes it, and
then replace the salt. -/
theorem C39_privileged_replaces :
    ∃ (a b : Bytes) (before after : List Nat), a ≠ b ∧
      let ops : Nat → Op := fun k => if k = 0 then .ensure a else .ensure b
      let s := (Sys.init none).run true ops before
      s.prog 0 = .over .ok ∧ s.file = some ⟨true, a⟩ ∧ (s.run true ops after).file = some ⟨true, b⟩ :=
  ⟨List.replicate 32 1, List.replicate 32 2, [1] ++ List.replicate 14 0, List.replicate 14 1, by decide, by decide +kernel⟩

/-- The same schedule for other users: the second call fails. -/
example :
    let a := List.replicate 32 1
    let b := List.replicate 32 2
    let ops : Nat → Op := fun k => if k = 0 then .ensure a else if k = 1 then .ensure b else .read
    let s := (Sys.init none).run false ops ([1] ++ List.replicate 14 0 ++ List.replicate 14 1 ++ List.replicate 14 2)
    Keeping ops ∧ s.prog 0 = .over .ok ∧ s.prog 1 = .over .denied ∧ s.prog 2 = .over (.value a) := by
  refine ⟨?_, by decide +kernel, by decide +kernel, by decide +kernel⟩
  intro k
  by_cases h0 : k = 0
  · exact .inr (.inl ⟨_, by simp [h0]; rfl⟩)
  · by_cases h1 : k = 1
    · exact .inr (.inl ⟨_, by simp [h1]; rfl⟩)
    · exact .inr (.inr (by simp [h0, h1]))

end Aiootp.Salt
