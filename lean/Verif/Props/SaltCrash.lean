import Verif.Model.SaltCrash
import Verif.Props.Salt
import Verif.Props.SaltSequential

/-
Property C91: salt files and processes that die.
-/

namespace Aiootp.Salt

open Guard (upd upd_same upd_other)

/-- No call is in the middle of its work: each was not begun, or is over. -/
def Quiet (s : Sys) : Prop := ∀ k, s.prog k = .pre ∨ ∃ o, s.prog k = .over o

/-- A salt that a call of the process was given. -/
def Life.Gives (l : Life) (salt : Bytes) : Prop := ∃ k, l.ops k = .make salt ∨ l.ops k = .ensure salt ∨ l.ops k = .update salt

theorem afterLives_append (a b : List Life) (file : Option File) : afterLives file (a ++ b) = afterLives (afterLives file a) b := by
  induction a generalizing file with
  | nil => rfl
  | cons l a ih => exact ih _

theorem gives_of_salt {l : Life} {k : Nat} {c : Bytes} (h : (l.ops k).salt? = some c) : l.Gives c := by
  refine ⟨k, ?_⟩
  cases hop : l.ops k <;> rw [hop] at h <;> simp [Op.salt?] at h <;> simp [h]

/-! ### what is in the file -/

theorem block_content (priv : Bool) (op : Op) (P : Bytes → Prop) (h0 : P []) (hS : ∀ c, op.salt? = some c → P c) (file : Option File)
    (h : ∀ f, file = some f → P f.content) (p : Prog) : ∀ f, (block priv op file p).2 = some f → P f.content := by
  have hch : ∀ (b : Bool) (file' : Option File), chmod b file = some file' → ∀ f, file' = some f → P f.content := by
    intro b file' e f hf
    cases file with
    | none => cases e
    | some g => cases e; cases hf; exact h g rfl
  have hop : ∀ (file' : Option File), openWrite priv file = some file' → ∀ f, file' = some f → P f.content := by
    intro file' e f hf
    cases file with
    | none => cases e; cases hf; exact h0
    | some g =>
      simp only [openWrite] at e
      split at e
      · cases e
      · cases e; cases hf; exact h0
  have hwr : ∀ c, P c → ∀ f, write c file = some f → P f.content := by
    intro c hc f hf
    cases file with
    | none => cases hf
    | some g => cases hf; exact hc
  cases p <;> cases op <;> simp only [block]
  all_goals first
    | exact h
    | exact hwr _ (hS _ rfl)
    | (intro f hf; cases hf; done)
    | skip
  all_goals
    split
    all_goals first
      | exact h
      | exact hch _ _ (by assumption)
      | exact hop _ (by assumption)
      | skip
  all_goals
    split
    all_goals first
      | exact h
      | skip
  all_goals
    split <;> exact h

theorem content_step (priv : Bool) (ops : Nat → Op) (P : Bytes → Prop) (h0 : P []) (hS : ∀ k c, (ops k).salt? = some c → P c) (s : Sys) (hb : Base ops s)
    (h : ∀ f, s.file = some f → P f.content) (k : Nat) : ∀ f, (s.step priv ops k).file = some f → P f.content := by
  have hc := step_case (priv := priv) hb k
  generalize s.step priv ops k = s' at hc
  cases hc with
  | guard g hinv hpc hk => exact h
  | pre hp => exact h
  | block hp hq => exact block_content priv (ops k) P h0 (hS k) s.file h (s.prog k)

/-- **C91** Whatever processes do, and at whatever moments they die: a file that is there has the first content, the salt of some call, or nothing. -/
theorem C91_content (file : Option File) (lives : List Life) (f : File) (hf : afterLives file lives = some f) :
    f.content = [] ∨ (∃ f₀, file = some f₀ ∧ f.content = f₀.content) ∨ ∃ l ∈ lives, l.Gives f.content := by
  have gen : ∀ (lives : List Life) (file : Option File) (P : Bytes → Prop), P [] → (∀ l ∈ lives, ∀ c, l.Gives c → P c) → (∀ f, file = some f → P f.content) →
      ∀ f, afterLives file lives = some f → P f.content := by
    intro lives
    induction lives with
    | nil => intro file P _ _ h f hf; exact h f hf
    | cons l ls ih =>
      intro file P h0 hS h f hf
      refine ih _ P h0 (fun l' hl' => hS l' (by simp [hl'])) ?_ f hf
      have run : ∀ (ks : List Nat) (s : Sys), Base l.ops s → (∀ f, s.file = some f → P f.content) → ∀ f, (s.run l.privileged l.ops ks).file = some f → P f.content := by
        intro ks
        induction ks with
        | nil => intro s _ h; exact h
        | cons k ks ih =>
          intro s hb h
          exact ih _ (hb.step k) (content_step _ _ P h0 (fun k c hc => hS l (by simp) c (gives_of_salt hc)) s hb h k)
      exact run l.schedule (Sys.init file) (Base.init file) h
  refine gen lives file (fun c => c = [] ∨ (∃ f₀, file = some f₀ ∧ c = f₀.content) ∨ ∃ l ∈ lives, l.Gives c) (.inl rfl) ?_ ?_ f hf
  · intro l hl c hc; exact .inr (.inr ⟨l, hl, hc⟩)
  · intro f hf; exact .inr (.inl ⟨f, hf, rfl⟩)

theorem quiet_not_mid {s : Sys} (h : Quiet s) (k : Nat) : isMid (s.prog k) = false := by
  rcases h k with h | ⟨o, h⟩ <;> rw [h] <;> rfl

/-- The claim that a salt is never lost: what is in the file is the first salt, or a salt that some call was to set. -/
def NeverLost : Prop := ∀ (file : Option File) (lives : List Life) (f : File), afterLives file lives = some f →
  (∃ f₀, file = some f₀ ∧ f.content = f₀.content) ∨ ∃ l ∈ lives, l.Gives f.content

/-- **C91** (part) If no process dies in the middle of a call, no salt is lost. Missing: processes that die in the middle. -/
theorem C91_never_lost_partial (file : Option File) (lives : List Life) (hq : ∀ a l b, lives = a ++ l :: b → Quiet (l.last (afterLives file a)))
    (f : File) (hf : afterLives file lives = some f) : (∃ f₀, file = some f₀ ∧ f.content = f₀.content) ∨ ∃ l ∈ lives, l.Gives f.content := by
  have gen : ∀ (lives : List Life) (file : Option File) (P : Bytes → Prop), (∀ l ∈ lives, ∀ c, l.Gives c → P c) →
      (∀ a l b, lives = a ++ l :: b → Quiet (l.last (afterLives file a))) → (∀ f, file = some f → P f.content) →
      ∀ f, afterLives file lives = some f → P f.content := by
    intro lives
    induction lives with
    | nil => intro file P _ _ h f hf; exact h f hf
    | cons l ls ih =>
      intro file P hS hq h f hf
      refine ih _ P (fun l' hl' => hS l' (by simp [hl'])) (fun a l' b e => hq (l :: a) l' b (by rw [e]; rfl)) ?_ f hf
      intro f hf
      have hw : Whole l.ops P (l.last file) :=
        Whole.run (fun k c hc => hS l (by simp) c (gives_of_salt hc)) (Base.init file) ⟨fun f hf => .inl (h f hf), fun k c hk => (by simp [Sys.init, gotSalt] at hk)⟩
      rcases hw.content f hf with h1 | ⟨k, hk⟩
      · exact h1
      · have := (writing_exclusive hk).2
        rw [show isMid ((l.last file).prog k) = false from quiet_not_mid (hq [] l ls rfl) k] at this
        cases this
  refine gen lives file (fun c => (∃ f₀, file = some f₀ ∧ c = f₀.content) ∨ ∃ l ∈ lives, l.Gives c) ?_ hq ?_ f hf
  · intro l hl c hc; exact .inr ⟨l, hl, hc⟩
  · intro f hf; exact .inl ⟨f, hf, rfl⟩

/-! ### the mode of the file -/

theorem locked_step (priv : Bool) (ops : Nat → Op) (s : Sys) (hb : Base ops s)
    (h : ∀ f, s.file = some f → f.locked = true ∨ ∃ k, isMid (s.prog k) = true) (k : Nat) :
    ∀ f, (s.step priv ops k).file = some f → f.locked = true ∨ ∃ j, isMid ((s.step priv ops k).prog j) = true := by
  have hc := step_case (priv := priv) hb k
  generalize s.step priv ops k = s' at hc
  cases hc with
  | guard g hinv hpc hk => exact h
  | pre hp =>
    intro f hf
    rcases h f hf with h1 | ⟨j, hj⟩
    · exact .inl h1
    · refine .inr ⟨j, ?_⟩
      have : j ≠ k := by rintro rfl; rw [hp] at hj; cases hj
      simp only; rw [upd_other _ _ this]; exact hj
  | block hp hq =>
    intro f hf
    have main : f.locked = true ∨ isMid (block priv (ops k) s.file (s.prog k)).1 = true ∨ (s.file = some f ∧ isMid (s.prog k) = false) := by
      simp only at hf
      revert hf
      have hst := hb.steps k
      cases hprog : s.prog k <;> cases hop : ops k <;> rw [hprog] at hq hst <;> rw [hop] at hst <;> simp [isMid] at hq <;> simp [fitsOp] at hst <;> cases hfile : s.file <;>
        simp [block, openWrite, chmod, write, isMid]
      all_goals try (intro hf; subst hf; simp; done)
      all_goals (repeat' split) <;> simp_all [isMid]
    rcases main with h1 | h1 | ⟨h1, h2⟩
    · exact .inl h1
    · exact .inr ⟨k, by simp only; rw [upd_same]; exact h1⟩
    · rcases h f h1 with h3 | ⟨j, hj⟩
      · exact .inl h3
      · have : j ≠ k := by rintro rfl; rw [h2] at hj; cases hj
        exact .inr ⟨j, by simp only; rw [upd_other _ _ this]; exact hj⟩

/-- **C91** (part) If no process dies in the middle of a call, the file is never left open: it has mode 000. Missing: processes that die in the middle. -/
theorem C91_locked_partial (file : Option File) (hfile : ∀ f, file = some f → f.locked = true) (lives : List Life)
    (hq : ∀ a l b, lives = a ++ l :: b → Quiet (l.last (afterLives file a))) (f : File) (hf : afterLives file lives = some f) : f.locked = true := by
  induction lives generalizing file with
  | nil => exact hfile f hf
  | cons l ls ih =>
    refine ih (l.last file).file ?_ (fun a l' b e => hq (l :: a) l' b (by rw [e]; rfl)) hf
    have run : ∀ (ks : List Nat) (s : Sys), Base l.ops s → (∀ f, s.file = some f → f.locked = true ∨ ∃ k, isMid (s.prog k) = true) →
        ∀ f, (s.run l.privileged l.ops ks).file = some f → f.locked = true ∨ ∃ k, isMid ((s.run l.privileged l.ops ks).prog k) = true := by
      intro ks
      induction ks with
      | nil => intro s _ h; exact h
      | cons k ks ih => intro s hb h; exact ih _ (hb.step k) (locked_step _ _ s hb h k)
    intro f hf
    rcases run l.schedule (Sys.init file) (Base.init file) (fun f hf => .inl (hfile f hf)) f hf with h | ⟨k, hk⟩
    · exact h
    · have : isMid ((l.last file).prog k) = false := quiet_not_mid (hq [] l ls rfl) k
      change isMid ((l.last file).prog k) = true at hk
      rw [this] at hk
      cases hk

/-! ### processes that only read -/

/-- The calls are of `SecureSaltPath` and `read_salt_file` only. -/
def Life.Uses (l : Life) : Prop := ∀ k, (∃ salt, l.ops k = .ensure salt) ∨ l.ops k = .read

/-- **C91** Processes that use a file which is there, with `SecureSaltPath` and `read_salt_file`, never change its content, wherever they die. -/
theorem C91_uses_keep (f : File) (lives : List Life) (hl : ∀ l ∈ lives, l.Uses) : ∃ locked, afterLives (some f) lives = some ⟨locked, f.content⟩ := by
  induction lives generalizing f with
  | nil => exact ⟨f.locked, rfl⟩
  | cons l ls ih =>
    obtain ⟨⟨b, hb⟩, _⟩ := C39_ensure_existing l.privileged l.ops (hl l (by simp)) f l.schedule
    show ∃ locked, afterLives (l.last (some f)).file ls = _
    change (l.last (some f)).file = _ at hb
    rw [hb]
    exact ih ⟨b, f.content⟩ (fun l' h => hl l' (by simp [h]))

/-- **C91** What the calls of the next process end with: `read_salt_file` gives the content, or refuses it if it is too short, or raises
`PermissionError`; `SecureSaltPath` makes nothing. -/
theorem C91_uses_outcomes (f : File) (lives : List Life) (hl : ∀ l ∈ lives, l.Uses) (l : Life) (hu : l.Uses) (k : Nat) (o : Outcome)
    (ho : (l.last (afterLives (some f) lives)).prog k = .over o) :
    (l.ops k = .read ∧ ((o = .value f.content ∧ 32 ≤ f.content.length) ∨ (o = .tooShort ∧ f.content.length < 32) ∨ o = .denied)) ∨
    ((∃ salt, l.ops k = .ensure salt) ∧ o = .present) := by
  obtain ⟨b, hb⟩ := C91_uses_keep f lives hl
  rw [hb] at ho
  rcases hu k with ⟨salt, hk⟩ | hk
  · exact .inr ⟨⟨salt, hk⟩, (C39_ensure_existing l.privileged l.ops hu ⟨b, f.content⟩ l.schedule).2 k salt o hk ho⟩
  refine .inl ⟨hk, ?_⟩
  let good : Outcome → Prop := fun o => (o = .value f.content ∧ 32 ≤ f.content.length) ∨ (o = .tooShort ∧ f.content.length < 32) ∨ o = .denied
  have gen : ∀ (before after : List Nat), l.schedule = before ++ after → ∀ j, l.ops j = .read → ∀ o,
      ((Sys.init (some ⟨b, f.content⟩)).run l.privileged l.ops before).prog j = .closing o ∨
      ((Sys.init (some ⟨b, f.content⟩)).run l.privileged l.ops before).prog j = .over o → good o := by
    intro before
    induction h : before.length generalizing before with
    | zero =>
      intro after _ j _ o ho
      rw [List.length_eq_zero_iff.1 h] at ho
      simp [Sys.run, Sys.init] at ho
    | succ n ih =>
      intro after hs j hj o ho
      obtain ⟨x, i, rfl⟩ : ∃ x i, before = x ++ [i] := by
        refine ⟨before.dropLast, before.getLast (by rintro rfl; cases h), (List.dropLast_concat_getLast _).symm⟩
      have hx : x.length = n := by simpa using h
      have prev := ih x hx (i :: after) (by rw [hs]; simp)
      obtain ⟨⟨b', hfile⟩, _⟩ := C39_ensure_existing l.privileged l.ops hu ⟨b, f.content⟩ x
      have hbase : Base l.ops ((Sys.init (some ⟨b, f.content⟩)).run l.privileged l.ops x) := Base.run (Base.init _)
      rw [run_append] at ho
      generalize (Sys.init (some ⟨b, f.content⟩)).run l.privileged l.ops x = s at *
      have hc := step_case (priv := l.privileged) hbase i
      change (s.step l.privileged l.ops i).prog j = .closing o ∨ (s.step l.privileged l.ops i).prog j = .over o at ho
      generalize s.step l.privileged l.ops i = s' at hc ho
      cases hc with
      | guard g hinv hpc hk => exact prev j hj o ho
      | pre hp =>
        by_cases e : j = i
        · subst e
          simp only [upd_same, before, hj] at ho
          simp at ho
        · simp only at ho; rw [upd_other _ _ e] at ho; exact prev j hj o ho
      | block hp hq =>
        by_cases e : j = i
        · subst e
          have hst := hbase.steps j
          have pj := prev j hj
          simp only at ho
          rw [upd_same, hfile] at ho
          simp only at hfile
          cases hprog : s.prog j <;> rw [hprog, hj] at ho <;> rw [hprog] at pj hq hst <;> rw [hj] at hst <;> simp [isMid] at hq <;> simp [fitsOp] at hst
          · simp [block, chmod] at ho
          · simp only [block] at ho
            by_cases h1 : (b' && !l.privileged) = true
            · rw [if_pos h1] at ho
              simp at ho
              exact .inr (.inr ho.symm)
            · rw [if_neg h1] at ho
              by_cases h2 : f.content.length < 32
              · rw [if_pos h2] at ho
                simp at ho
                exact .inr (.inl ⟨ho.symm, h2⟩)
              · rw [if_neg h2] at ho
                simp at ho
                exact .inl ⟨ho.symm, by omega⟩
          · rename_i o'
            simp [block, chmod] at ho
            exact pj o (.inl (by rw [ho]))
        · simp only at ho; rw [upd_other _ _ e] at ho; exact prev j hj o ho
  exact gen l.schedule [] (by simp) k hk o (.inr ho)

/-! ### findings -/

/-- A process with a single call, that dies after `n` steps. -/
def Life.one (privileged : Bool) (op : Op) (n : Nat) : Life := ⟨privileged, fun _ => op, List.replicate n 0⟩

theorem one_alone (privileged : Bool) (op : Op) (n : Nat) (file : Option File) :
    ((Life.one privileged op n).last file).file = (Alone.run privileged (fun _ => op) 0 n ⟨⟨[], []⟩, .idle, .pre, file⟩).file := by
  have h := (solo_run privileged (fun _ => op) 0 n (Sys.init file) rfl).1
  have e : (Sys.init file).alone 0 = ⟨⟨[], []⟩, .idle, .pre, file⟩ := rfl
  rw [e] at h
  rw [← h]
  rfl

/-- **C91** (a defect) `SecureSaltPath` that dies after it has opened the file leaves an empty one. Whatever processes do with it afterwards by
`SecureSaltPath` and `read_salt_file`: no salt is ever made, and no call of `read_salt_file` ever returns. -/
theorem C91_ensure_dies (privileged : Bool) (salt : Bytes) : ∃ n,
    let file := ((Life.one privileged (.ensure salt) n).last none).file
    file = some ⟨false, []⟩ ∧ ∀ lives : List Life, (∀ l ∈ lives, l.Uses) →
      (∃ locked, afterLives file lives = some ⟨locked, []⟩) ∧
      ∀ l : Life, l.Uses → ∀ k o, (l.last (afterLives file lives)).prog k = .over o → o = .tooShort ∨ o = .denied ∨ o = .present := by
  refine ⟨8, ?_⟩
  have h : ((Life.one privileged (.ensure salt) 8).last none).file = some ⟨false, []⟩ := by
    rw [one_alone]
    simp [Alone.run, Alone.step, before, Guard.move, exclusive, block, openWrite]
  simp only [h]
  refine ⟨trivial, fun lives hl => ⟨C91_uses_keep _ lives hl, fun l hu k o ho => ?_⟩⟩
  rcases C91_uses_outcomes _ lives hl l hu k o ho with ⟨_, ⟨_, h⟩ | ⟨h, _⟩ | h⟩ | ⟨_, h⟩
  · simp at h
  · exact .inl h
  · exact .inr (.inl h)
  · exact .inr (.inr h)

/-- **C91** (a defect) `update_salt_file` that dies after it has opened the file loses the old salt and the new one. -/
theorem C91_update_dies (privileged : Bool) (f : File) (salt : Bytes) (hs : 32 ≤ salt.length) :
    ∃ n, ((Life.one privileged (.update salt) n).last (some f)).file = some ⟨false, []⟩ := by
  refine ⟨9, ?_⟩
  rw [one_alone]
  have : ¬ salt.length < 32 := by omega
  simp [Alone.run, Alone.step, before, Guard.move, exclusive, block, openWrite, chmod, this]

theorem C91_salts_are_lost : ¬ NeverLost := by
  intro h
  obtain ⟨n, hn⟩ := C91_update_dies false ⟨true, List.replicate 32 1⟩ (List.replicate 32 2) (by decide)
  rcases h (some ⟨true, List.replicate 32 1⟩) [Life.one false (.update (List.replicate 32 2)) n] ⟨false, []⟩ hn with ⟨f₀, h1, h2⟩ | ⟨l, hl, k, hk⟩
  · injection h1 with h1; subst h1; cases h2
  · simp only [List.mem_cons, List.not_mem_nil, or_false] at hl
    subst hl
    rcases hk with hk | hk | hk <;> cases hk

/-- **C91** (a defect) `read_salt_file` that dies leaves the file open to reading and writing, so that `make_salt_file` of the next process replaces the salt,
which it refuses to do for a file with mode 000. -/
theorem C91_read_dies (salt new : Bytes) (hnew : 32 ≤ new.length) : ∃ n,
    let file := ((Life.one false .read n).last (some ⟨true, salt⟩)).file
    file = some ⟨false, salt⟩ ∧ (effect false (.make new) file).2 = some ⟨true, new⟩ ∧
    (effect false (.make new) (some ⟨true, salt⟩)).2 = some ⟨true, salt⟩ := by
  refine ⟨8, ?_⟩
  have h : ((Life.one false .read 8).last (some ⟨true, salt⟩)).file = some ⟨false, salt⟩ := by
    rw [one_alone]
    simp [Alone.run, Alone.step, before, Guard.move, exclusive, block, chmod]
  have hn : ¬ new.length < 32 := by omega
  simp only [h]
  refine ⟨trivial, ?_, ?_⟩ <;> simp [effect, hn]

/-- What a crash has left is mended by `update_salt_file`, and the mode also by `read_salt_file`. -/
theorem C91_mended (privileged : Bool) (f : File) (salt : Bytes) (hs : 32 ≤ salt.length) :
    ((Life.one privileged (.update salt) 15).last (some f)).file = some ⟨true, salt⟩ ∧
    ((Life.one privileged .read 15).last (some f)).file = some ⟨true, f.content⟩ := by
  have hn : ¬ salt.length < 32 := by omega
  rw [one_alone, one_alone]
  have h1 := (solo_effect privileged (fun _ => .update salt) 0 (some f)).2.1
  have h2 := (solo_effect privileged (fun _ => .read) 0 (some f)).2.1
  refine ⟨h1.trans (by simp [effect, hn]), h2.trans ?_⟩
  simp only [effect]
  split <;> rfl

/-! ### the hypotheses are met -/

/-- Two processes that are not killed: the first makes the salt, the second reads it. -/
example : let lives := [Life.one false (.ensure (List.replicate 32 5)) 15, Life.one false .read 15]
    afterLives none lives = some ⟨true, List.replicate 32 5⟩ ∧
    ((Life.one false .read 15).last (afterLives none [Life.one false (.ensure (List.replicate 32 5)) 15])).prog 0 = .over (.value (List.replicate 32 5)) ∧
    (Life.one false .read 15).Uses := ⟨by decide +kernel, by decide +kernel, fun _ => .inr rfl⟩

example : Quiet ((Life.one false (.ensure (List.replicate 32 5)) 15).last none) := by
  intro k
  by_cases h : k = 0
  · subst h; exact .inr ⟨.ok, by decide +kernel⟩
  · refine .inl ?_
    exact ((solo_run false (fun _ => .ensure (List.replicate 32 5)) 0 15 (Sys.init none) rfl).2.2 k h).1

end Aiootp.Salt
