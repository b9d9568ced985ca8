import Verif.Spec.Salt

/-
C39: what single calls of the salt file functions do.
-/

namespace Aiootp.Salt

open Guard (PC State Event Deques)

/-- What the steps of one call see. -/
structure Alone where
  deques : Deques
  pc : PC
  prog : Prog
  file : Option File

def Sys.alone (s : Sys) (k : Nat) : Alone := ⟨s.guard.deques, s.guard.pc k, s.prog k, s.file⟩

def Alone.step (privileged : Bool) (ops : Nat → Op) (k : Nat) (s : Alone) : Alone :=
  match s.prog with
  | .pre => { s with prog := before (ops k) s.file }
  | .over _ =>
    if s.pc = .idle then s
    else
      let r := Guard.move (exclusive ops) k false s.deques s.pc
      { s with deques := r.1, pc := r.2.1 }
  | p =>
    if s.pc = .run then
      let r := block privileged (ops k) s.file p
      { s with prog := r.1, file := r.2 }
    else
      let r := Guard.move (exclusive ops) k false s.deques s.pc
      { s with deques := r.1, pc := r.2.1 }

theorem solo_step (privileged : Bool) (ops : Nat → Op) (s : Sys) (k : Nat) (hs : s.guard.spoiled k = false) :
    (s.step privileged ops k).alone k = (s.alone k).step privileged ops k ∧
    (s.step privileged ops k).guard.spoiled = s.guard.spoiled ∧
    (∀ j, j ≠ k → (s.step privileged ops k).prog j = s.prog j ∧ (s.step privileged ops k).guard.pc j = s.guard.pc j) := by
  unfold Sys.step Alone.step Sys.alone
  cases hp : s.prog k with
  | pre => simp +contextual
  | over o => by_cases h : s.guard.pc k = .idle <;> simp +contextual [hs, State.next, h, hp]
  | at0 => by_cases h : s.guard.pc k = .run <;> simp +contextual [hs, State.next, h, hp]
  | at1 => by_cases h : s.guard.pc k = .run <;> simp +contextual [hs, State.next, h, hp]
  | at2 => by_cases h : s.guard.pc k = .run <;> simp +contextual [hs, State.next, h, hp]
  | closing o => by_cases h : s.guard.pc k = .run <;> simp +contextual [hs, State.next, h, hp]

def Alone.run (privileged : Bool) (ops : Nat → Op) (k : Nat) : Nat → Alone → Alone
  | 0, s => s
  | n + 1, s => Alone.run privileged ops k n (s.step privileged ops k)

theorem solo_run (privileged : Bool) (ops : Nat → Op) (k : Nat) (n : Nat) : ∀ (s : Sys), s.guard.spoiled k = false →
    (s.run privileged ops (List.replicate n k)).alone k = Alone.run privileged ops k n (s.alone k) ∧
    (s.run privileged ops (List.replicate n k)).guard.spoiled = s.guard.spoiled ∧
    (∀ j, j ≠ k → (s.run privileged ops (List.replicate n k)).prog j = s.prog j ∧ (s.run privileged ops (List.replicate n k)).guard.pc j = s.guard.pc j) := by
  induction n with
  | zero => intro s _; exact ⟨rfl, rfl, fun _ _ => ⟨rfl, rfl⟩⟩
  | succ n ih =>
    intro s hs
    obtain ⟨g1, g2, g3⟩ := solo_step privileged ops s k hs
    obtain ⟨h1, h2, h3⟩ := ih (s.step privileged ops k) (by rw [g2]; exact hs)
    rw [List.replicate_succ]
    refine ⟨?_, h2.trans g2, fun j hj => ⟨(h3 j hj).1.trans (g3 j hj).1, (h3 j hj).2.trans (g3 j hj).2⟩⟩
    rw [g1] at h1
    exact h1

/-- The 15 steps of a call that is alone. -/
theorem solo_effect (privileged : Bool) (ops : Nat → Op) (k : Nat) (file : Option File) :
    let r := Alone.run privileged ops k 15 ⟨⟨[], []⟩, .idle, .pre, file⟩
    r.prog = .over (effect privileged (ops k) file).1 ∧ r.file = (effect privileged (ops k) file).2 ∧ r.deques = ⟨[], []⟩ := by
  cases hop : ops k with
  | make salt =>
    by_cases h : salt.length < 32
    · cases file <;> simp [Alone.run, Alone.step, before, hop, h, effect]
    · cases file with
      | none => simp [Alone.run, Alone.step, before, hop, h, effect, Guard.move, exclusive, block, openWrite, chmod, write]
      | some f =>
        by_cases hl : (f.locked && !privileged) = true
        · simp [Alone.run, Alone.step, before, hop, h, effect, Guard.move, exclusive, block, openWrite, chmod, write, hl]
        · simp [Alone.run, Alone.step, before, hop, h, effect, Guard.move, exclusive, block, openWrite, chmod, write, hl]
  | ensure salt =>
    cases file <;> simp [Alone.run, Alone.step, before, hop, effect, Guard.move, exclusive, block, openWrite, chmod, write]
  | read =>
    cases file with
    | none => simp [Alone.run, Alone.step, before, hop, effect, Guard.move, exclusive, block, chmod]
    | some f =>
      by_cases h : f.content.length < 32
      · simp [Alone.run, Alone.step, before, hop, effect, Guard.move, exclusive, block, chmod, h]
      · simp [Alone.run, Alone.step, before, hop, effect, Guard.move, exclusive, block, chmod, h]
  | update salt =>
    by_cases h : salt.length < 32
    · cases file <;> simp [Alone.run, Alone.step, before, hop, h, effect]
    · cases file <;> simp [Alone.run, Alone.step, before, hop, h, effect, Guard.move, exclusive, block, openWrite, chmod, write]
  | delete =>
    cases file <;> simp [Alone.run, Alone.step, before, hop, effect, Guard.move, exclusive, block, chmod]

/-- C39: calls one after the other do to the file what the specification says, and have the outcomes it says. -/
theorem C39_sequential (privileged : Bool) (ops : Nat → Op) (file : Option File) (calls : List Nat) (hn : calls.Nodup) :
    let s := (Sys.init file).run privileged ops (calls.flatMap (List.replicate 15))
    s.file = effects privileged ops file calls ∧
    ∀ a k b, calls = a ++ k :: b → s.prog k = .over (effect privileged (ops k) (effects privileged ops file a)).1 := by
  have run_append : ∀ (a b : List Nat) (s : Sys), s.run privileged ops (a ++ b) = (s.run privileged ops a).run privileged ops b := by
    intro a
    induction a with
    | nil => intro b s; rfl
    | cons x a ih => intro b s; exact ih b _
  have gen : ∀ (calls : List Nat) (s : Sys), calls.Nodup → s.guard.deques = ⟨[], []⟩ → (∀ k, s.guard.spoiled k = false) →
      (∀ k ∈ calls, s.prog k = .pre ∧ s.guard.pc k = .idle) →
      let s' := s.run privileged ops (calls.flatMap (List.replicate 15))
      s'.file = effects privileged ops s.file calls ∧ (∀ j, j ∉ calls → s'.prog j = s.prog j) ∧
      ∀ a k b, calls = a ++ k :: b → s'.prog k = .over (effect privileged (ops k) (effects privileged ops s.file a)).1 := by
    intro calls
    induction calls with
    | nil => intro s _ _ _ _; exact ⟨rfl, fun _ _ => rfl, fun a k b h => (by simp at h)⟩
    | cons k ks ih =>
      intro s hn hd hs hk
      obtain ⟨h1, h2, h3⟩ := solo_run privileged ops k 15 s (hs k)
      have e : s.alone k = ⟨⟨[], []⟩, .idle, .pre, s.file⟩ := by
        unfold Sys.alone
        rw [hd, (hk k (by simp)).1, (hk k (by simp)).2]
      rw [e] at h1
      obtain ⟨g1, g2, g3⟩ := solo_effect privileged ops k s.file
      rw [← h1] at g1 g2 g3
      simp only [Sys.alone] at g1 g2 g3
      have hkn := (List.nodup_cons.1 hn).1
      rw [List.flatMap_cons, run_append]
      have hne : ∀ j ∈ ks, j ≠ k := fun j hj e => hkn (e ▸ hj)
      obtain ⟨i1, i2, i3⟩ := ih (s.run privileged ops (List.replicate 15 k)) (List.nodup_cons.1 hn).2 g3 (fun j => by rw [h2]; exact hs j)
        (fun j hj => ⟨(h3 j (hne j hj)).1.trans (hk j (by simp [hj])).1, (h3 j (hne j hj)).2.trans (hk j (by simp [hj])).2⟩)
      refine ⟨by rw [i1, g2]; rfl, fun j hj => ?_, fun a j b h => ?_⟩
      · rw [i2 j (fun h => hj (by simp [h])), (h3 j (fun h => hj (by simp [h]))).1]
      · cases a with
        | nil =>
          simp only [List.nil_append, List.cons.injEq] at h
          obtain ⟨rfl, rfl⟩ := h
          rw [i2 k hkn, g1]
          rfl
        | cons x a =>
          simp only [List.cons_append, List.cons.injEq] at h
          obtain ⟨rfl, h⟩ := h
          rw [i3 a j b h, g2]
          rfl
  obtain ⟨h1, _, h3⟩ := gen calls (Sys.init file) hn rfl (fun _ => rfl) (fun _ _ => ⟨rfl, rfl⟩)
  exact ⟨h1, h3⟩

/-- A salt is made, a second one is refused, the first one is read, updated and read again, and deleted. -/
example :
    let a := List.replicate 32 1
    let b := List.replicate 32 2
    let ops : Nat → Op := fun k => match k with | 0 => .make a | 1 => .make b | 2 => .read | 3 => .update b | 4 => .read | _ => .delete
    effects false ops none [0, 1, 2] = some ⟨true, a⟩ ∧ effects false ops none [0, 1, 2, 3, 4] = some ⟨true, b⟩ ∧
    effects false ops none [0, 1, 2, 3, 4, 5] = none ∧ (effect false (ops 4) (effects false ops none [0, 1, 2, 3])).1 = .value b := by
  decide +kernel

/-- C39: also users whom modes do not bind do not replace a salt with `SecureSaltPath` when the file is there before the call. -/
theorem C39_ensure_existing (privileged : Bool) (ops : Nat → Op) (hops : ∀ k, (∃ salt, ops k = .ensure salt) ∨ ops k = .read) (f : File)
    (schedule : List Nat) : let s := (Sys.init (some f)).run privileged ops schedule
    (∃ l, s.file = some ⟨l, f.content⟩) ∧ ∀ k salt o, ops k = .ensure salt → s.prog k = .over o → o = .present := by
  have gen : ∀ (schedule : List Nat) (s : Sys), (∃ l, s.file = some ⟨l, f.content⟩) →
      (∀ k salt, ops k = .ensure salt → s.prog k = .pre ∨ s.prog k = .over .present) →
      (∃ l, (s.run privileged ops schedule).file = some ⟨l, f.content⟩) ∧
      (∀ k salt, ops k = .ensure salt → (s.run privileged ops schedule).prog k = .pre ∨ (s.run privileged ops schedule).prog k = .over .present) := by
    intro schedule
    induction schedule with
    | nil => intro s h1 h2; exact ⟨h1, h2⟩
    | cons k ks ih =>
      intro s h1 h2
      obtain ⟨l, hl⟩ := h1
      have stay : ∀ g : State, (∃ l, ({ s with guard := g } : Sys).file = some ⟨l, f.content⟩) ∧
          ∀ k salt, ops k = .ensure salt → ({ s with guard := g } : Sys).prog k = .pre ∨ ({ s with guard := g } : Sys).prog k = .over .present :=
        fun g => ⟨⟨l, hl⟩, h2⟩
      have key : (∃ l, (s.step privileged ops k).file = some ⟨l, f.content⟩) ∧
          ∀ j salt, ops j = .ensure salt → (s.step privileged ops k).prog j = .pre ∨ (s.step privileged ops k).prog j = .over .present := by
        rcases hops k with ⟨salt, hk⟩ | hk
        · rcases h2 k salt hk with hp | hp
          · simp only [Sys.step, hp, before, hk, hl, Option.isSome_some, if_true]
            refine ⟨⟨l, by first | exact hl | rfl⟩, fun j salt' hj => ?_⟩
            by_cases e : j = k
            · simp [e]
            · simp [e, h2 j salt' hj]
          · simp only [Sys.step, hp]
            split
            · exact ⟨⟨l, hl⟩, h2⟩
            · exact stay _
        · have hne : ∀ j salt, ops j = .ensure salt → j ≠ k := by
            rintro j salt hj rfl
            rw [hk] at hj; cases hj
          have upd : ∀ (p : Prog) (l' : Bool), (∃ l, ({ s with prog := fun j => if j = k then p else s.prog j, file := some ⟨l', f.content⟩ } : Sys).file = some ⟨l, f.content⟩) ∧
              ∀ j salt, ops j = .ensure salt → ({ s with prog := fun j => if j = k then p else s.prog j, file := some ⟨l', f.content⟩ } : Sys).prog j = .pre ∨
                ({ s with prog := fun j => if j = k then p else s.prog j, file := some ⟨l', f.content⟩ } : Sys).prog j = .over .present :=
            fun p l' => ⟨⟨l', rfl⟩, fun j salt hj => by simp only [if_neg (hne j salt hj)]; exact h2 j salt hj⟩
          have hblock : ∀ p, ∃ l', (block privileged (ops k) s.file p).2 = some ⟨l', f.content⟩ := by
            intro p
            rw [hk, hl]
            cases p <;> simp only [block, chmod, Option.map_some, Option.some.injEq, File.mk.injEq, and_true, exists_eq', exists_eq]
            split <;> (try split) <;> exact ⟨l, rfl⟩
          unfold Sys.step
          split
          · exact ⟨⟨l, hl⟩, fun j salt hj => by simp only [if_neg (hne j salt hj)]; exact h2 j salt hj⟩
          · split
            · exact ⟨⟨l, hl⟩, h2⟩
            · exact stay _
          · split
            · rename_i p _ _ _
              obtain ⟨l', hl'⟩ := hblock (s.prog k)
              simp only
              rw [hl']
              exact upd _ l'
            · exact stay _
      exact ih _ key.1 key.2
  obtain ⟨h1, h2⟩ := gen schedule (Sys.init (some f)) ⟨f.locked, rfl⟩ (fun _ _ _ => .inl rfl)
  refine ⟨h1, fun k salt o hk ho => ?_⟩
  rcases h2 k salt hk with h | h
  · rw [h] at ho; cases ho
  · rw [h] at ho; cases ho; rfl

/-- C39: no call returns a salt of less than 32 bytes. -/
theorem C39_no_short_salt (privileged : Bool) (ops : Nat → Op) (file : Option File) (schedule : List Nat) (k : Nat) (salt : Bytes)
    (hk : ((Sys.init file).run privileged ops schedule).prog k = .over (.value salt)) : 32 ≤ salt.length := by
  have gen : ∀ (schedule : List Nat) (s : Sys), (∀ k c, s.prog k = .over (.value c) ∨ s.prog k = .closing (.value c) → 32 ≤ c.length) →
      ∀ k c, (s.run privileged ops schedule).prog k = .over (.value c) ∨ (s.run privileged ops schedule).prog k = .closing (.value c) → 32 ≤ c.length := by
    intro schedule
    induction schedule with
    | nil => intro s h; exact h
    | cons i ks ih =>
      intro s h
      refine ih _ ?_
      have hbefore : ∀ c, ¬ (before (ops i) s.file = .over (.value c) ∨ before (ops i) s.file = .closing (.value c)) := by
        intro c
        unfold before
        cases ops i <;> simp <;> (try split) <;> simp
      have hblock : ∀ p c, p = s.prog i → (block privileged (ops i) s.file p).1 = .over (.value c) ∨ (block privileged (ops i) s.file p).1 = .closing (.value c) → 32 ≤ c.length := by
        intro p c hp hc
        cases p with
        | pre => simp [block] at hc
        | over o => simp only [block] at hc; exact h i c (by rw [← hp]; exact hc)
        | closing o =>
          simp only [block] at hc
          split at hc
          · simp at hc
          · simp only [Prog.over.injEq, reduceCtorEq, or_false] at hc
            exact h i c (.inr (by rw [← hp, hc]))
        | at0 =>
          simp only [block] at hc
          cases hop : ops i <;> simp only [hop] at hc <;> split at hc <;> simp at hc
        | at1 =>
          simp only [block] at hc
          cases hop : ops i <;> simp only [hop] at hc
          · simp at hc
          · simp at hc
          · split at hc
            · simp at hc
            · split at hc
              · simp at hc
              · split at hc
                · simp at hc
                · rename_i hlen
                  simp only [reduceCtorEq, Prog.closing.injEq, Outcome.value.injEq, false_or] at hc
                  rw [← hc]; omega
          · split at hc <;> simp at hc
          · simp at hc
        | at2 =>
          simp only [block] at hc
          cases hop : ops i <;> simp only [hop] at hc
          · split at hc <;> simp at hc
          · split at hc <;> simp at hc
          · simp at hc
          · simp at hc
          · simp at hc
      intro j c
      unfold Sys.step
      split
      · by_cases e : j = i
        · simp only [e, if_true]
          exact fun hc => absurd hc (hbefore c)
        · simp only [e, if_false]; exact h j c
      · split
        · exact h j c
        · exact h j c
      · split
        · by_cases e : j = i
          · simp only [e, if_true]
            exact hblock _ c rfl
          · simp only [e, if_false]; exact h j c
        · exact h j c
  exact gen schedule (Sys.init file) (fun k c h => by simp [Sys.init] at h) k salt (.inl hk)

/-- Such a call. -/
example : ((Sys.init (some ⟨true, List.replicate 32 7⟩)).run false (fun _ => .read) (List.replicate 15 0)).prog 0 = .over (.value (List.replicate 32 7)) := by
  decide +kernel

/-- Two calls of `SecureSaltPath` for a file that is there, by a user whom modes do not bind. -/
example :
    let s := (Sys.init (some ⟨true, List.replicate 32 7⟩)).run true (fun _ => .ensure [1]) [0, 1, 0, 1]
    s.prog 0 = .over .present ∧ s.prog 1 = .over .present ∧ s.file = some ⟨true, List.replicate 32 7⟩ := by decide +kernel

end Aiootp.Salt
