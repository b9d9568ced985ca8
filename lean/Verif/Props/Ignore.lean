import Verif.Spec.Ignore

/-
C74: blocks of `Ignore` objects.
-/

namespace Aiootp.Ignore

variable {σ : Type} (W : World σ)

/-- C74: a `with` block is the `try` statement it stands for: exceptions of the classes listed by then are given to `except_code`, and raised again unless it
gives true; others are raised; `else_code` runs without an exception; `finally_code` runs in any case. This is so for all bodies, also those that use `Ignore`
objects themselves (even the same one), or change the attributes, and for all handlers, also those that raise. -/
theorem C74_try_statement (r : Nat) (p : Prog σ) :
    W.exec (.block r p) =
      Code.tryStmt ((W.exec p).noted r)
        (fun s e => (s.relay r).ignored.any (W.sub e.cls))
        (fun e => (W.later r (·.exceptCode)).andThen fun handled => if handled then (fun s => (s, .ok ())) else Code.raise e)
        (W.later r (·.elseCode)).drop
        (W.later r (·.finallyCode)).drop := by
  funext s
  simp only [World.exec, World.run, Code.tryStmt, Code.noted]
  rcases W.run p s with ⟨s₁, log, out⟩
  cases out with
  | ok u =>
    cases u
    simp only [World.leave, World.settle, Code.drop, Code.andThen, World.later]
    rcases h : W.call (s₁.relay r).elseCode r s₁ with ⟨s₂, x⟩
    cases x with
    | error e =>
      simp only []
      rcases h' : W.call (s₂.relay r).finallyCode r s₂ with ⟨s₃, y⟩
      cases y <;> simp
    | ok b =>
      simp only []
      rcases h' : W.call (s₂.relay r).finallyCode r s₂ with ⟨s₃, y⟩
      cases y <;> simp
  | error e =>
    simp only [World.leave, World.settle, Code.drop, Code.andThen, World.later]
    generalize hs : s₁.put r { s₁.relay r with error := some e } = s₂
    by_cases hl : (s₂.relay r).ignored.any (W.sub e.cls) = true
    · simp only [hl, if_true]
      rcases h : W.call (s₂.relay r).exceptCode r s₂ with ⟨s₃, x⟩
      cases x with
      | error e' =>
        simp only []
        rcases h' : W.call (s₃.relay r).finallyCode r s₃ with ⟨s₄, y⟩
        cases y <;> simp
      | ok b =>
        simp only []
        rcases h' : W.call (s₃.relay r).finallyCode r s₃ with ⟨s₄, y⟩
        cases b <;> cases y <;> simp_all [Code.raise]
    · simp only [hl]
      simp only [Bool.false_eq_true, if_false]
      rcases h' : W.call (s₂.relay r).finallyCode r s₂ with ⟨s₄, y⟩
      cases y <;> simp

/-- C74: in every run of every program, each block that is entered runs `finally_code` exactly once when it is left, and before that `else_code` or
`except_code` or neither, but not both. -/
theorem C74_finally_once (p : Prog σ) (s : State σ) : Nested (W.run p s).2.1 := by
  induction p generalizing s with
  | act f => exact .nil
  | seq p q hp hq =>
    simp only [World.run]
    have h := hp s
    rcases hx : W.run p s with ⟨s₁, log, out⟩
    rw [hx] at h
    cases out with
    | error e => exact h
    | ok u => exact .append h (hq s₁)
  | attempt p hp => exact hp s
  | block r p hp =>
    simp only [World.run]
    have h := hp s
    rcases hx : W.run p s with ⟨s₁, log, out⟩
    rw [hx] at h
    have key : ∃ x, (W.leave r out s₁).2.1 = x ++ [Event.finished r] ∧ (x = [] ∨ x = [.excepted r] ∨ x = [.elsed r]) := by
      refine ⟨(W.settle r out s₁).2.1, ?_, ?_⟩
      · simp only [World.leave]
        split <;> rfl
      · cases out with
        | ok u =>
          cases u
          simp only [World.settle]
          split <;> simp
        | error e =>
          simp only [World.settle]
          split <;> simp
    obtain ⟨x, hx, hc⟩ := key
    simp only [hx]
    rcases hc with rfl | rfl | rfl
    · exact .unlisted r h
    · exact .excepted r h
    · exact .elsed r h

/-- Records that are nested tell how often a block was entered and left. -/
theorem Nested.count {log : List Event} (h : Nested log) (r : Nat) : log.count (.enter r) = log.count (.finished r) := by
  induction h with
  | nil => rfl
  | append ha hb iha ihb => simp [List.count_append, iha, ihb]
  | unlisted q ha ih => simp [List.count_append, List.count_cons, ih]
  | excepted q ha ih => simp [List.count_append, List.count_cons, ih]
  | elsed q ha ih => simp [List.count_append, List.count_cons, ih]

/-- C74: `finally_code` runs as often as the object was entered. -/
theorem C74_finally_count (p : Prog σ) (s : State σ) (r : Nat) :
    (W.run p s).2.1.count (.enter r) = (W.run p s).2.1.count (.finished r) := (C74_finally_once W p s).count r

/-- C74: without handlers, `with Ignore(*classes): body` raises what the body raises, except exceptions of the classes (and their subclasses), after which the
program goes on; nothing is changed but `relay.error`. -/
theorem C74_plain (r : Nat) (p : Prog σ) (s : State σ) (h₁ : ((W.exec p s).1.relay r).exceptCode = none)
    (h₂ : ((W.exec p s).1.relay r).elseCode = none) (h₃ : ((W.exec p s).1.relay r).finallyCode = none) :
    (W.exec (.block r p) s).2 =
      (match (W.exec p s).2 with
        | .ok _ => .ok ()
        | .error e => if ∃ c ∈ ((W.exec p s).1.relay r).ignored, W.sub e.cls c = true then .ok () else .error e) ∧
      (W.exec (.block r p) s).1.user = (W.exec p s).1.user ∧
      ∀ q, q ≠ r → (W.exec (.block r p) s).1.relay q = (W.exec p s).1.relay q := by
  rw [C74_try_statement]
  simp only [Code.tryStmt, Code.noted]
  rcases hx : W.exec p s with ⟨s₁, out⟩
  rw [hx] at h₁ h₂ h₃
  dsimp only at h₁ h₂ h₃
  cases out with
  | ok u =>
    cases u
    simp [Code.drop, Code.andThen, World.later, h₂, h₃, World.call]
  | error e =>
    simp only [State.put, if_true]
    by_cases hl : ((s₁.relay r).ignored.any (W.sub e.cls)) = true
    · have hl' : ∃ c ∈ (s₁.relay r).ignored, W.sub e.cls c = true := by simpa using hl
      simp only [hl, hl', if_true, Code.drop, Code.andThen, World.later, World.call, h₁, h₃]
      simp
      intro q hq h; exact absurd h hq
    · have hl' : ¬ ∃ c ∈ (s₁.relay r).ignored, W.sub e.cls c = true := by simpa using hl
      simp only [hl, hl', Code.drop, Code.andThen, World.later, World.call, h₁, h₃]
      simp
      intro q hq h; exact absurd h hq

/-- Code that leaves `relay.error` alone. -/
private def Keeps {α : Type} (r : Nat) (c : Code σ α) : Prop := ∀ s, ((c s).1.relay r).error = (s.relay r).error

private theorem keeps_andThen {α β : Type} {r : Nat} {c : Code σ α} {d : α → Code σ β} (hc : Keeps r c) (hd : ∀ a, Keeps r (d a)) : Keeps r (c.andThen d) := by
  intro s
  have h := hc s
  simp only [Code.andThen]
  rcases hx : c s with ⟨s', x⟩
  rw [hx] at h
  cases x with
  | error e => exact h
  | ok a => exact (hd a s').trans h

private theorem keeps_later {r : Nat} (hh : ∀ h q s, ((W.handler h q s).1.relay r).error = (s.relay r).error) (code : Fields → Option Nat) :
    Keeps r (W.later r code) := by
  intro s
  simp only [World.later]
  cases code (s.relay r) with
  | none => rfl
  | some h => exact hh h r s

private theorem keeps_drop {α : Type} {r : Nat} {c : Code σ α} (hc : Keeps r c) : Keeps r c.drop := keeps_andThen hc (fun _ _ => rfl)

private theorem try_error {r : Nat} {body : Code σ Unit} {listed : State σ → Exc → Bool} {handler : Exc → Code σ Unit} {orelse final : Code σ Unit}
    (hh : ∀ e, Keeps r (handler e)) (ho : Keeps r orelse) (hf : Keeps r final) (s : State σ) :
    ((body.tryStmt listed handler orelse final s).1.relay r).error = ((body s).1.relay r).error := by
  simp only [Code.tryStmt]
  rcases hb : body s with ⟨s₁, out⟩
  have key : ∀ s₂ (out' : Except Exc Unit), (s₂.relay r).error = (s₁.relay r).error →
      ((match final s₂ with
        | (s, .error e) => (s, Except.error e)
        | (s, .ok ()) => (s, out') : State σ × Except Exc Unit).1.relay r).error = (s₁.relay r).error := by
    intro s₂ out' h
    have hf' := hf s₂
    rcases hy : final s₂ with ⟨s₃, y⟩
    rw [hy] at hf'
    cases y <;> exact hf'.trans h
  cases out with
  | ok u => exact key _ _ (ho s₁)
  | error e =>
    simp only []
    by_cases hl : listed s₁ e = true
    · rw [if_pos hl]; exact key _ _ (hh e s₁)
    · rw [if_neg hl]; exact key _ _ rfl

private theorem block_error {r : Nat} (hh : ∀ h q s, ((W.handler h q s).1.relay r).error = (s.relay r).error) (p : Prog σ) (s : State σ) :
    ((W.exec (.block r p) s).1.relay r).error = ((((W.exec p).noted r s).1).relay r).error := by
  rw [C74_try_statement]
  refine try_error (fun e => keeps_andThen (keeps_later W hh _) fun b => ?_) (keeps_drop (keeps_later W hh _)) (keeps_drop (keeps_later W hh _)) s
  cases b <;> exact fun _ => rfl

/-- C74: after a block that has raised, `relay.error` holds the exception of the body (if the handlers leave it alone). -/
theorem C74_error_partial (r : Nat) (p : Prog σ) (s : State σ) (e : Exc) (hb : (W.exec p s).2 = .error e)
    (hh : ∀ h q s, ((W.handler h q s).1.relay r).error = (s.relay r).error) : ((W.exec (.block r p) s).1.relay r).error = some e := by
  rw [block_error W hh]
  simp only [Code.noted]
  rcases hx : W.exec p s with ⟨s₁, out⟩
  rw [hx] at hb
  cases hb
  simp [State.put]

/-- C74: after a block that raised nothing, `relay.error` is what it was before. An object that is used again shows the exception of an earlier block. -/
theorem C74_error_stale (r : Nat) (p q : Prog σ) (s : State σ) (e : Exc) (hb : (W.exec p s).2 = .error e)
    (hh : ∀ h q s, ((W.handler h q s).1.relay r).error = (s.relay r).error) (hok : (W.exec q (W.exec (.block r p) s).1).2 = .ok ())
    (hq : ((W.exec q (W.exec (.block r p) s).1).1.relay r).error = ((W.exec (.block r p) s).1.relay r).error) :
    ((W.exec (.seq (.attempt (.block r p)) (.block r q)) s).1.relay r).error = some e := by
  have h₁ := C74_error_partial W r p s e hb hh
  have hseq : (W.exec (.seq (.attempt (.block r p)) (.block r q)) s).1 = (W.exec (.block r q) (W.exec (.block r p) s).1).1 := by
    simp only [World.exec, World.run]
  rw [hseq, block_error W hh]
  generalize hs : (W.exec (.block r p) s).1 = s₁ at *
  simp only [Code.noted]
  rcases hx : W.exec q s₁ with ⟨s₂, out⟩
  rw [hx] at hok hq
  cases hok
  exact hq.trans h₁

/-! ### examples -/

section
/-- Class 1 is a subclass of class 0. Handler 0 counts and gives true, handler 1 counts and gives false, handler 2 raises. -/
private def W₀ : World Nat where
  sub := fun c d => c = d || (c = 1 && d = 0)
  handler := fun h _ s => ({ s with user := s.user + 1 }, if h = 2 then .error ⟨7, 7⟩ else .ok (h == 0))

private def s₀ (f : Fields) : State Nat := ⟨0, fun _ => f⟩

private def boom (c : Nat) : Prog Nat := .act fun s => (s, .error ⟨c, 5⟩)

-- a subclass is dropped, `finally_code` is called
example : (W₀.run (.block 3 (boom 1)) (s₀ { ignored := [0], finallyCode := some 0 })).2 = ([.enter 3, .excepted 3, .finished 3], .ok ()) := by rfl
-- `except_code` gives false: raised again
example : (W₀.run (.block 3 (boom 1)) (s₀ { ignored := [0], exceptCode := some 1 })).2.2 = .error ⟨1, 5⟩ := by rfl
-- other classes are raised
example : (W₀.run (.block 3 (boom 2)) (s₀ { ignored := [0] })).2 = ([.enter 3, .finished 3], .error ⟨2, 5⟩) := by rfl
-- `finally_code` raises
example : (W₀.run (.block 3 (boom 2)) (s₀ { ignored := [0], finallyCode := some 2 })).2.2 = .error ⟨7, 7⟩ := by rfl
-- the hypotheses of `C74_error_stale` are met
example : ((W₀.exec (.seq (.attempt (.block 3 (boom 1))) (.block 3 (.act fun s => (s, .ok ())))) (s₀ { ignored := [0] })).1.relay 3).error = some ⟨1, 5⟩ :=
  C74_error_stale W₀ 3 (boom 1) (.act fun s => (s, .ok ())) _ ⟨1, 5⟩ rfl (fun _ _ _ => rfl) rfl rfl
-- the hypotheses of `C74_plain` are met
example : (W₀.exec (.block 3 (boom 1)) (s₀ { ignored := [0] })).2 = .ok () := by
  rw [(C74_plain W₀ 3 (boom 1) (s₀ { ignored := [0] }) rfl rfl rfl).1]; rfl
end

end Aiootp.Ignore
