import Verif.Props.AsyncDb
import Mathlib.Data.Nat.Pairing

/-
C71, C72: all calls on an `AsyncDatabase` end, whatever the other coroutines do.
-/

namespace Aiootp.AsyncDb

open Database

variable {ρ J : Type} {E : Env ρ J}

/-- The schedule runs coroutine `k`, and each of the tasks that it spawns, again and again. -/
def Fair (k : Nat) (moves : Nat → Move) : Prop := (∀ n, ∃ m, n ≤ m ∧ moves m = .main k) ∧ ∀ i n, ∃ m, n ≤ m ∧ moves m = .part k i

/-- After the first `n` moves. -/
def Sys.upTo (s : Sys ρ J) (E : Env ρ J) (moves : Nat → Move) (n : Nat) : Sys ρ J := s.run E ((List.range n).map moves)

/-! ### how far a coroutine is from its end -/

def Save.left : Save → Nat
  | .begin => 3
  | .opening _ => 2
  | .writing _ => 1
  | .ended _ => 0

def Look.left : Look J → Nat
  | .lookup => 3
  | .reading => 2
  | .decrypting _ => 1
  | .found _ => 0

def Part.left : Part ρ J → Nat
  | .save _ _ s => s.left
  | .look _ _ _ l => l.left

def Pc.left : Pc J → Nat
  | .start => 10
  | .saving s _ => s.left + 5
  | .looking l => l.left + 5
  | .removing _ _ => 4
  | .manifestOpen _ => 8
  | .manifestWrite _ => 7
  | .spawning => 6
  | .gathering => 5
  | .ended _ => 0

def partsLeft (parts : List (Part ρ J)) : Nat := (parts.map Part.left).sum

/-- The places where each of the calls can be. -/
def Fits : Op ρ J → Pc J → Prop
  | .set .., .start | .set .., .saving _ _ => True
  | .saveTag .., .start | .saveTag .., .saving _ _ => True
  | .query .., .start | .query .., .looking _ => True
  | .pop .., .start | .pop .., .looking _ | .pop .., .removing _ _ => True
  | .delItem _, .start => True
  | .rollback .., .start | .rollback .., .looking _ => True
  | .clearCache, .start => True
  | .save _, .start | .save _, .manifestOpen _ | .save _, .manifestWrite _ | .save _, .spawning | .save _, .gathering => True
  | .loadTags .., .start | .loadTags .., .gathering => True
  | _, _ => False

def Thread.Fits (t : Thread ρ J) : Prop := ∀ op pc, t.call = some (op, pc) → AsyncDb.Fits op pc

def Thread.left (t : Thread ρ J) : Nat × Nat × Nat :=
  (2 * t.todo.length + (if t.call.isSome then 1 else 0), (t.call.map (fun c => c.2.left)).getD 0, partsLeft t.parts)

abbrev Less : Nat × Nat × Nat → Nat × Nat × Nat → Prop := Prod.Lex (· < ·) (Prod.Lex (· < ·) (· < ·))

theorem Save.step_left (n : Node J) (disk : Disk) (f : String) (r : ρ) (s : Save) : (s.step E n disk f r).1.left < s.left ∨ (s.left = 0 ∧ (s.step E n disk f r).1 = s) := by
  cases s with
  | begin =>
    left
    simp only [Save.step]
    split
    · simp [Save.left]
    · split <;> simp [Save.left]
  | opening d => left; simp [Save.step, Save.left]
  | writing d => left; simp [Save.step, Save.left]
  | ended x => right; simp [Save.step, Save.left]

theorem Look.step_left (n : Node J) (disk : Disk) (f : String) (ttl : Option Int) (silent cache : Bool) (now : Int) (l : Look J) :
    (l.step E n disk f ttl silent cache now).1.left < l.left ∨ (l.left = 0 ∧ (l.step E n disk f ttl silent cache now).1 = l) := by
  cases l with
  | lookup => left; simp only [Look.step]; split <;> simp [Look.left]
  | reading => left; simp only [Look.step]; split <;> simp [Look.left]
  | decrypting c => left; simp only [Look.step]; split <;> simp [Look.left]
  | found x => right; simp [Look.step, Look.left]

/-- A call on a tag gets nearer to its end with each step. -/
theorem tagStep_left (n : Node J) (disk : Disk) (op : Op ρ J) (pc : Pc J) (h : Fits op pc) (hw : isWide op = false) :
    (tagStep E n disk op pc).pc.left < pc.left ∧ (Fits op (tagStep E n disk op pc).pc ∨ ∃ x, (tagStep E n disk op pc).pc = .ended x) := by
  have hsave : ∀ (f : String) (drop : Bool) (r : ρ) (s : Save), (∃ x, (saveStep E f drop r n disk s).pc = .ended x) ∨
      ∃ s', (saveStep E f drop r n disk s).pc = .saving s' drop ∧ s'.left < s.left := by
    intro f drop r s
    simp only [saveStep]
    cases s with
    | ended x => left; exact ⟨_, rfl⟩
    | _ =>
      simp only
      split
      · left; exact ⟨_, rfl⟩
      · rename_i s' d' hne he
        right
        refine ⟨_, rfl, ?_⟩
        rcases Save.step_left (E := E) n disk f r _ with h | h
        · rw [he] at h; exact h
        · exact absurd h.1 (by simp [Save.left])
  have hlook : ∀ (f : String) (ttl : Option Int) (silent cache : Bool) (now : Int) (l : Look J), (∃ x, (queryLook E f n disk ttl silent cache now l).pc = .ended x) ∨
      ∃ l', (queryLook E f n disk ttl silent cache now l).pc = .looking l' ∧ l'.left < l.left := by
    intro f ttl silent cache now l
    simp only [queryLook]
    split
    · left; exact ⟨_, rfl⟩
    · rename_i l' n' hne he
      right
      refine ⟨_, rfl, ?_⟩
      rcases Look.step_left (E := E) n disk f ttl silent cache now l with h | h
      · rw [he] at h; exact h
      · rw [he] at h
        cases l <;> simp [Look.left] at h
        subst h
        exact absurd rfl (hne _)
  have hpop : ∀ (f : String) (now : Int) (l : Look J), (∃ x, (popLook E f n disk now l).pc = .ended x) ∨ (∃ v b, (popLook E f n disk now l).pc = .removing v b) ∨
      ∃ l', (popLook E f n disk now l).pc = .looking l' ∧ l'.left < l.left := by
    intro f now l
    simp only [popLook]
    split
    · left; exact ⟨_, rfl⟩
    · right; left; exact ⟨_, _, rfl⟩
    · rename_i l' n' hne hne' he
      right; right
      refine ⟨_, rfl, ?_⟩
      rcases Look.step_left (E := E) n disk f none true false now l with h | h
      · rw [he] at h; exact h
      · rw [he] at h
        cases l <;> simp [Look.left] at h
        subst h
        rename_i x
        cases x
        · exact absurd rfl (hne _)
        · exact absurd rfl (hne' _)
  cases op with
  | set tag data cache r =>
    cases pc with
    | start =>
      simp only [tagStep]
      cases cache <;> simp [Pc.left, Save.left, Fits]
    | saving s drop =>
      simp only [tagStep]
      rcases hsave (n.filename E tag) drop r s with ⟨x, hx⟩ | ⟨s', hx, hl⟩
      · rw [hx]; exact ⟨by simp [Pc.left], .inr ⟨_, rfl⟩⟩
      · rw [hx]; exact ⟨by simp [Pc.left]; omega, .inl trivial⟩
    | _ => exact h.elim
  | saveTag tag drop r =>
    cases pc with
    | start =>
      simp only [tagStep]
      rcases hsave (n.filename E tag) drop r .begin with ⟨x, hx⟩ | ⟨s', hx, hl⟩
      · rw [hx]; exact ⟨by simp [Pc.left], .inr ⟨_, rfl⟩⟩
      · have hl : s'.left < 3 := hl; rw [hx]; exact ⟨show s'.left + 5 < 10 by omega, .inl trivial⟩
    | saving s drop =>
      simp only [tagStep]
      rcases hsave (n.filename E tag) drop r s with ⟨x, hx⟩ | ⟨s', hx, hl⟩
      · rw [hx]; exact ⟨by simp [Pc.left], .inr ⟨_, rfl⟩⟩
      · rw [hx]; exact ⟨by simp [Pc.left]; omega, .inl trivial⟩
    | _ => exact h.elim
  | query tag ttl silent cache now =>
    cases pc with
    | start =>
      simp only [tagStep]
      rcases hlook (n.filename E tag) ttl silent cache now .lookup with ⟨x, hx⟩ | ⟨s', hx, hl⟩
      · rw [hx]; exact ⟨by simp [Pc.left], .inr ⟨_, rfl⟩⟩
      · have hl : s'.left < 3 := hl; rw [hx]; exact ⟨show s'.left + 5 < 10 by omega, .inl trivial⟩
    | looking l =>
      simp only [tagStep]
      rcases hlook (n.filename E tag) ttl silent cache now l with ⟨x, hx⟩ | ⟨s', hx, hl⟩
      · rw [hx]; exact ⟨by simp [Pc.left], .inr ⟨_, rfl⟩⟩
      · rw [hx]; exact ⟨by simp [Pc.left]; omega, .inl trivial⟩
    | _ => exact h.elim
  | pop tag silent now =>
    cases pc with
    | start =>
      simp only [tagStep]
      rcases hpop (n.filename E tag) now .lookup with ⟨x, hx⟩ | ⟨v, b, hx⟩ | ⟨s', hx, hl⟩
      · rw [hx]; exact ⟨by simp [Pc.left], .inr ⟨_, rfl⟩⟩
      · rw [hx]; exact ⟨by simp [Pc.left], .inl trivial⟩
      · have hl : s'.left < 3 := hl; rw [hx]; exact ⟨show s'.left + 5 < 10 by omega, .inl trivial⟩
    | looking l =>
      simp only [tagStep]
      rcases hpop (n.filename E tag) now l with ⟨x, hx⟩ | ⟨v, b, hx⟩ | ⟨s', hx, hl⟩
      · rw [hx]; exact ⟨by simp [Pc.left], .inr ⟨_, rfl⟩⟩
      · rw [hx]; exact ⟨show 4 < l.left + 5 by omega, .inl trivial⟩
      · rw [hx]; exact ⟨by simp [Pc.left]; omega, .inl trivial⟩
    | removing v b => exact ⟨by simp [tagStep, Pc.left], .inr ⟨_, rfl⟩⟩
    | _ => exact h.elim
  | delItem tag =>
    cases pc with
    | start => exact ⟨by simp [tagStep, Pc.left], .inr ⟨_, rfl⟩⟩
    | _ => exact h.elim
  | rollback tag cache now =>
    cases pc with
    | start =>
      simp only [tagStep]
      cases cache <;> simp [Pc.left, Look.left, Fits]
    | looking l =>
      simp only [tagStep]
      split
      · exact ⟨by simp [Pc.left], .inr ⟨_, rfl⟩⟩
      · exact ⟨by simp [Pc.left], .inr ⟨_, rfl⟩⟩
      · exact ⟨by simp [Pc.left], .inr ⟨_, rfl⟩⟩
      · rename_i l' n' h1 h2 h3 he
        rcases Look.step_left (E := E) n disk (n.filename E tag) none false true now l with h | h
        · rw [he] at h; have h : l'.left < l.left := h; exact ⟨show l'.left + 5 < l.left + 5 by omega, .inl trivial⟩
        · rw [he] at h
          cases l <;> simp [Look.left] at h
          subst h
          rename_i x
          cases x with
          | ok v => exact absurd rfl (h3 _)
          | error e => exact absurd rfl (h2 _)
    | _ => exact h.elim
  | _ => cases hw

theorem allEnded_of_left : ∀ parts : List (Part ρ J), partsLeft parts = 0 → allEnded parts = true
  | [], _ => rfl
  | .save f r s :: ps, h => by
    simp only [partsLeft, List.map_cons, List.sum_cons, Part.left] at h
    cases s <;> simp [Save.left] at h
    simp only [allEnded]
    exact allEnded_of_left ps (by simpa [partsLeft] using h)
  | .look t a b l :: ps, h => by
    simp only [partsLeft, List.map_cons, List.sum_cons, Part.left] at h
    cases l <;> simp [Look.left] at h
    simp only [allEnded]
    exact allEnded_of_left ps (by simpa [partsLeft] using h)

/-- A call that concerns all tags gets nearer to its end with each step, but when it waits for its tasks. -/
theorem wideStep_left (n : Node J) (disk : Disk) (parts : List (Part ρ J)) (op : Op ρ J) (pc : Pc J) (h : Fits op pc) (hw : isWide op = true) :
    ((wideStep E n disk parts op pc).1.pc.left < pc.left ∧ (Fits op (wideStep E n disk parts op pc).1.pc ∨ ∃ x, (wideStep E n disk parts op pc).1.pc = .ended x)) ∨
    (pc = .gathering ∧ wideStep E n disk parts op pc = (⟨n, disk, pc⟩, parts) ∧ partsLeft parts ≠ 0) := by
  have hg : wideStep E n disk parts op .gathering = (match failure parts with
      | some e => (⟨n, disk, .ended (.error e)⟩, parts)
      | none => (⟨n, disk, if allEnded parts then .ended (.ok none) else .gathering⟩, parts)) := by
    cases op <;> first | rfl | cases hw
  have gather : ((wideStep E n disk parts op .gathering).1.pc.left < (Pc.gathering : Pc J).left ∧
        (Fits op (wideStep E n disk parts op .gathering).1.pc ∨ ∃ x, (wideStep E n disk parts op .gathering).1.pc = .ended x)) ∨
      (((Pc.gathering : Pc J) = .gathering) ∧ wideStep E n disk parts op .gathering = (⟨n, disk, .gathering⟩, parts) ∧ partsLeft parts ≠ 0) := by
    rw [hg]
    cases failure parts with
    | some e => left; exact ⟨by simp [Pc.left], .inr ⟨_, rfl⟩⟩
    | none =>
      by_cases ha : allEnded parts = true
      · left
        simp only [ha, if_true]
        exact ⟨by simp [Pc.left], .inr ⟨_, rfl⟩⟩
      · right
        refine ⟨rfl, by simp [ha], fun h => ha (allEnded_of_left parts h)⟩
  cases op with
  | clearCache =>
    cases pc with
    | start => left; exact ⟨by simp [wideStep, Pc.left], .inr ⟨_, rfl⟩⟩
    | _ => exact h.elim
  | save rs =>
    cases pc with
    | start => left; exact ⟨by simp [wideStep, Pc.left], .inl trivial⟩
    | manifestOpen d => left; exact ⟨by simp [wideStep, Pc.left], .inl trivial⟩
    | manifestWrite d => left; exact ⟨by simp [wideStep, Pc.left], .inl trivial⟩
    | spawning => left; exact ⟨by simp [wideStep, Pc.left], .inl trivial⟩
    | gathering => exact gather
    | _ => exact h.elim
  | loadTags silent now =>
    cases pc with
    | start => left; exact ⟨by simp [wideStep, Pc.left], .inl trivial⟩
    | gathering => exact gather
    | _ => exact h.elim
  | _ => cases hw

/-- The number of calls of a coroutine: those that have ended, the one that it is in, and those that it has still to make. -/
def Thread.calls (t : Thread ρ J) : Nat := t.results.length + (if t.call.isSome then 1 else 0) + t.todo.length

/-- The own steps of a coroutine. -/
theorem main_left (s : Sys ρ J) (k : Nat) (h : (s.threads k).Fits) :
    ((s.main E k).threads k).Fits ∧ ((s.main E k).threads k).calls = (s.threads k).calls ∧
    (Less ((s.main E k).threads k).left (s.threads k).left ∨ ((s.main E k).threads k = s.threads k ∧
      (((s.threads k).todo = [] ∧ (s.threads k).call = none) ∨ partsLeft (s.threads k).parts ≠ 0))) := by
  cases hc : (s.threads k).call with
  | none =>
    cases ht : (s.threads k).todo with
    | nil =>
      have : s.main E k = s := by simp [Sys.main, hc, ht]
      rw [this]
      exact ⟨h, rfl, .inr ⟨rfl, .inl ⟨rfl, rfl⟩⟩⟩
    | cons op rest =>
      have : (s.main E k).threads k = { s.threads k with todo := rest, call := some (op, .start) } := by simp [Sys.main, hc, ht]
      rw [this]
      refine ⟨?_, ?_, .inl (.left _ _ ?_)⟩
      · intro op' pc' e
        simp only [Option.some.injEq, Prod.mk.injEq] at e
        obtain ⟨rfl, rfl⟩ := e
        cases op <;> trivial
      · simp only [Thread.calls, hc, ht]; simp; omega
      · simp only [hc, ht]; simp; omega
  | some c =>
    obtain ⟨op, pc⟩ := c
    have hf := h op pc hc
    have key : ∀ (x : Local J × List (Part ρ J)), x = (if isWide op then wideStep E s.node s.disk (s.threads k).parts op pc else (tagStep E s.node s.disk op pc, (s.threads k).parts)) →
        (s.main E k).threads k = (match x.1.pc with
          | .ended r => { s.threads k with call := none, parts := x.2, results := (s.threads k).results ++ [r] }
          | pc => { s.threads k with call := some (op, pc), parts := x.2 }) := by
      intro x hx
      subst hx
      simp only [Sys.main, hc]
      split
      · rename_i r hr; simp [hr]
      · rename_i y hr
        simp only [if_true]
    have progress : ∀ (x : Local J × List (Part ρ J)), x = (if isWide op then wideStep E s.node s.disk (s.threads k).parts op pc else (tagStep E s.node s.disk op pc, (s.threads k).parts)) →
        x.1.pc.left < pc.left → (Fits op x.1.pc ∨ ∃ r, x.1.pc = .ended r) →
        ((s.main E k).threads k).Fits ∧ ((s.main E k).threads k).calls = (s.threads k).calls ∧ Less ((s.main E k).threads k).left (s.threads k).left := by
      intro x hx hl hfx
      rw [key x hx]
      by_cases he : ∃ r, x.1.pc = .ended r
      · obtain ⟨r, he⟩ := he
        rw [he]
        refine ⟨fun op' pc' e => by simp at e, ?_, .left _ _ ?_⟩
        · simp only [Thread.calls, hc]; simp
        · simp only [hc]; simp
      · have hfx : Fits op x.1.pc := hfx.resolve_right he
        have : (match x.1.pc with
          | .ended r => { s.threads k with call := none, parts := x.2, results := (s.threads k).results ++ [r] }
          | pc => { s.threads k with call := some (op, pc), parts := x.2 }) = { s.threads k with call := some (op, x.1.pc), parts := x.2 } := by
          split
          · rename_i r hr; exact absurd ⟨r, hr⟩ he
          · rfl
        rw [this]
        refine ⟨?_, ?_, ?_⟩
        · intro op' pc' e
          simp only [Option.some.injEq, Prod.mk.injEq] at e
          obtain ⟨rfl, rfl⟩ := e
          exact hfx
        · simp only [Thread.calls, hc]; simp
        · simp only [Thread.left, hc]
          exact .right _ (.left _ _ hl)
    cases hw : isWide op with
    | true =>
      rcases wideStep_left (E := E) s.node s.disk (s.threads k).parts op pc hf hw with ⟨h1, h2⟩ | ⟨h1, h2, h3⟩
      · obtain ⟨a, b, c⟩ := progress _ (by rw [hw]; rfl) h1 h2
        exact ⟨a, b, .inl c⟩
      · have := key _ (by rw [hw])
        rw [if_pos rfl, h2, h1] at this
        have e : (s.main E k).threads k = s.threads k := by
          rw [this]
          show ({ s.threads k with call := some (op, .gathering), parts := (s.threads k).parts } : Thread ρ J) = s.threads k
          rw [← h1, ← hc]
        rw [e]
        exact ⟨h, rfl, .inr ⟨rfl, .inr h3⟩⟩
    | false =>
      obtain ⟨h1, h2⟩ := tagStep_left (E := E) s.node s.disk op pc hf hw
      obtain ⟨a, b, c⟩ := progress (tagStep E s.node s.disk op pc, (s.threads k).parts) (by rw [hw]; rfl) h1 h2
      exact ⟨a, b, .inl c⟩

theorem partsLeft_set {parts : List (Part ρ J)} {i : Nat} {p q : Part ρ J} (h : parts[i]? = some p) (hl : q.left < p.left) : partsLeft (parts.set i q) < partsLeft parts := by
  induction parts generalizing i with
  | nil => simp at h
  | cons a parts ih =>
    cases i with
    | zero =>
      simp only [List.getElem?_cons_zero, Option.some.injEq] at h
      subst h
      simp only [partsLeft, List.set_cons_zero, List.map_cons, List.sum_cons]
      omega
    | succ i =>
      simp only [List.getElem?_cons_succ] at h
      have := ih h
      simp only [partsLeft, List.set_cons_succ, List.map_cons, List.sum_cons] at this ⊢
      omega

/-- The steps of the tasks. -/
theorem part_left (s : Sys ρ J) (k i : Nat) :
    ((s.part E k i).threads k).call = (s.threads k).call ∧ ((s.part E k i).threads k).todo = (s.threads k).todo ∧ ((s.part E k i).threads k).results = (s.threads k).results ∧
    (Less ((s.part E k i).threads k).left (s.threads k).left ∨ ((s.part E k i).threads k = s.threads k ∧ ∀ p, (s.threads k).parts[i]? = some p → p.left = 0)) := by
  cases hp : (s.threads k).parts[i]? with
  | none =>
    have : s.part E k i = s := by simp [Sys.part, hp]
    rw [this]
    exact ⟨rfl, rfl, rfl, .inr ⟨rfl, fun p h => by cases h⟩⟩
  | some p =>
    have set_self : (s.threads k).parts.set i p = (s.threads k).parts := by
      obtain ⟨hi, he⟩ := List.getElem?_eq_some_iff.1 hp
      rw [← he]
      exact List.set_getElem_self hi
    cases p with
    | save f r x =>
      have : (s.part E k i).threads k = { s.threads k with parts := (s.threads k).parts.set i (.save f r (x.step E s.node s.disk f r).1) } := by simp [Sys.part, hp]
      rw [this]
      refine ⟨rfl, rfl, rfl, ?_⟩
      rcases Save.step_left (E := E) s.node s.disk f r x with h | ⟨h0, h⟩
      · left
        exact .right _ (.right _ (partsLeft_set hp h))
      · right
        rw [h, set_self]
        exact ⟨rfl, fun p e => by cases e; exact h0⟩
    | look t a b l =>
      have : (s.part E k i).threads k = { s.threads k with parts := (s.threads k).parts.set i (.look t a b (l.step E s.node s.disk (s.node.filename E t) none a true b).1) } := by
        simp [Sys.part, hp]
      rw [this]
      refine ⟨rfl, rfl, rfl, ?_⟩
      rcases Look.step_left (E := E) s.node s.disk (s.node.filename E t) none a true b l with h | ⟨h0, h⟩
      · left
        exact .right _ (.right _ (partsLeft_set hp h))
      · right
        rw [h, set_self]
        exact ⟨rfl, fun p e => by cases e; exact h0⟩

theorem other_main (s : Sys ρ J) {j k : Nat} (h : j ≠ k) : (s.main E j).threads k = s.threads k := by
  have h' : ¬ k = j := fun e => h e.symm
  cases hc : (s.threads j).call with
  | none =>
    cases ht : (s.threads j).todo with
    | nil => simp [Sys.main, hc, ht]
    | cons op rest => simp [Sys.main, hc, ht, h']
  | some c =>
    simp only [Sys.main, hc]
    split <;> simp [h']

theorem other_part (s : Sys ρ J) {j k i : Nat} (h : j ≠ k) : (s.part E j i).threads k = s.threads k := by
  have h' : ¬ k = j := fun e => h e.symm
  simp only [Sys.part]
  split <;> simp [h']

/-- All steps. -/
theorem step_left (s : Sys ρ J) (k : Nat) (m : Move) (h : (s.threads k).Fits) :
    ((s.step E m).threads k).Fits ∧ ((s.step E m).threads k).calls = (s.threads k).calls ∧
    ((s.step E m).threads k = s.threads k ∨ Less ((s.step E m).threads k).left (s.threads k).left) := by
  cases m with
  | main j =>
    by_cases hj : j = k
    · subst hj
      obtain ⟨a, b, c⟩ := main_left (E := E) s j h
      exact ⟨a, b, c.symm.imp And.left id⟩
    · simp only [Sys.step, other_main s hj]
      exact ⟨h, trivial, .inl trivial⟩
  | part j i =>
    by_cases hj : j = k
    · subst hj
      obtain ⟨a, b, c, d⟩ := part_left (E := E) s j i
      refine ⟨fun op pc e => h op pc (by rw [← a]; exact e), ?_, d.symm.imp And.left id⟩
      simp only [Sys.step, Thread.calls, a, b, c]
    · simp only [Sys.step, other_part s hj]
      exact ⟨h, trivial, .inl trivial⟩

theorem sum_zero : ∀ parts : List (Part ρ J), (∀ p ∈ parts, p.left = 0) → partsLeft parts = 0
  | [], _ => rfl
  | p :: parts, h => by
    have := sum_zero parts fun q hq => h q (List.mem_cons_of_mem _ hq)
    simp only [partsLeft, List.map_cons, List.sum_cons] at this ⊢
    rw [h p (List.mem_cons_self ..), this]

/-- As long as a coroutine has not ended, there is a step that brings it nearer to its end. -/
theorem helpful (s : Sys ρ J) (k : Nat) (h : (s.threads k).Fits) (hne : ¬ ((s.threads k).todo = [] ∧ (s.threads k).call = none)) :
    ∃ m, (m = .main k ∨ ∃ i, m = .part k i) ∧ ∀ s' : Sys ρ J, s'.threads k = s.threads k → Less ((s'.step E m).threads k).left (s.threads k).left := by
  by_cases hp : partsLeft (s.threads k).parts = 0
  · refine ⟨.main k, .inl rfl, fun s' e => ?_⟩
    rcases (main_left (E := E) s' k (e ▸ h)).2.2 with hl | ⟨_, hl | hl⟩
    · rw [← e]; exact hl
    · rw [e] at hl; exact absurd hl hne
    · rw [e] at hl; exact absurd hp hl
  · have : ∃ (i : Nat) (p : Part ρ J), (s.threads k).parts[i]? = some p ∧ p.left ≠ 0 := by
      refine Classical.byContradiction fun hno => hp ?_
      refine sum_zero _ fun p hp => ?_
      obtain ⟨i, hi⟩ := List.mem_iff_getElem?.1 hp
      exact Classical.byContradiction fun h => hno ⟨i, p, hi, h⟩
    obtain ⟨i, p, hi, hl⟩ := this
    refine ⟨.part k i, .inr ⟨i, rfl⟩, fun s' e => ?_⟩
    rcases (part_left (E := E) s' k i).2.2.2 with h | ⟨_, h⟩
    · rw [← e]; exact h
    · exact absurd (h p (by rw [e]; exact hi)) hl

theorem run_concat (s : Sys ρ J) (l : List Move) (m : Move) : s.run E (l ++ [m]) = (s.run E l).step E m := by
  induction l generalizing s with
  | nil => rfl
  | cons a l ih => exact ih _

theorem upTo_succ (s : Sys ρ J) (moves : Nat → Move) (n : Nat) : s.upTo E moves (n + 1) = (s.upTo E moves n).step E (moves n) := by
  simp only [Sys.upTo, List.range_succ, List.map_append, List.map_cons, List.map_nil, run_concat]

/-- C71, C72: every coroutine ends, whatever calls it makes, and whatever the others do meanwhile: each of its calls returns or raises. (The event loop must run it, and the tasks that it spawns, again and
again.) -/
theorem C71_ends (node : Node J) (disk : Disk) (calls : Nat → List (Op ρ J)) (k : Nat) (moves : Nat → Move) (hf : Fair k moves) :
    ∃ n, ∀ m, n ≤ m → (((Sys.start node disk calls).upTo E moves m).threads k).results.length = (calls k).length := by
  have inv : ∀ n, (((Sys.start node disk calls).upTo E moves n).threads k).Fits ∧ (((Sys.start node disk calls).upTo E moves n).threads k).calls = (calls k).length := by
    intro n
    induction n with
    | zero => exact ⟨fun op pc e => (by cases e), by simp [Sys.upTo, Sys.run, Sys.start, Thread.calls]⟩
    | succ n ih =>
      rw [upTo_succ]
      obtain ⟨a, b, _⟩ := step_left (E := E) ((Sys.start node disk calls).upTo E moves n) k (moves n) ih.1
      exact ⟨a, b.trans ih.2⟩
  have wf : WellFounded Less := (Nat.lt_wfRel.wf).prod_lex ((Nat.lt_wfRel.wf).prod_lex Nat.lt_wfRel.wf)
  have ends : ∀ (x : Nat × Nat × Nat) (n : Nat), (((Sys.start node disk calls).upTo E moves n).threads k).left = x →
      ∃ n', n ≤ n' ∧ (((Sys.start node disk calls).upTo E moves n').threads k).todo = [] ∧ (((Sys.start node disk calls).upTo E moves n').threads k).call = none := by
    intro x
    induction x using wf.induction with
    | _ x ih =>
      intro n hx
      by_cases hne : (((Sys.start node disk calls).upTo E moves n).threads k).todo = [] ∧ (((Sys.start node disk calls).upTo E moves n).threads k).call = none
      · exact ⟨n, Nat.le_refl n, hne⟩
      · obtain ⟨mv, hmv, hless⟩ := helpful (E := E) _ k (inv n).1 hne
        have : ∃ m, n ≤ m ∧ moves m = mv := by
          rcases hmv with rfl | ⟨i, rfl⟩
          · exact hf.1 n
          · exact hf.2 i n
        obtain ⟨m, hm, rfl⟩ := this
        -- either something has changed before, or the helpful step is made
        have : ∀ d, n + d ≤ m → (((Sys.start node disk calls).upTo E moves (n + d)).threads k) = (((Sys.start node disk calls).upTo E moves n).threads k) ∨
            ∃ n', n ≤ n' ∧ Less (((Sys.start node disk calls).upTo E moves n').threads k).left x := by
          intro d
          induction d with
          | zero => intro _; exact .inl rfl
          | succ d ihd =>
            intro hd
            rcases ihd (by omega) with h | h
            · rcases (step_left (E := E) _ k (moves (n + d)) (inv (n + d)).1).2.2 with h' | h'
              · left; rw [← Nat.add_assoc, upTo_succ, h', h]
              · right; exact ⟨n + d + 1, by omega, by rw [upTo_succ, ← hx, ← h]; exact h'⟩
            · exact .inr h
        have : ∃ n', n ≤ n' ∧ Less (((Sys.start node disk calls).upTo E moves n').threads k).left x := by
          rcases this (m - n) (by omega) with h | h
          · rw [Nat.add_sub_cancel' hm] at h
            exact ⟨m + 1, by omega, by rw [upTo_succ, ← hx]; exact hless _ h⟩
          · exact h
        obtain ⟨n', hn, hl⟩ := this
        obtain ⟨n'', h1, h2⟩ := ih _ hl n' rfl
        exact ⟨n'', by omega, h2⟩
  obtain ⟨n, _, ht, hc⟩ := ends _ 0 rfl
  refine ⟨n, fun m hm => ?_⟩
  have stays : ∀ d, (((Sys.start node disk calls).upTo E moves (n + d)).threads k).todo = [] ∧ (((Sys.start node disk calls).upTo E moves (n + d)).threads k).call = none := by
    intro d
    induction d with
    | zero => exact ⟨ht, hc⟩
    | succ d ihd =>
      rw [← Nat.add_assoc, upTo_succ]
      cases moves (n + d) with
      | main j =>
        by_cases hj : j = k
        · subst hj
          have : ((Sys.start node disk calls).upTo E moves (n + d)).main E j = ((Sys.start node disk calls).upTo E moves (n + d)) := by simp [Sys.main, ihd.1, ihd.2]
          simp only [Sys.step, this]
          exact ihd
        · simp only [Sys.step, other_main _ hj]; exact ihd
      | part j i =>
        by_cases hj : j = k
        · subst hj
          obtain ⟨a, b, _⟩ := part_left (E := E) ((Sys.start node disk calls).upTo E moves (n + d)) j i
          simp only [Sys.step, a, b]
          exact ihd
        · simp only [Sys.step, other_part _ hj]; exact ihd
  have := (inv m).2
  obtain ⟨s1, s2⟩ := stays (m - n)
  rw [Nat.add_sub_cancel' hm] at s1 s2
  simpa [Thread.calls, s1, s2] using this

/- A schedule that runs coroutine 3 and each of its tasks again and again. -/
example : Fair 3 (fun n => if n % 2 = 0 then .main 3 else .part 3 (Nat.unpair (n / 2)).1) := by
  refine ⟨fun n => ⟨2 * n, by omega, by simp⟩, fun i n => ⟨2 * Nat.pair i n + 1, ?_, ?_⟩⟩
  · have := Nat.right_le_pair i n
    omega
  · have : (2 * Nat.pair i n + 1) / 2 = Nat.pair i n := by omega
    simp [this]

end Aiootp.AsyncDb
