import Verif.Lemmas.Guard

/-! The order in which guards get into the queue, start and leave. -/

namespace Aiootp.Guard

variable {x : Nat → Bool}

/-- The guards that got into the queue, in order. -/
def entries (log : List Mark) : List Nat := log.filterMap (fun m => match m with | .entered g => some g | .started _ => none)

/-- The guards that started, in order. -/
def starts (log : List Mark) : List Nat := log.filterMap (fun m => match m with | .entered _ => none | .started g => some g)

@[simp] theorem entries_append (l m : List Mark) : entries (l ++ m) = entries l ++ entries m := by simp [entries]
@[simp] theorem starts_append (l m : List Mark) : starts (l ++ m) = starts l ++ starts m := by simp [starts]
@[simp] theorem entries_nil : entries [] = [] := rfl
@[simp] theorem starts_nil : starts [] = [] := rfl
@[simp] theorem entries_entered (g : Nat) : entries [.entered g] = [g] := rfl
@[simp] theorem entries_started (g : Nat) : entries [.started g] = [] := rfl
@[simp] theorem starts_entered (g : Nat) : starts [.entered g] = [] := rfl
@[simp] theorem starts_started (g : Nat) : starts [.started g] = [g] := rfl

/-- `a` is in the list, and `b` after it. -/
def Before (l : List Nat) (a b : Nat) : Prop := ∃ l1 l2 l3, l = l1 ++ a :: (l2 ++ b :: l3)

theorem before_append_of {l m : List Nat} {a b : Nat} (h : Before l a b) : Before (l ++ m) a b := by
  obtain ⟨l1, l2, l3, rfl⟩ := h
  exact ⟨l1, l2, l3 ++ m, by simp⟩

theorem before_snoc {l : List Nat} {a b c : Nat} (h : Before (l ++ [c]) a b) : Before l a b ∨ (b = c ∧ a ∈ l) := by
  obtain ⟨l1, l2, l3, e⟩ := h
  rcases List.eq_nil_or_concat l3 with rfl | ⟨l3', d, rfl⟩
  · have : l ++ [c] = (l1 ++ a :: l2) ++ [b] := by rw [e]; simp
    have := List.append_inj' this (by simp)
    simp only [List.cons.injEq, and_true] at this
    refine .inr ⟨this.2.symm, by rw [this.1]; simp⟩
  · have : l ++ [c] = (l1 ++ a :: (l2 ++ b :: l3')) ++ [d] := by rw [e]; simp
    have := List.append_inj' this (by simp)
    exact .inl ⟨l1, l2, l3', this.1⟩

theorem Before.left {l : List Nat} {a b : Nat} (h : Before l a b) : a ∈ l := by
  obtain ⟨l1, l2, l3, rfl⟩ := h; simp

theorem Before.right {l : List Nat} {a b : Nat} (h : Before l a b) : b ∈ l := by
  obtain ⟨l1, l2, l3, rfl⟩ := h; simp

/-- The first of what is left of a list without repetitions: everything before it is gone. -/
theorem before_head {gone rest : List Nat} {a b : Nat} (hn : (gone ++ b :: rest).Nodup) (h : Before (gone ++ b :: rest) a b) : a ∈ gone := by
  obtain ⟨l1, l2, l3, e⟩ := h
  have e' : gone ++ b :: rest = (l1 ++ a :: l2) ++ b :: l3 := by rw [e]; simp
  have hb1 : b ∉ gone := by
    intro hb
    exact (List.nodup_append.1 hn).2.2 b hb b (by simp) rfl
  have hn' := hn
  rw [e'] at hn'
  have hb2 : b ∉ l1 ++ a :: l2 := by
    intro hb
    exact (List.nodup_append.1 hn').2.2 b hb b (by simp) rfl
  have : gone = l1 ++ a :: l2 := by
    clear hn hn' e
    revert hb1 hb2 e'
    generalize l1 ++ a :: l2 = m
    induction gone generalizing m with
    | nil =>
      intro e' _ hb2
      cases m with
      | nil => rfl
      | cons c m => simp only [List.nil_append, List.cons_append, List.cons.injEq] at e'; simp [e'.1] at hb2
    | cons c gone ih =>
      intro e' hb1 hb2
      cases m with
      | nil => simp only [List.nil_append, List.cons_append, List.cons.injEq] at e'; simp [e'.1] at hb1
      | cons d m =>
        simp only [List.cons_append, List.cons.injEq] at e'
        rw [e'.1, ih m e'.2 (by simp at hb1; exact hb1.2) (by simp at hb2; exact hb2.2)]
  rw [this]; simp

/-! ### where a guard is in its life -/

/-- The guard got into the queue. -/
def hasEntered : PC → Bool
  | .idle | .notifyOn | .getIn => false
  | _ => true

/-- The guard has left, or is about to record that it is done. -/
def hasLeft : PC → Bool
  | .finish | .done | .failed => true
  | _ => false

/-- It was the turn of the guard. -/
def hasPassed : PC → Bool
  | .start | .run | .notifyOff | .getOff | .fault1 | .fault2 | .lostLeaving | .finish | .done | .failed | .broken => true
  | _ => false

/-- The guard has started the guarded block. -/
def hasStarted : PC → Bool
  | .run | .notifyOff | .getOff | .lostLeaving | .finish | .done | .failed | .broken => true
  | _ => false

/-! ### the invariant of the log -/

structure Order (x : Nat → Bool) (s : State) : Prop where
  inv : Inv x s.deques s.pc
  split : ∃ gone, entries s.log = gone ++ s.deques.queue
  nodup : (entries s.log).Nodup
  mem : ∀ g, g ∈ entries s.log ↔ hasEntered (s.pc g) = true
  turn : ∀ g h, Before (entries s.log) g h → (x g = true ∨ x h = true) → hasPassed (s.pc h) = true → hasLeft (s.pc g) = true
  began : ∀ g, g ∈ starts s.log → hasStarted (s.pc g) = true
  once : (starts s.log).Nodup
  fifo : ∀ g h, Before (entries s.log) g h → (x g = true ∨ x h = true) → ¬ Before (starts s.log) h g

theorem Order.init : Order x State.init :=
  ⟨Inv.init, ⟨[], rfl⟩, by simp [State.init], by intro g; simp [State.init, hasEntered],
    by intro g h hb; simp [State.init] at hb; obtain ⟨_, _, _, e⟩ := hb; simp at e, by simp [State.init], by simp [State.init],
    by intro g h hb; simp [State.init] at hb; obtain ⟨_, _, _, e⟩ := hb; simp at e⟩

/-- A guard that entered and has left the queue, apart from non-exclusive guards at work. -/
theorem left_of_gone {pc : Nat → PC} {q : List Nat} (hQ : Queue x pc q) (hfit : ∀ g, fits (x g) (pc g) = true) {g : Nat} (h1 : hasEntered (pc g) = true)
    (h2 : g ∉ q) (h3 : x g = true ∨ inN (pc g) = false) : hasLeft (pc g) = true := by
  have h2' : inQueue (x g) (pc g) = false := by
    cases hi : inQueue (x g) (pc g) with
    | false => rfl
    | true => exact absurd ((hQ.mem g).2 hi) h2
  have hf := hfit g
  cases hx : x g <;> cases hp : pc g <;> rw [hp] at h1 h2' h3 hf <;> rw [hx] at h2' h3 hf <;>
    simp_all [hasEntered, inQueue, inN, hasLeft, fits]

/-- What one atomic operation does to the life of a guard. -/
structure Stable (x : Nat → Bool) (g : Nat) (d d' : Deques) (p p' : PC) (m : Option Mark) : Prop where
  left : hasLeft p = true → hasLeft p' = true
  passed : hasPassed p = true → hasPassed p' = true
  started : hasStarted p = true → hasStarted p' = true
  passes : hasPassed p' = true → hasPassed p = true ∨ (p = .checkObservers true ∧ d' = d ∧ p' = .start) ∨ (p = .takeOff ∧ p' = .start) ∨ p' = .broken
  mark : m = none ∨ m = some (.entered g) ∧ p = .getIn ∨ m = some (.started g) ∧ p = .start ∧ p' = .run
  entered : m = some (.entered g) ∨ hasEntered p' = hasEntered p
  queue : d'.queue = (if m = some (.entered g) then d.queue ++ [g] else d.queue) ∨ m = none ∧ d'.queue = d.queue.tail

theorem move_stable (g : Nat) (spoiled : Bool) (d : Deques) (p : PC) :
    Stable x g d (move x g spoiled d p).1 p (move x g spoiled d p).2.1 (move x g spoiled d p).2.2 := by
  obtain ⟨q, o⟩ := d
  cases p with
  | checkObservers b =>
    cases o with
    | nil => constructor <;> simp [move, hasLeft, hasPassed, hasStarted, hasEntered]
    | cons a o =>
      simp only [move]
      split
      · rename_i hb
        simp only [Bool.and_eq_true] at hb
        constructor <;> simp [hasLeft, hasPassed, hasStarted, hasEntered, hb.1]
      · constructor <;> simp [hasLeft, hasPassed, hasStarted, hasEntered]
  | check =>
    cases q with
    | nil => constructor <;> simp [move, hasLeft, hasPassed, hasStarted, hasEntered]
    | cons a q =>
      simp only [move]
      split
      · constructor <;> simp [hasLeft, hasPassed, hasStarted, hasEntered]
      · simp only []
        split <;> constructor <;> simp [hasLeft, hasPassed, hasStarted, hasEntered]
  | idle =>
    simp only [move]
    split <;> constructor <;> simp [hasLeft, hasPassed, hasStarted, hasEntered]
  | takeOff =>
    cases q with
    | nil => constructor <;> simp [move, hasLeft, hasPassed, hasStarted, hasEntered]
    | cons a q =>
      simp only [move]
      split <;> constructor <;> simp [hasLeft, hasPassed, hasStarted, hasEntered]
  | getOff | fault2 =>
    cases q with
    | nil => constructor <;> simp [move, hasLeft, hasPassed, hasStarted, hasEntered]
    | cons a q =>
      simp only [move]
      split <;> constructor <;> simp [hasLeft, hasPassed, hasStarted, hasEntered]
  | start =>
    simp only [move]
    split <;> constructor <;> simp [hasLeft, hasPassed, hasStarted, hasEntered]
  | notifyOff | fault1 =>
    simp only [move]
    split
    · constructor <;> simp [hasLeft, hasPassed, hasStarted, hasEntered]
    · split <;> constructor <;> simp [hasLeft, hasPassed, hasStarted, hasEntered]
  | finish =>
    simp only [move]
    split <;> constructor <;> simp [hasLeft, hasPassed, hasStarted, hasEntered]
  | _ => constructor <;> simp [move, hasLeft, hasPassed, hasStarted, hasEntered]

theorem upd_of {P : PC → Bool} {pc : Nat → PC} {g k : Nat} {p' : PC} (h : P (pc g) = true → P p' = true) (hk : P (pc k) = true) :
    P (upd pc g p' k) = true := by
  by_cases hkg : k = g
  · subst hkg; rw [upd_same]; exact h hk
  · rw [upd_other _ _ hkg]; exact hk

/-- Everyone ahead of a guard whose turn it is has left. -/
theorem Order.turn_new {s : State} (h : Order x s) {g k : Nat} (hb : Before (entries s.log) k g) (hx : x k = true ∨ x g = true)
    (hp : s.pc g = .checkObservers true ∧ (∀ l, x l = false → inN (s.pc l) = false) ∨ s.pc g = .takeOff) : hasLeft (s.pc k) = true := by
  have hkg : k ∈ entries s.log := hb.left
  have hent := (h.mem k).1 hkg
  have hf := h.inv.fits g
  have hhead : s.deques.queue.head? = some g := by
    apply h.inv.queue.head
    rcases hp with ⟨hp, _⟩ | hp <;> rw [hp] at hf ⊢ <;> cases hxg : x g <;> rw [hxg] at hf <;> simp [fits] at hf <;> rfl
  obtain ⟨rest, hq⟩ : ∃ rest, s.deques.queue = g :: rest := by
    cases hq : s.deques.queue with
    | nil => rw [hq] at hhead; simp at hhead
    | cons a r => rw [hq] at hhead; simp only [List.head?_cons, Option.some.injEq] at hhead; exact ⟨r, by rw [hhead]⟩
  obtain ⟨gone, hs⟩ := h.split
  rw [hq] at hs
  have hn := h.nodup
  rw [hs] at hn hb
  have hgone := before_head hn hb
  have hnot : k ∉ s.deques.queue := by
    rw [hq]
    intro hk
    exact (List.nodup_append.1 hn).2.2 k hgone k hk rfl
  refine left_of_gone h.inv.queue h.inv.fits hent hnot ?_
  rcases hp with ⟨hp, hN⟩ | hp
  · cases hxk : x k with
    | true => exact .inl rfl
    | false => exact .inr (hN k hxk)
  · rw [hp] at hf
    rcases hx with hx | hx
    · exact .inl hx
    · rw [hx] at hf; simp [fits] at hf

theorem Order.step {s : State} (h : Order x s) (g : Nat) : Order x (s.next x (.step g)) := by
  have hinv := h.inv.next (.step g)
  have hst := move_stable (x := x) g (s.spoiled g) s.deques (s.pc g)
  have hN : ∀ b, s.pc g = .checkObservers b → (move x g (s.spoiled g) s.deques (s.pc g)).2.1 = .start →
      ∀ l, x l = false → inN (s.pc l) = false := by
    intro b hp hr
    have hf := h.inv.fits g
    rw [hp] at hf
    have hx : x g = true := by cases hx : x g <;> simp [hx, fits] at hf ⊢
    obtain ⟨a, rest, ho, hiff⟩ := h.inv.observers.first hx (by rw [hp]; rfl)
    rw [hp] at hr
    simp only [move, ho] at hr
    apply hiff.1
    revert hr
    split
    · rename_i hb; simp only [Bool.and_eq_true] at hb; exact fun _ => hb.2
    · intro hr; cases hr
  obtain ⟨d', p', m, hm⟩ : ∃ d' p' m, move x g (s.spoiled g) s.deques (s.pc g) = (d', p', m) := ⟨_, _, _, rfl⟩
  have hnext : s.next x (.step g) = { s with deques := d', pc := upd s.pc g p', log := s.log ++ m.toList } := by
    simp only [State.next, hm]; rfl
  rw [hm] at hst hN
  simp only at hst hN
  rw [hnext] at hinv ⊢
  simp only at hinv
  have hturn : ∀ k l, Before (entries s.log) k l → (x k = true ∨ x l = true) → hasPassed (upd s.pc g p' l) = true →
      hasLeft (upd s.pc g p' k) = true := by
    intro k l hb hx hp
    apply upd_of (P := hasLeft) hst.left
    by_cases hlg : l = g
    · subst hlg
      rw [upd_same] at hp
      rcases hst.passes hp with hp | ⟨hp, _, hp'⟩ | ⟨hp, _⟩ | hp
      · exact h.turn k l hb hx hp
      · exact h.turn_new hb hx (.inl ⟨hp, hN true hp hp'⟩)
      · exact h.turn_new hb hx (.inr hp)
      · have := hinv.fits l
        rw [upd_same, hp] at this
        cases x l <;> simp [fits] at this
    · rw [upd_other _ _ hlg] at hp
      exact h.turn k l hb hx hp
  have hbegan : ∀ k, k ∈ starts s.log → hasStarted (upd s.pc g p' k) = true := fun k hk => upd_of (P := hasStarted) hst.started (h.began k hk)
  rcases hst.mark with rfl | ⟨rfl, hp⟩ | ⟨rfl, hp, rfl⟩
  · simp only [Option.toList_none, List.append_nil]
    refine ⟨hinv, ?_, h.nodup, ?_, hturn, hbegan, h.once, h.fifo⟩
    · obtain ⟨gone, hs⟩ := h.split
      rcases hst.queue with hq | ⟨_, hq⟩
      · exact ⟨gone, by simp only [reduceCtorEq, if_false] at hq; rw [hq]; exact hs⟩
      · cases hq2 : s.deques.queue with
        | nil => exact ⟨gone, by rw [hq, hq2]; rw [hq2] at hs; exact hs⟩
        | cons a r => exact ⟨gone ++ [a], by simp only [hq, hq2, List.tail_cons]; rw [hs, hq2]; simp⟩
    · intro k
      rw [h.mem k]
      have he : hasEntered p' = hasEntered (s.pc g) := by rcases hst.entered with he | he; cases he; exact he
      by_cases hkg : k = g
      · subst hkg; simp [he]
      · simp only []; rw [upd_other _ _ hkg]
  · simp only [Option.toList_some]
    have hng : g ∉ entries s.log := by rw [h.mem, hp]; simp [hasEntered]
    have hp' : p' = .check ∧ d' = { s.deques with queue := s.deques.queue ++ [g] } := by
      rw [hp] at hm; simp only [move, Prod.mk.injEq] at hm; exact ⟨hm.2.1.symm, hm.1.symm⟩
    obtain ⟨rfl, rfl⟩ := hp'
    refine ⟨hinv, ?_, ?_, ?_, ?_, ?_, by simpa using h.once, ?_⟩
    · obtain ⟨gone, hs⟩ := h.split
      exact ⟨gone, by simp [hs]⟩
    · simp only [entries_append, entries_entered]
      rw [List.nodup_append]
      refine ⟨h.nodup, by simp, ?_⟩
      intro a ha b hb
      simp only [List.mem_singleton] at hb
      subst hb
      rintro rfl
      exact hng ha
    · intro k
      simp only [entries_append, entries_entered, List.mem_append, List.mem_singleton, h.mem k]
      by_cases hkg : k = g
      · subst hkg; simp [hasEntered]
      · rw [upd_other _ _ hkg]; simp [hkg]
    · intro k l hb hx hpl
      simp only [entries_append, entries_entered] at hb
      rcases before_snoc hb with hb | ⟨rfl, _⟩
      · exact hturn k l hb hx hpl
      · simp [hasPassed] at hpl
    · intro k hk; simp only [starts_append, starts_entered, List.append_nil] at hk; exact hbegan k hk
    · intro k l hb hx hs
      simp only [entries_append, entries_entered] at hb
      simp only [starts_append, starts_entered, List.append_nil] at hs
      rcases before_snoc hb with hb | ⟨rfl, _⟩
      · exact h.fifo k l hb hx hs
      · have := h.began l hs.left
        rw [hp] at this; simp [hasStarted] at this
  · simp only [Option.toList_some]
    have hd : d' = s.deques := by
      rw [hp] at hm; simp only [move] at hm
      split at hm <;> simp only [Prod.mk.injEq] at hm <;> exact hm.1.symm
    subst hd
    have hng : g ∉ starts s.log := fun hk => by have := h.began g hk; rw [hp] at this; simp [hasStarted] at this
    refine ⟨hinv, by simpa using h.split, by simpa using h.nodup, ?_, ?_, ?_, ?_, ?_⟩
    · intro k
      simp only [entries_append, entries_started, List.append_nil, h.mem k]
      by_cases hkg : k = g
      · subst hkg; simp [hp, hasEntered]
      · rw [upd_other _ _ hkg]
    · intro k l hb; simp only [entries_append, entries_started, List.append_nil] at hb; exact hturn k l hb
    · intro k hk
      simp only [starts_append, starts_started, List.mem_append, List.mem_singleton] at hk
      rcases hk with hk | rfl
      · exact hbegan k hk
      · simp [hasStarted]
    · simp only [starts_append, starts_started]
      rw [List.nodup_append]
      refine ⟨h.once, by simp, ?_⟩
      intro a ha b hb
      simp only [List.mem_singleton] at hb
      subst hb
      rintro rfl
      exact hng ha
    · intro k l hb hx hs
      simp only [entries_append, entries_started, List.append_nil] at hb
      simp only [starts_append, starts_started] at hs
      rcases before_snoc hs with hs | ⟨rfl, hl⟩
      · exact h.fifo k l hb hx hs
      · have h1 := h.began l hl
        have h2 := h.turn k l hb hx (by cases hpl : s.pc l <;> rw [hpl] at h1 <;> simp [hasStarted] at h1 <;> rfl)
        rw [hp] at h2; simp [hasLeft] at h2

theorem Order.next {s : State} (h : Order x s) (e : Event) : Order x (s.next x e) := by
  cases e with
  | step g => exact h.step g
  | reenter g =>
    simp only [State.next]
    split
    · exact h
    · exact ⟨h.inv, h.split, h.nodup, h.mem, h.turn, h.began, h.once, h.fifo⟩
  | cancel g =>
    have hinv := h.inv.next (.cancel g)
    have hnext : s.next x (.cancel g) = { s with pc := upd s.pc g (cancelled (s.pc g)) } := rfl
    rw [hnext] at hinv ⊢
    have hl : hasLeft (s.pc g) = true → hasLeft (cancelled (s.pc g)) = true := by cases s.pc g <;> simp [cancelled, hasLeft]
    have hp : hasPassed (cancelled (s.pc g)) = hasPassed (s.pc g) := by cases s.pc g <;> simp [cancelled, hasPassed]
    have hs : hasStarted (s.pc g) = true → hasStarted (cancelled (s.pc g)) = true := by cases s.pc g <;> simp [cancelled, hasStarted]
    have he : hasEntered (cancelled (s.pc g)) = hasEntered (s.pc g) := by cases s.pc g <;> simp [cancelled, hasEntered]
    refine ⟨hinv, h.split, h.nodup, ?_, ?_, fun k hk => upd_of (P := hasStarted) hs (h.began k hk), h.once, h.fifo⟩
    · intro k
      rw [h.mem k]
      by_cases hkg : k = g
      · subst hkg; simp [he]
      · simp only []; rw [upd_other _ _ hkg]
    · intro k l hb hx hpl
      apply upd_of (P := hasLeft) hl
      refine h.turn k l hb hx ?_
      by_cases hlg : l = g
      · subst hlg; simp only [] at hpl; rw [upd_same, hp] at hpl; exact hpl
      · simp only [] at hpl; rw [upd_other _ _ hlg] at hpl; exact hpl

theorem Order.run {es : List Event} : ∀ {s : State}, Order x s → Order x (s.run x es) := by
  induction es with
  | nil => intro s h; exact h
  | cons e es ih => intro s h; exact ih (h.next e)

theorem order_reachable (es : List Event) : Order x (State.init.run x es) := Order.run Order.init

end Aiootp.Guard
