import Verif.Lemmas.GuardOrder

/-! Under a fair schedule without cancelled tasks every guard gets its turn and leaves. -/

namespace Aiootp.Guard

variable {x : Nat → Bool}

/-- The states of an endless schedule. -/
def runs (x : Nat → Bool) (e : Nat → Event) : Nat → State
  | 0 => State.init
  | n + 1 => (runs x e n).next x (e n)

/-- The guard has begun and not ended. -/
def isActive : PC → Bool
  | .idle | .done | .failed => false
  | _ => true

theorem runs_order (e : Nat → Event) (n : Nat) : Order x (runs x e n) := by
  induction n with
  | zero => exact Order.init
  | succ n ih => exact ih.next (e n)

structure Fair (x : Nat → Bool) (e : Nat → Event) : Prop where
  noCancel : ∀ n g, e n ≠ .cancel g
  turn : ∀ n g, isActive ((runs x e n).pc g) = true → ∃ m, n ≤ m ∧ e m = .step g

variable {e : Nat → Event}

theorem pc_other (hf : Fair x e) {n g : Nat} (h : e n ≠ .step g) : (runs x e (n + 1)).pc g = (runs x e n).pc g := by
  show ((runs x e n).next x (e n)).pc g = _
  cases he : e n with
  | step k =>
    have : g ≠ k := by rintro rfl; exact h he
    simp [State.next, this]
  | reenter k => simp only [State.next]; split <;> rfl
  | cancel k => exact absurd he (hf.noCancel n k)

theorem pc_step {n g : Nat} (h : e n = .step g) :
    (runs x e (n + 1)).pc g = (move x g ((runs x e n).spoiled g) (runs x e n).deques ((runs x e n).pc g)).2.1 := by
  show ((runs x e n).next x (e n)).pc g = _
  simp [h, State.next]

/-- Guard `g` does its next operation after some time, and stands still until then. -/
theorem next_step (hf : Fair x e) {n g : Nat} (ha : isActive ((runs x e n).pc g) = true) :
    ∃ m, n ≤ m ∧ e m = .step g ∧ ∀ k, n ≤ k → k ≤ m → (runs x e k).pc g = (runs x e n).pc g := by
  obtain ⟨m, hm, hs⟩ := hf.turn n g ha
  induction hd : m - n using Nat.strongRecOn generalizing m with
  | _ d ih =>
    by_cases hex : ∃ m', n ≤ m' ∧ m' < m ∧ e m' = .step g
    · obtain ⟨m', h1, h2, h3⟩ := hex
      exact ih (m' - n) (by omega) m' h1 h3 rfl
    · refine ⟨m, hm, hs, ?_⟩
      intro k hk
      induction hk with
      | refl => intro _; rfl
      | step hk ihk =>
        rename_i j
        intro hjm
        rw [pc_other hf (fun hs' => hex ⟨j, hk, by omega, hs'⟩)]
        exact ihk (by omega)

/-- A property of the guard's place that no operation takes away. -/
theorem stays {P : PC → Bool} {g : Nat} (hf : Fair x e) (hP : ∀ n, P ((runs x e n).pc g) = true → e n = .step g → P ((runs x e (n + 1)).pc g) = true)
    {n m : Nat} (hnm : n ≤ m) (h : P ((runs x e n).pc g) = true) : P ((runs x e m).pc g) = true := by
  induction hnm with
  | refl => exact h
  | step _ ih =>
    rename_i j _
    by_cases hs : e j = .step g
    · exact hP j ih hs
    · rw [pc_other hf hs]; exact ih

theorem left_stays {g : Nat} (hf : Fair x e) {n m : Nat} (hnm : n ≤ m) (h : hasLeft ((runs x e n).pc g) = true) :
    hasLeft ((runs x e m).pc g) = true := by
  refine stays hf ?_ hnm h
  intro n h hs
  rw [pc_step hs]
  exact (move_stable g _ _ _).left h

theorem passed_stays {g : Nat} (hf : Fair x e) {n m : Nat} (hnm : n ≤ m) (h : hasPassed ((runs x e n).pc g) = true) :
    hasPassed ((runs x e m).pc g) = true := by
  refine stays hf ?_ hnm h
  intro n h hs
  rw [pc_step hs]
  exact (move_stable g _ _ _).passed h

/-- The guard has ended. -/
def hasEnded : PC → Bool
  | .done | .failed => true
  | _ => false

theorem ended_stays {g : Nat} (hf : Fair x e) {n m : Nat} (hnm : n ≤ m) (h : hasEnded ((runs x e n).pc g) = true) :
    hasEnded ((runs x e m).pc g) = true := by
  refine stays hf ?_ hnm h
  intro n h hs
  rw [pc_step hs]
  cases hp : (runs x e n).pc g <;> rw [hp] at h <;> simp [hasEnded] at h <;> simp [move, hasEnded]

/-- No task was cancelled, so none is lost. -/
theorem not_lost (hf : Fair x e) (n g : Nat) : (runs x e n).pc g ≠ .lostWaiting ∧ (runs x e n).pc g ≠ .lostLeaving := by
  induction n with
  | zero => simp [runs, State.init]
  | succ n ih =>
    by_cases hs : e n = .step g
    · rw [pc_step hs]
      have hb := ((runs_order (x := x) e n).inv.fits g)
      cases hp : (runs x e n).pc g <;> simp only [move] <;> (try simp) <;> (try (simp_all; done))
      all_goals
        (repeat' split) <;> simp
    · rw [pc_other hf hs]; exact ih

/-- How many operations are left for a guard whose turn it is. -/
def rank : PC → Nat
  | .announce => 9
  | .takeOff => 8
  | .start => 7
  | .run => 6
  | .notifyOff => 5
  | .getOff => 4
  | .fault1 => 3
  | .fault2 => 2
  | .finish => 1
  | _ => 0

/-- It is the turn of the guard, and it has not ended. -/
def isFree : PC → Bool
  | .announce | .takeOff | .start | .run | .notifyOff | .getOff | .fault1 | .fault2 | .finish => true
  | _ => false

theorem move_free {s : State} (h : Order x s) {g : Nat} (hp : isFree (s.pc g) = true) :
    let p' := (move x g (s.spoiled g) s.deques (s.pc g)).2.1
    (isFree p' = true ∧ rank p' < rank (s.pc g)) ∨ hasEnded p' = true := by
  intro p'
  have hb := (h.inv.move g (s.spoiled g)).fits g
  rw [upd_same] at hb
  have hnb : p' ≠ .broken := by intro hpb; change fits (x g) p' = true at hb; rw [hpb] at hb; cases x g <;> simp [fits] at hb
  revert hnb
  simp only [p']
  cases hpc : s.pc g <;> rw [hpc] at hp <;> simp [isFree] at hp <;> simp only [move]
  all_goals
    (repeat' split) <;> simp [isFree, hasEnded, rank]

/-- A guard whose turn it is ends. -/
theorem free_ends (hf : Fair x e) {g : Nat} : ∀ n, isFree ((runs x e n).pc g) = true → ∃ m, n ≤ m ∧ hasEnded ((runs x e m).pc g) = true := by
  intro n
  induction hr : rank ((runs x e n).pc g) using Nat.strongRecOn generalizing n with
  | _ r ih =>
    intro hp
    obtain ⟨m, hm, hs, hst⟩ := next_step hf (n := n) (g := g) (by cases h : (runs x e n).pc g <;> rw [h] at hp <;> simp [isFree] at hp <;> rfl)
    have hpm : (runs x e m).pc g = (runs x e n).pc g := hst m hm (Nat.le_refl m)
    rcases move_free (runs_order e m) (g := g) (by rw [hpm]; exact hp) with ⟨h1, h2⟩ | h1
    · rw [← pc_step hs] at h1 h2
      rw [hpm, hr] at h2
      obtain ⟨k, hk, he⟩ := ih _ h2 (m + 1) rfl h1
      exact ⟨k, by omega, he⟩
    · rw [← pc_step hs] at h1
      exact ⟨m + 1, by omega, h1⟩

theorem isFree_or_ended {s : State} (h : Order x s) {g : Nat} (hp : hasPassed (s.pc g) = true) (hl : s.pc g ≠ .lostLeaving) :
    isFree (s.pc g) = true ∨ hasEnded (s.pc g) = true := by
  have hf := h.inv.fits g
  cases hpc : s.pc g <;> rw [hpc] at hp hf hl <;> simp_all [hasPassed, isFree, hasEnded]
  cases x g <;> simp [fits] at hf

theorem passed_ends (hf : Fair x e) {g n : Nat} (hp : hasPassed ((runs x e n).pc g) = true) :
    ∃ m, n ≤ m ∧ hasEnded ((runs x e m).pc g) = true := by
  rcases isFree_or_ended (runs_order e n) hp (not_lost hf n g).2 with h | h
  · exact free_ends hf n h
  · exact ⟨n, Nat.le_refl n, h⟩

/-- The guard is waiting. -/
def isWaiting : PC → Bool
  | .check | .checkObservers _ => true
  | _ => false

/-- The first in the queue stays the first as long as it waits. -/
theorem head_stays (hf : Fair x e) {g n : Nat} (hh : (runs x e n).deques.queue.head? = some g) :
    (runs x e (n + 1)).deques.queue.head? = some g ∨ hasPassed ((runs x e (n + 1)).pc g) = true := by
  have ho := runs_order (x := x) e n
  have ho' := runs_order (x := x) e (n + 1)
  cases he : e n with
  | cancel k => exact absurd he (hf.noCancel n k)
  | reenter k =>
    left
    show ((runs x e n).next x (e n)).deques.queue.head? = _
    rw [he]; simp only [State.next]
    split <;> exact hh
  | step k =>
    have hq : (runs x e (n + 1)).deques = (move x k ((runs x e n).spoiled k) (runs x e n).deques ((runs x e n).pc k)).1 := by
      show ((runs x e n).next x (e n)).deques = _
      rw [he]; rfl
    obtain ⟨rest, hqn⟩ : ∃ rest, (runs x e n).deques.queue = g :: rest := by
      cases hq : (runs x e n).deques.queue with
      | nil => rw [hq] at hh; simp at hh
      | cons a r => rw [hq] at hh; simp only [List.head?_cons, Option.some.injEq] at hh; exact ⟨r, by rw [hh]⟩
    have hnb := ho'.inv.fits k
    rw [pc_step he] at hnb
    -- whoever takes the head off is the head
    have key : (runs x e (n + 1)).deques.queue.head? = some g ∨
        ((runs x e n).pc k = .takeOff ∨ (runs x e n).pc k = .getOff ∨ (runs x e n).pc k = .fault2) ∧ k = g := by
      rw [hq]
      cases hp : (runs x e n).pc k <;> rw [hp] at hnb <;> simp only [move, hqn] at hnb ⊢
      case takeOff => right; refine ⟨by simp, ?_⟩; split at hnb; (rename_i h; exact h.symm); (exfalso; cases x k <;> simp [fits] at hnb)
      case getOff => right; refine ⟨by simp, ?_⟩; split at hnb; (rename_i h; exact h.symm); (exfalso; cases x k <;> simp [fits] at hnb)
      case fault2 => right; refine ⟨by simp, ?_⟩; split at hnb; (rename_i h; exact h.symm); (exfalso; cases x k <;> simp [fits] at hnb)
      all_goals
        left
        (repeat' split) <;> simp [hqn]
    rcases key with h | ⟨hp, rfl⟩
    · exact .inl h
    · right
      rw [pc_step he]
      rcases hp with hp | hp | hp <;> rw [hp] <;> simp only [move, hqn] <;> simp [hasPassed]

theorem waits_or_passed {s : State} {g : Nat} (he : hasEntered (s.pc g) = true) (hl : s.pc g ≠ .lostWaiting) :
    isWaiting (s.pc g) = true ∨ s.pc g = .announce ∨ s.pc g = .takeOff ∨ hasPassed (s.pc g) = true := by
  cases hpc : s.pc g <;> rw [hpc] at he hl <;> simp_all [hasEntered, isWaiting, hasPassed]

theorem entered_stays {g : Nat} (hf : Fair x e) {n m : Nat} (hnm : n ≤ m) (h : hasEntered ((runs x e n).pc g) = true) :
    hasEntered ((runs x e m).pc g) = true := by
  refine stays hf ?_ hnm h
  intro n h hs
  rw [pc_step hs]
  rcases (move_stable (x := x) g ((runs x e n).spoiled g) (runs x e n).deques ((runs x e n).pc g)).entered with he | he
  · cases hp : (runs x e n).pc g <;> rw [hp] at h he <;> simp [hasEntered] at h <;> simp only [move] at he ⊢ <;> (repeat' split at he) <;> simp_all [hasEntered]
  · rw [he]; exact h

/-- Either the guard has passed the queue, or it is still the first and waiting. -/
theorem head_or_free (hf : Fair x e) {g n : Nat} (hh : (runs x e n).deques.queue.head? = some g) {m : Nat} (hnm : n ≤ m) :
    (isFree ((runs x e m).pc g) = true ∨ hasEnded ((runs x e m).pc g) = true) ∨
      (isWaiting ((runs x e m).pc g) = true ∧ (runs x e m).deques.queue.head? = some g) := by
  have key : hasPassed ((runs x e m).pc g) = true ∨ (runs x e m).deques.queue.head? = some g := by
    induction hnm with
    | refl => exact .inr hh
    | step _ ih =>
      rename_i j hj
      rcases ih with h | h
      · exact .inl (passed_stays hf (Nat.le_succ j) h)
      · exact (head_stays hf h).symm
  have ho := runs_order (x := x) e m
  rcases key with h | h
  · exact .inl (isFree_or_ended ho h (not_lost hf m g).2)
  · have hmem : g ∈ (runs x e m).deques.queue := List.mem_of_head? h
    have hin := (ho.inv.queue.mem g).1 hmem
    have hent : hasEntered ((runs x e m).pc g) = true := by
      cases hp : (runs x e m).pc g <;> rw [hp] at hin <;> cases hx : x g <;> rw [hx] at hin <;> simp [inQueue] at hin <;> rfl
    rcases waits_or_passed hent (not_lost hf m g).1 with hw | hw | hw | hw
    · exact .inr ⟨hw, h⟩
    · rw [hw]; exact .inl (.inl rfl)
    · rw [hw]; exact .inl (.inl rfl)
    · exact .inl (isFree_or_ended ho hw (not_lost hf m g).2)

/-- A time by which a finite number of guards have all come to a lasting state. -/
theorem eventually_all {P : State → Nat → Prop} (hP : ∀ n m g, n ≤ m → P (runs x e n) g → P (runs x e m) g) (l : List Nat) (n : Nat)
    (h : ∀ g ∈ l, ∃ m, n ≤ m ∧ P (runs x e m) g) : ∃ m, n ≤ m ∧ ∀ g ∈ l, P (runs x e m) g := by
  induction l with
  | nil => exact ⟨n, Nat.le_refl n, by simp⟩
  | cons a l ih =>
    obtain ⟨m1, h1, h2⟩ := ih (fun g hg => h g (by simp [hg]))
    obtain ⟨m2, h3, h4⟩ := h a (by simp)
    refine ⟨max m1 m2, by omega, ?_⟩
    intro g hg
    rcases List.mem_cons.1 hg with rfl | hg
    · exact hP m2 _ g (by omega) h4
    · exact hP m1 _ g (by omega) (h2 g hg)

theorem left_notN {p : PC} (h : hasLeft p = true) : inN p = false := by cases p <;> simp [hasLeft] at h <;> rfl

/-- While an exclusive guard is the first in the queue, no one else gets to work. -/
theorem no_new_work (hf : Fair x e) {g : Nat} {n k : Nat} (hh : (runs x e n).deques.queue.head? = some g)
    (hx : x g = true) (hk : x k = false) (hi : inN ((runs x e n).pc k) = false) : inN ((runs x e (n + 1)).pc k) = false := by
  have ho := runs_order (x := x) e n
  by_cases hs : e n = .step k
  · rw [pc_step hs]
    have hfit := ho.inv.fits k
    have hne : (runs x e n).pc k ≠ .announce := by
      intro hp
      have := ho.inv.queue.head k (by rw [hp, hk]; rfl)
      rw [hh] at this
      simp only [Option.some.injEq] at this
      rw [this, hk] at hx
      cases hx
    have hl := not_lost hf n k
    rw [hk] at hfit
    cases hp : (runs x e n).pc k <;> rw [hp] at hi hfit hne hl <;> simp only [inN, Bool.true_eq_false] at hi <;>
      simp only [fits, Bool.false_eq_true] at hfit <;> simp only [move]
    all_goals
      first
      | (exfalso; simp_all; done)
      | ((repeat' split) <;> simp_all [inN])
  · rw [pc_other hf hs]; exact hi

/-- The first in the queue ends. -/
theorem head_ends (hf : Fair x e) {g n : Nat} (hh : (runs x e n).deques.queue.head? = some g) :
    ∃ m, n ≤ m ∧ hasEnded ((runs x e m).pc g) = true := by
  have done : ∀ m, n ≤ m → (isFree ((runs x e m).pc g) = true ∨ hasEnded ((runs x e m).pc g) = true) →
      ∃ m, n ≤ m ∧ hasEnded ((runs x e m).pc g) = true := by
    intro m hm h
    rcases h with h | h
    · obtain ⟨m', h1, h2⟩ := free_ends hf m h
      exact ⟨m', by omega, h2⟩
    · exact ⟨m, hm, h⟩
  have act : ∀ m, isWaiting ((runs x e m).pc g) = true → isActive ((runs x e m).pc g) = true := by
    intro m h; cases hp : (runs x e m).pc g <;> rw [hp] at h <;> simp [isWaiting] at h <;> rfl
  cases hx : x g with
  | false =>
    rcases head_or_free hf hh (Nat.le_refl n) with h | ⟨hw, _⟩
    · exact done n (Nat.le_refl n) h
    · obtain ⟨m, hm, hs, hst⟩ := next_step hf (act n hw)
      rcases head_or_free hf hh hm with h | ⟨hw, hhm⟩
      · exact done m hm h
      · have ho := runs_order (x := x) e m
        have hfit := ho.inv.fits g
        have hp : (runs x e m).pc g = .check := by
          cases hp : (runs x e m).pc g <;> rw [hp, hx] at hfit <;> rw [hp] at hw <;> simp_all [isWaiting, fits]
        obtain ⟨rest, hq⟩ : ∃ rest, (runs x e m).deques.queue = g :: rest := by
          cases hq : (runs x e m).deques.queue with
          | nil => rw [hq] at hhm; simp at hhm
          | cons a r => rw [hq] at hhm; simp only [List.head?_cons, Option.some.injEq] at hhm; exact ⟨r, by rw [hhm]⟩
        refine done (m + 1) (by omega) (.inl ?_)
        rw [pc_step hs, hp]
        simp [move, hq, hx, isFree]
  | true =>
    -- first, all who are at work leave
    obtain ⟨N, E, aN, aE, _, _, _, _, _, mN, _, _, _⟩ := (runs_order (x := x) e n).inv.observers
    obtain ⟨m, hm, hall⟩ := eventually_all (x := x) (e := e) (P := fun s k => hasLeft (s.pc k) = true)
      (fun n m k h h' => left_stays hf h h') aN n (fun k hk => by
        have := (mN k).1 hk
        have hfree : isFree ((runs x e n).pc k) = true := by
          have hl := not_lost hf n k
          cases hp : (runs x e n).pc k <;> rw [hp] at this hl <;> simp_all [inN, isFree]
        obtain ⟨m, h1, h2⟩ := free_ends hf n hfree
        exact ⟨m, h1, by cases hp : (runs x e m).pc k <;> rw [hp] at h2 <;> simp [hasEnded] at h2 <;> rfl⟩)
    have quiet : ∀ j, n ≤ j → (∀ k, x k = false → k ∉ aN → inN ((runs x e j).pc k) = false) ∨
        (isFree ((runs x e j).pc g) = true ∨ hasEnded ((runs x e j).pc g) = true) := by
      intro j hj
      induction hj with
      | refl =>
        left
        intro k hk hka
        cases hi : inN ((runs x e n).pc k) with
        | false => rfl
        | true => exact absurd ((mN k).2 ⟨hk, hi⟩) hka
      | step hj ih =>
        rename_i j
        rcases head_or_free hf hh hj with h | ⟨hw, hhj⟩
        · right
          rcases h with h | h
          · rcases head_or_free hf hh (Nat.le_succ_of_le hj) with h' | ⟨hw', _⟩
            · exact h'
            · exfalso
              have hp : hasPassed ((runs x e j).pc g) = true := by
                have hfit := (runs_order (x := x) e j).inv.fits g
                cases hp : (runs x e j).pc g <;> rw [hp] at h hfit <;> simp_all [isFree, hasPassed, fits]
              have := passed_stays hf (Nat.le_succ j) hp
              cases hp : (runs x e (j + 1)).pc g <;> rw [hp] at hw' this <;> simp_all [isWaiting, hasPassed]
          · exact .inr (ended_stays hf (Nat.le_succ j) h)
        · rcases ih with ih | ih
          · exact .inl (fun k hk hka => no_new_work hf hhj hx hk (ih k hk hka))
          · exfalso
            rcases ih with ih | ih <;> cases hp : (runs x e j).pc g <;> rw [hp] at ih hw <;> simp_all [isFree, hasEnded, isWaiting]
    have empty : ∀ j, m ≤ j → (∀ k, x k = false → inN ((runs x e j).pc k) = false) ∨
        (isFree ((runs x e j).pc g) = true ∨ hasEnded ((runs x e j).pc g) = true) := by
      intro j hj
      rcases quiet j (by omega) with h | h
      · left
        intro k hk
        by_cases hka : k ∈ aN
        · exact left_notN (left_stays hf hj (hall k hka))
        · exact h k hk hka
      · exact .inr h
    -- a look at the queue
    have look : ∀ j, m ≤ j → (∃ j', j ≤ j' ∧ (isFree ((runs x e j').pc g) = true ∨ hasEnded ((runs x e j').pc g) = true)) ∨
        ∃ j', j ≤ j' ∧ (runs x e j').pc g = .check := by
      intro j hj
      rcases head_or_free hf hh (m := j) (by omega) with h | ⟨hw, _⟩
      · exact .inl ⟨j, Nat.le_refl j, h⟩
      · cases hp : (runs x e j).pc g with
        | check => exact .inr ⟨j, Nat.le_refl j, hp⟩
        | checkObservers b =>
          obtain ⟨j', hj', hs, hst⟩ := next_step hf (act j hw)
          have hpj : (runs x e j').pc g = .checkObservers b := by rw [hst j' hj' (Nat.le_refl j'), hp]
          have hnew := pc_step (x := x) hs
          rw [hpj] at hnew
          obtain ⟨a, rest, ho, _⟩ := (runs_order (x := x) e j').inv.observers.first hx (by rw [hpj]; rfl)
          simp only [move, ho] at hnew
          split at hnew
          · exact .inl ⟨j' + 1, by omega, .inl (by rw [hnew]; rfl)⟩
          · exact .inr ⟨j' + 1, by omega, hnew⟩
        | _ => rw [hp] at hw; simp [isWaiting] at hw
    rcases look m (Nat.le_refl m) with ⟨j, hj, h⟩ | ⟨j, hj, hp⟩
    · exact done j (by omega) h
    · -- it sees that it is the first
      obtain ⟨j1, hj1, hs1, hst1⟩ := next_step hf (n := j) (g := g) (by rw [hp]; rfl)
      have hp1 : (runs x e j1).pc g = .check := by rw [hst1 j1 hj1 (Nat.le_refl j1), hp]
      rcases head_or_free hf hh (m := j1) (by omega) with h | ⟨_, hh1⟩
      · exact done j1 (by omega) h
      · obtain ⟨rest, hq⟩ : ∃ rest, (runs x e j1).deques.queue = g :: rest := by
          cases hq : (runs x e j1).deques.queue with
          | nil => rw [hq] at hh1; simp at hh1
          | cons a r => rw [hq] at hh1; simp only [List.head?_cons, Option.some.injEq] at hh1; exact ⟨r, by rw [hh1]⟩
        have hp2 : (runs x e (j1 + 1)).pc g = .checkObservers true := by
          rw [pc_step hs1, hp1]; simp [move, hq, hx]
        obtain ⟨j2, hj2, hs2, hst2⟩ := next_step hf (n := j1 + 1) (g := g) (by rw [hp2]; rfl)
        have hp3 : (runs x e j2).pc g = .checkObservers true := by rw [hst2 j2 hj2 (Nat.le_refl j2), hp2]
        rcases empty j2 (by omega) with h | h
        · obtain ⟨a, rest, ho, hiff⟩ := (runs_order (x := x) e j2).inv.observers.first hx (by rw [hp3]; rfl)
          refine done (j2 + 1) (by omega) (.inl ?_)
          rw [pc_step hs2, hp3]
          simp [move, ho, hiff.2 h, isFree]
        · exact done j2 (by omega) h

/-- Everyone who got into the queue ends. -/
theorem entered_ends (hf : Fair x e) (n : Nat) : ∀ (i : Nat) (pre post : List Nat) (g : Nat), entries (runs x e n).log = pre ++ g :: post → pre.length = i →
    ∃ m, n ≤ m ∧ hasEnded ((runs x e m).pc g) = true := by
  intro i
  induction i using Nat.strongRecOn with
  | _ i ih =>
    intro pre post g hlog hi
    have hent : hasEntered ((runs x e n).pc g) = true := ((runs_order (x := x) e n).mem g).1 (by rw [hlog]; simp)
    obtain ⟨m, hm, hall⟩ := eventually_all (x := x) (e := e) (P := fun s k => hasEnded (s.pc k) = true)
      (fun n m k h h' => ended_stays hf h h') pre n (fun k hk => by
        obtain ⟨l1, l2, rfl⟩ := List.append_of_mem hk
        exact ih l1.length (by rw [← hi]; simp) l1 (l2 ++ g :: post) k (by rw [hlog]; simp) rfl)
    have ho := runs_order (x := x) e m
    have hentm := entered_stays hf hm hent
    have fin : hasPassed ((runs x e m).pc g) = true → ∃ m, n ≤ m ∧ hasEnded ((runs x e m).pc g) = true := by
      intro h
      obtain ⟨m', h1, h2⟩ := passed_ends hf h
      exact ⟨m', by omega, h2⟩
    have waits : isWaiting ((runs x e m).pc g) = true ∨ (runs x e m).pc g = .announce ∨ (runs x e m).pc g = .takeOff →
        ∃ m, n ≤ m ∧ hasEnded ((runs x e m).pc g) = true := by
      intro hw
      have hin : g ∈ (runs x e m).deques.queue := by
        rw [ho.inv.queue.mem]
        have hfit := ho.inv.fits g
        rcases hw with hw | hw | hw
        · cases hp : (runs x e m).pc g <;> rw [hp] at hw hfit <;> cases hx : x g <;> rw [hx] at hfit <;> simp_all [isWaiting, inQueue, fits]
        · rw [hw] at hfit ⊢; cases hx : x g <;> rw [hx] at hfit <;> simp_all [inQueue, fits]
        · rw [hw] at hfit ⊢; cases hx : x g <;> rw [hx] at hfit <;> simp_all [inQueue, fits]
      -- the log only grows
      have hgrow : ∃ more, entries (runs x e m).log = entries (runs x e n).log ++ more := by
        clear hw hin fin hentm ho hall
        induction hm with
        | refl => exact ⟨[], by simp⟩
        | step _ ihm =>
          rename_i j _
          obtain ⟨more, hmore⟩ := ihm
          have : ∃ l, (runs x e (j + 1)).log = (runs x e j).log ++ l := by
            show ∃ l, ((runs x e j).next x (e j)).log = _
            cases e j with
            | step k => exact ⟨_, rfl⟩
            | reenter k => simp only [State.next]; split <;> exact ⟨[], by simp⟩
            | cancel k => exact ⟨[], by simp [State.next]⟩
          obtain ⟨l, hl⟩ := this
          exact ⟨more ++ entries l, by rw [hl, entries_append, hmore]; simp⟩
      obtain ⟨more, hmore⟩ := hgrow
      obtain ⟨gone, hs⟩ := ho.split
      rw [hmore, hlog] at hs
      -- everyone before `g` has left the queue
      have hhead : (runs x e m).deques.queue.head? = some g := by
        cases hq : (runs x e m).deques.queue with
        | nil => rw [hq] at hin; cases hin
        | cons a rest =>
          rw [hq] at hs hin
          simp only [List.head?_cons, Option.some.injEq]
          rcases List.mem_cons.1 hin with hga | hga
          · exact hga.symm
          · exfalso
            have hnd := ho.nodup
            rw [hmore, hlog] at hnd
            obtain ⟨r1, r2, rfl⟩ := List.append_of_mem hga
            have hb : a ∈ pre := by
              have e1 : (pre ++ g :: (post ++ more)) = (gone ++ a :: r1) ++ g :: r2 := by
                have := hs; simp only [List.append_assoc, List.cons_append] at this ⊢; exact this
              have hnd' : (pre ++ g :: (post ++ more)).Nodup := by simpa using hnd
              exact before_head hnd' (by rw [e1]; exact ⟨gone, r1, r2, by simp⟩)
            have h1 := hall a hb
            have h2 := (ho.inv.queue.mem a).1 (by rw [hq]; simp)
            cases hp : (runs x e m).pc a <;> rw [hp] at h1 h2 <;> simp [hasEnded] at h1 <;> cases hx : x a <;> rw [hx] at h2 <;> simp [inQueue] at h2
      obtain ⟨m', h1, h2⟩ := head_ends hf hhead
      exact ⟨m', by omega, h2⟩
    rcases waits_or_passed hentm (not_lost hf m g).1 with h | h | h | h
    · exact waits (.inl h)
    · exact waits (.inr (.inl h))
    · exact waits (.inr (.inr h))
    · exact fin h

theorem begun_ends (hf : Fair x e) {n g : Nat} (h : (runs x e n).pc g ≠ .idle) : ∃ m, n ≤ m ∧ hasEnded ((runs x e m).pc g) = true := by
  have ent : ∀ m, hasEntered ((runs x e m).pc g) = true → ∃ m', m ≤ m' ∧ hasEnded ((runs x e m').pc g) = true := by
    intro m hm
    obtain ⟨pre, post, hl⟩ := List.append_of_mem (((runs_order (x := x) e m).mem g).2 hm)
    exact entered_ends hf m _ pre post g hl rfl
  have getIn : ∀ m, (runs x e m).pc g = .getIn → ∃ m', m ≤ m' ∧ hasEnded ((runs x e m').pc g) = true := by
    intro m hp
    obtain ⟨j, hj, hs, hst⟩ := next_step hf (n := m) (g := g) (by rw [hp]; rfl)
    have hpj : (runs x e j).pc g = .getIn := by rw [hst j hj (Nat.le_refl j), hp]
    obtain ⟨m', h1, h2⟩ := ent (j + 1) (by rw [pc_step hs, hpj]; rfl)
    exact ⟨m', by omega, h2⟩
  cases he : hasEntered ((runs x e n).pc g) with
  | true => exact ent n he
  | false =>
    cases hp : (runs x e n).pc g <;> rw [hp] at he <;> simp [hasEntered] at he
    · exact absurd hp h
    · obtain ⟨j, hj, hs, hst⟩ := next_step hf (n := n) (g := g) (by rw [hp]; rfl)
      have hpj : (runs x e j).pc g = .notifyOn := by rw [hst j hj (Nat.le_refl j), hp]
      obtain ⟨m', h1, h2⟩ := getIn (j + 1) (by rw [pc_step hs, hpj]; rfl)
      exact ⟨m', by omega, h2⟩
    · exact getIn n hp

end Aiootp.Guard
