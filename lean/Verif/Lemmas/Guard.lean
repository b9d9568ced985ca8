import Verif.Model.Guard

namespace Aiootp.Guard

/-- A function changed at one place. -/
def upd {α : Type} (f : Nat → α) (g : Nat) (a : α) : Nat → α := fun h => if h = g then a else f h

@[simp] theorem upd_same {α : Type} (f : Nat → α) (g : Nat) (a : α) : upd f g a g = a := by simp [upd]

theorem upd_other {α : Type} (f : Nat → α) {g h : Nat} (a : α) (hne : h ≠ g) : upd f g a h = f h := by simp [upd, hne]

/-! ### which guards are where -/

/-- The guard is in the queue. -/
def inQueue : Bool → PC → Bool
  | true, .check | true, .checkObservers _ | true, .start | true, .run | true, .notifyOff | true, .getOff | true, .fault1
  | true, .fault2 | true, .lostWaiting | true, .lostLeaving => true
  | false, .check | false, .announce | false, .takeOff | false, .lostWaiting => true
  | _, _ => false

/-- The guard knows that it is first in the queue. -/
def isHead : Bool → PC → Bool
  | true, .checkObservers b => b
  | true, .start | true, .run | true, .notifyOff | true, .getOff | true, .fault1 | true, .fault2 | true, .lostLeaving => true
  | false, .announce | false, .takeOff => true
  | _, _ => false

/-- An exclusive guard that has one observer in the deque. -/
def inE : PC → Bool
  | .getIn | .check | .checkObservers _ | .start | .run | .notifyOff | .fault1 | .lostWaiting | .lostLeaving => true
  | _ => false

/-- A non-exclusive guard that has one observer in the deque. -/
def inN : PC → Bool
  | .takeOff | .start | .run | .notifyOff | .fault1 | .lostLeaving => true
  | _ => false

/-- An exclusive guard that knows to be alone. -/
def isAlone : PC → Bool
  | .start | .run | .notifyOff | .getOff | .fault1 | .fault2 | .lostLeaving => true
  | _ => false

/-- The programs of the two kinds. -/
def fits : Bool → PC → Bool
  | _, .broken => false
  | true, .announce | true, .takeOff => false
  | false, .notifyOn | false, .checkObservers _ | false, .getOff | false, .fault2 => false
  | _, _ => true

variable {x : Nat → Bool}

/-! ### the queue -/

structure Queue (x : Nat → Bool) (pc : Nat → PC) (q : List Nat) : Prop where
  nodup : q.Nodup
  mem : ∀ g, g ∈ q ↔ inQueue (x g) (pc g) = true
  head : ∀ g, isHead (x g) (pc g) = true → q.head? = some g

theorem Queue.keep {pc : Nat → PC} {q : List Nat} (h : Queue x pc q) {g : Nat} {p : PC}
    (h1 : inQueue (x g) p = inQueue (x g) (pc g)) (h2 : isHead (x g) p = true → q.head? = some g) : Queue x (upd pc g p) q := by
  refine ⟨h.nodup, fun k => ?_, fun k hk => ?_⟩
  · by_cases hkg : k = g
    · subst hkg; rw [upd_same, h1]; exact h.mem k
    · rw [upd_other _ _ hkg]; exact h.mem k
  · by_cases hkg : k = g
    · subst hkg; rw [upd_same] at hk; exact h2 hk
    · rw [upd_other _ _ hkg] at hk; exact h.head k hk

theorem Queue.add {pc : Nat → PC} {q : List Nat} (h : Queue x pc q) {g : Nat} {p : PC}
    (h1 : inQueue (x g) p = true) (h2 : inQueue (x g) (pc g) = false) (h3 : isHead (x g) p = false) :
    Queue x (upd pc g p) (q ++ [g]) := by
  have hg : g ∉ q := by rw [h.mem, h2]; simp
  refine ⟨?_, fun k => ?_, fun k hk => ?_⟩
  · rw [List.nodup_append]
    refine ⟨h.nodup, by simp, ?_⟩
    intro a ha b hb
    simp only [List.mem_singleton] at hb
    subst hb
    rintro rfl
    exact hg ha
  · by_cases hkg : k = g
    · subst hkg; rw [upd_same, h1]; simp
    · rw [upd_other _ _ hkg, List.mem_append, List.mem_singleton, h.mem]; simp [hkg]
  · by_cases hkg : k = g
    · subst hkg; rw [upd_same, h3] at hk; cases hk
    · rw [upd_other _ _ hkg] at hk
      have := h.head k hk
      cases q with
      | nil => simp at this
      | cons a q => simpa using this

theorem Queue.pop {pc : Nat → PC} {q : List Nat} (h : Queue x pc q) {g : Nat} {p : PC}
    (h1 : isHead (x g) (pc g) = true) (h2 : inQueue (x g) p = false) (h3 : isHead (x g) p = false) :
    ∃ rest, q = g :: rest ∧ Queue x (upd pc g p) rest := by
  have hh := h.head g h1
  obtain ⟨rest, rfl⟩ : ∃ rest, q = g :: rest := by
    cases q with
    | nil => simp at hh
    | cons a q => simp only [List.head?_cons, Option.some.injEq] at hh; exact ⟨q, by rw [hh]⟩
  have hn := List.nodup_cons.1 h.nodup
  refine ⟨rest, rfl, hn.2, fun k => ?_, fun k hk => ?_⟩
  · by_cases hkg : k = g
    · subst hkg; rw [upd_same, h2]; simp [hn.1]
    · rw [upd_other _ _ hkg, ← h.mem]; simp [hkg]
  · by_cases hkg : k = g
    · subst hkg; rw [upd_same, h3] at hk; cases hk
    · rw [upd_other _ _ hkg] at hk
      have := h.head k hk
      simp only [List.head?_cons, Option.some.injEq] at this
      exact absurd this.symm hkg

/-! ### the observers -/

/-- The observers are as many non-exclusive ones as there are non-exclusive guards at work, and then as many exclusive ones
as there are exclusive guards waiting or at work. -/
def Observers (x : Nat → Bool) (pc : Nat → PC) (o : List Nat) : Prop :=
  ∃ N E aN aE : List Nat, o = N ++ E ∧ (∀ g ∈ N, x g = false) ∧ (∀ g ∈ E, x g = true) ∧ aN.Nodup ∧ aE.Nodup ∧
    (∀ g, g ∈ aN ↔ x g = false ∧ inN (pc g) = true) ∧ (∀ g, g ∈ aE ↔ x g = true ∧ inE (pc g) = true) ∧
    N.length = aN.length ∧ E.length = aE.length

theorem mem_upd_iff {P : PC → Bool} {pc : Nat → PC} {a : List Nat} {c : Bool} {g : Nat} {p : PC}
    (h : ∀ k, k ∈ a ↔ x k = c ∧ P (pc k) = true) (hg : x g = c → P p = P (pc g)) :
    ∀ k, k ∈ a ↔ x k = c ∧ P (upd pc g p k) = true := by
  intro k
  rw [h k]
  by_cases hkg : k = g
  · subst hkg
    rw [upd_same]
    constructor
    · rintro ⟨h1, h2⟩; exact ⟨h1, by rw [hg h1]; exact h2⟩
    · rintro ⟨h1, h2⟩; exact ⟨h1, by rw [← hg h1]; exact h2⟩
  · rw [upd_other _ _ hkg]

theorem mem_upd_add {P : PC → Bool} {pc : Nat → PC} {a : List Nat} {c : Bool} {g : Nat} {p : PC}
    (h : ∀ k, k ∈ a ↔ x k = c ∧ P (pc k) = true) (h1 : x g = c) (h2 : P p = true) :
    ∀ k, k ∈ g :: a ↔ x k = c ∧ P (upd pc g p k) = true := by
  intro k
  by_cases hkg : k = g
  · subst hkg
    rw [upd_same]
    simp [h1, h2]
  · rw [upd_other _ _ hkg, List.mem_cons, h k]
    simp [hkg]

theorem mem_upd_erase {P : PC → Bool} {pc : Nat → PC} {a : List Nat} {c : Bool} {g : Nat} {p : PC} (hn : a.Nodup)
    (h : ∀ k, k ∈ a ↔ x k = c ∧ P (pc k) = true) (h2 : P p = false) :
    ∀ k, k ∈ a.erase g ↔ x k = c ∧ P (upd pc g p k) = true := by
  intro k
  rw [hn.mem_erase_iff]
  by_cases hkg : k = g
  · subst hkg
    rw [upd_same]
    simp [h2]
  · rw [upd_other _ _ hkg, h k]
    simp [hkg]

theorem Observers.keep {pc : Nat → PC} {o : List Nat} (h : Observers x pc o) {g : Nat} {p : PC}
    (h1 : x g = false → inN p = inN (pc g)) (h2 : x g = true → inE p = inE (pc g)) : Observers x (upd pc g p) o := by
  obtain ⟨N, E, aN, aE, e, hN, hE, nN, nE, mN, mE, lN, lE⟩ := h
  exact ⟨N, E, aN, aE, e, hN, hE, nN, nE, mem_upd_iff mN h1, mem_upd_iff mE h2, lN, lE⟩

theorem Observers.addE {pc : Nat → PC} {o : List Nat} (h : Observers x pc o) {g : Nat} {p : PC} (hx : x g = true)
    (h1 : inE (pc g) = false) (h2 : inE p = true) : Observers x (upd pc g p) (o ++ [g]) := by
  obtain ⟨N, E, aN, aE, e, hN, hE, nN, nE, mN, mE, lN, lE⟩ := h
  refine ⟨N, E ++ [g], aN, g :: aE, by rw [e]; simp, hN, ?_, nN, ?_, mem_upd_iff mN (by simp [hx]), mem_upd_add mE hx h2, lN, by simp [lE]⟩
  · intro k hk
    rcases List.mem_append.1 hk with hk | hk
    · exact hE k hk
    · simp only [List.mem_singleton] at hk; subst hk; exact hx
  · rw [List.nodup_cons]
    exact ⟨by rw [mE, h1]; simp, nE⟩

theorem Observers.addN {pc : Nat → PC} {o : List Nat} (h : Observers x pc o) {g : Nat} {p : PC} (hx : x g = false)
    (h1 : inN (pc g) = false) (h2 : inN p = true) : Observers x (upd pc g p) (g :: o) := by
  obtain ⟨N, E, aN, aE, e, hN, hE, nN, nE, mN, mE, lN, lE⟩ := h
  refine ⟨g :: N, E, g :: aN, aE, by rw [e]; simp, ?_, hE, ?_, nE, mem_upd_add mN hx h2, mem_upd_iff mE (by simp [hx]), by simp [lN], lE⟩
  · intro k hk
    rcases List.mem_cons.1 hk with rfl | hk
    · exact hx
    · exact hN k hk
  · rw [List.nodup_cons]
    exact ⟨by rw [mN, h1]; simp, nN⟩

theorem Observers.popE {pc : Nat → PC} {o : List Nat} (h : Observers x pc o) {g : Nat} {p : PC} (hx : x g = true)
    (h1 : inE (pc g) = true) (h2 : inE p = false) : o ≠ [] ∧ Observers x (upd pc g p) o.dropLast := by
  obtain ⟨N, E, aN, aE, e, hN, hE, nN, nE, mN, mE, lN, lE⟩ := h
  have hg : g ∈ aE := (mE g).2 ⟨hx, h1⟩
  have hpos : 0 < aE.length := List.length_pos_of_mem hg
  have hne : E ≠ [] := by rintro rfl; simp at lE; omega
  refine ⟨by rw [e]; simp [hne], N, E.dropLast, aN, aE.erase g, ?_, hN, fun k hk => hE k (List.dropLast_subset E hk), nN, nE.erase g,
    mem_upd_iff mN (by simp [hx]), mem_upd_erase nE mE h2, lN, ?_⟩
  · rw [e, List.dropLast_append_of_ne_nil hne]
  · rw [List.length_dropLast, List.length_erase_of_mem hg, lE]

theorem Observers.popN {pc : Nat → PC} {o : List Nat} (h : Observers x pc o) {g : Nat} {p : PC} (hx : x g = false)
    (h1 : inN (pc g) = true) (h2 : inN p = false) : o ≠ [] ∧ Observers x (upd pc g p) o.tail := by
  obtain ⟨N, E, aN, aE, e, hN, hE, nN, nE, mN, mE, lN, lE⟩ := h
  have hg : g ∈ aN := (mN g).2 ⟨hx, h1⟩
  have hpos : 0 < aN.length := List.length_pos_of_mem hg
  obtain ⟨n, N, rfl⟩ := List.exists_cons_of_ne_nil (l := N) (by rintro rfl; simp at lN; omega)
  refine ⟨by rw [e]; simp, N, E, aN.erase g, aE, by rw [e]; rfl, fun k hk => hN k (by simp [hk]), hE, nN.erase g, nE,
    mem_upd_erase nN mN h2, mem_upd_iff mE (by simp [hx]), ?_, lE⟩
  rw [List.length_erase_of_mem hg, ← lN]; simp

/-- An exclusive guard that sees an exclusive observer first, or no one at work who is not exclusive. -/
theorem Observers.first {pc : Nat → PC} {o : List Nat} (h : Observers x pc o) {g : Nat} (hx : x g = true) (h1 : inE (pc g) = true) :
    ∃ a rest, o = a :: rest ∧ (x a = true ↔ ∀ k, x k = false → inN (pc k) = false) := by
  obtain ⟨N, E, aN, aE, e, hN, hE, nN, nE, mN, mE, lN, lE⟩ := h
  have hg : g ∈ aE := (mE g).2 ⟨hx, h1⟩
  have hpos : 0 < aE.length := List.length_pos_of_mem hg
  cases N with
  | nil =>
    obtain ⟨a, E, rfl⟩ := List.exists_cons_of_ne_nil (l := E) (by rintro rfl; simp at lE; omega)
    refine ⟨a, E, by simpa using e, fun _ k hk => ?_, fun _ => hE a (by simp)⟩
    have hnil : aN = [] := List.eq_nil_of_length_eq_zero (by simpa using lN.symm)
    cases hi : inN (pc k) with
    | false => rfl
    | true =>
      have := (mN k).2 ⟨hk, hi⟩
      rw [hnil] at this
      cases this
  | cons a N =>
    refine ⟨a, N ++ E, by simpa using e, ?_, ?_⟩
    · intro ha
      rw [hN a (by simp)] at ha
      cases ha
    · intro hall
      exfalso
      have hpos : 0 < aN.length := by rw [← lN]; simp
      obtain ⟨k, aN, rfl⟩ := List.exists_cons_of_ne_nil (l := aN) (by rintro rfl; simp at hpos)
      have := (mN k).1 (by simp)
      rw [hall k this.1] at this
      cases this.2

theorem Observers.empty {pc : Nat → PC} {o : List Nat} (h : Observers x pc o) (h1 : ∀ k, x k = false → inN (pc k) = false)
    (h2 : ∀ k, x k = true → inE (pc k) = false) : o = [] := by
  obtain ⟨N, E, aN, aE, e, hN, hE, nN, nE, mN, mE, lN, lE⟩ := h
  have e1 : aN = [] := by
    cases aN with
    | nil => rfl
    | cons k _ => have := (mN k).1 (by simp); rw [h1 k this.1] at this; cases this.2
  have e2 : aE = [] := by
    cases aE with
    | nil => rfl
    | cons k _ => have := (mE k).1 (by simp); rw [h2 k this.1] at this; cases this.2
  subst e1 e2
  rw [e, List.eq_nil_of_length_eq_zero lN, List.eq_nil_of_length_eq_zero lE]
  rfl

/-! ### the invariant -/

structure Inv (x : Nat → Bool) (d : Deques) (pc : Nat → PC) : Prop where
  queue : Queue x pc d.queue
  observers : Observers x pc d.observers
  alone : ∀ g, x g = true → isAlone (pc g) = true → ∀ h, x h = false → inN (pc h) = false
  fits : ∀ g, fits (x g) (pc g) = true

theorem Inv.init : Inv x ⟨[], []⟩ (fun _ => .idle) := by
  refine ⟨⟨by simp, fun g => ?_, fun g => ?_⟩, ⟨[], [], [], [], rfl, by simp, by simp, by simp, by simp, ?_, ?_, rfl, rfl⟩, ?_, ?_⟩
  · cases x g <;> simp [inQueue]
  · cases x g <;> simp [isHead]
  · simp [inN]
  · simp [inE]
  · simp [isAlone]
  · intro g; cases x g <;> rfl

theorem fits_upd {pc : Nat → PC} (h : ∀ g, fits (x g) (pc g) = true) {g : Nat} {p : PC} (hp : fits (x g) p = true) :
    ∀ k, fits (x k) (upd pc g p k) = true := by
  intro k
  by_cases hkg : k = g
  · subst hkg; rw [upd_same]; exact hp
  · rw [upd_other _ _ hkg]; exact h k

/-- Changes that make no one alone and no one at work. -/
theorem alone_upd {pc : Nat → PC} (h : ∀ g, x g = true → isAlone (pc g) = true → ∀ h, x h = false → inN (pc h) = false) {g : Nat} {p : PC}
    (h1 : x g = true → isAlone p = true → isAlone (pc g) = true) (h2 : x g = false → inN p = true → inN (pc g) = true) :
    ∀ k, x k = true → isAlone (upd pc g p k) = true → ∀ h, x h = false → inN (upd pc g p h) = false := by
  intro k hk ha l hl
  have ha' : isAlone (pc k) = true := by
    by_cases hkg : k = g
    · subst hkg; rw [upd_same] at ha; exact h1 hk ha
    · rwa [upd_other _ _ hkg] at ha
  by_cases hlg : l = g
  · subst hlg
    rw [upd_same]
    cases hi : inN p with
    | false => rfl
    | true => have := h k hk ha' l hl; rw [h2 hl hi] at this; cases this
  · rw [upd_other _ _ hlg]; exact h k hk ha' l hl

/-- One atomic operation keeps the invariant. -/
theorem Inv.move {d : Deques} {pc : Nat → PC} (h : Inv x d pc) (g : Nat) (spoiled : Bool) :
    Inv x (move x g spoiled d (pc g)).1 (upd pc g (move x g spoiled d (pc g)).2.1) := by
  have hf := h.fits g
  cases hpc : pc g with
  | idle =>
    cases hx : x g <;> simp only [Guard.move, hx, if_true, if_false, Bool.false_eq_true]
    · exact ⟨h.queue.keep (by rw [hpc, hx]; rfl) (by simp [hx, isHead]), h.observers.keep (by simp [hpc, inN]) (by simp [hx]),
        alone_upd h.alone (by simp [hx]) (by simp [inN]), fits_upd h.fits (by rw [hx]; rfl)⟩
    · exact ⟨h.queue.keep (by rw [hpc, hx]; rfl) (by simp [hx, isHead]), h.observers.keep (by simp [hx]) (by simp [hpc, inE]),
        alone_upd h.alone (by simp [isAlone]) (by simp [hx]), fits_upd h.fits (by rw [hx]; rfl)⟩
  | notifyOn =>
    rw [hpc] at hf
    have hx : x g = true := by cases hx : x g <;> simp [hx, Guard.fits] at hf ⊢
    simp only [Guard.move]
    exact ⟨h.queue.keep (by rw [hpc, hx]; rfl) (by simp [hx, isHead]), h.observers.addE hx (by rw [hpc]; rfl) rfl,
      alone_upd h.alone (by simp [isAlone]) (by simp [hx]), fits_upd h.fits (by rw [hx]; rfl)⟩
  | getIn =>
    simp only [Guard.move]
    refine ⟨h.queue.add (by cases x g <;> rfl) (by rw [hpc]; cases x g <;> rfl) (by cases x g <;> rfl),
      h.observers.keep (by simp [hpc, inN]) (by simp [hpc, inE]),
      alone_upd h.alone (by simp [isAlone]) (by simp [inN]), fits_upd h.fits (by cases x g <;> rfl)⟩
  | check =>
    have hmem : g ∈ d.queue := (h.queue.mem g).2 (by rw [hpc]; cases x g <;> rfl)
    obtain ⟨a, rest, hq⟩ := List.exists_cons_of_ne_nil (List.ne_nil_of_mem hmem)
    have hhead : a = g → d.queue.head? = some g := by rintro rfl; rw [hq]; rfl
    cases hx : x g with
    | true =>
      simp only [Guard.move, hq, hx, if_true]
      exact ⟨h.queue.keep (by rw [hpc, hx]; rfl) (by simpa [hx, isHead] using hhead), h.observers.keep (by simp [hx]) (by simp [hpc, inE]),
        alone_upd h.alone (by simp [isAlone]) (by simp [hx]), fits_upd h.fits (by rw [hx]; rfl)⟩
    | false =>
      simp only [Guard.move, hq, hx, if_false, Bool.false_eq_true]
      by_cases ha : a = g
      · simp only [ha, if_true]
        exact ⟨h.queue.keep (by rw [hpc, hx]; rfl) (fun _ => hhead ha), h.observers.keep (by simp [hpc, inN]) (by simp [hx]),
          alone_upd h.alone (by simp [hx]) (by simp [inN]), fits_upd h.fits (by rw [hx]; rfl)⟩
      · simp only [ha, if_false]
        exact ⟨h.queue.keep (by rw [hpc]) (by simp [hx, isHead]), h.observers.keep (by simp [hpc]) (by simp [hx]),
          alone_upd h.alone (by simp [hx]) (by simp [inN]), fits_upd h.fits (by rw [hx]; rfl)⟩
  | checkObservers b =>
    rw [hpc] at hf
    have hx : x g = true := by cases hx : x g <;> simp [hx, Guard.fits] at hf ⊢
    obtain ⟨a, rest, ho, hiff⟩ := h.observers.first hx (by rw [hpc]; rfl)
    simp only [Guard.move, ho]
    by_cases hb : (b && x a) = true
    · simp only [hb, if_true]
      obtain ⟨rfl, ha⟩ : b = true ∧ x a = true := by simpa using hb
      have hN := hiff.1 ha
      refine ⟨h.queue.keep (by rw [hpc, hx]; rfl) (fun _ => h.queue.head g (by rw [hpc, hx]; rfl)),
        h.observers.keep (by simp [hx]) (by simp [hpc, inE]), ?_, fits_upd h.fits (by rw [hx]; rfl)⟩
      intro k hk _ l hl
      have : l ≠ g := by rintro rfl; rw [hx] at hl; cases hl
      rw [upd_other _ _ this]
      exact hN l hl
    · simp only [hb, if_false, Bool.false_eq_true]
      exact ⟨h.queue.keep (by rw [hpc, hx]; rfl) (by simp [hx, isHead]), h.observers.keep (by simp [hx]) (by simp [hpc, inE]),
        alone_upd h.alone (by simp [isAlone]) (by simp [hx]), fits_upd h.fits (by rw [hx]; rfl)⟩
  | announce =>
    rw [hpc] at hf
    have hx : x g = false := by cases hx : x g <;> simp [hx, Guard.fits] at hf ⊢
    have hhead := h.queue.head g (by rw [hpc, hx]; rfl)
    simp only [Guard.move]
    refine ⟨h.queue.keep (by rw [hpc, hx]; rfl) (fun _ => hhead), h.observers.addN hx (by rw [hpc]; rfl) rfl, ?_, fits_upd h.fits (by rw [hx]; rfl)⟩
    intro k hk ha l hl
    exfalso
    have hkg : k ≠ g := by rintro rfl; rw [hx] at hk; cases hk
    rw [upd_other _ _ hkg] at ha
    have := h.queue.head k (by rw [hk]; cases hp : pc k <;> rw [hp] at ha <;> simp [isAlone] at ha <;> rfl)
    rw [hhead] at this
    simp only [Option.some.injEq] at this
    exact hkg this.symm
  | takeOff =>
    rw [hpc] at hf
    have hx : x g = false := by cases hx : x g <;> simp [hx, Guard.fits] at hf ⊢
    obtain ⟨rest, hq, hQ⟩ := h.queue.pop (p := .start) (by rw [hpc, hx]; rfl) (by rw [hx]; rfl) (by rw [hx]; rfl)
    simp only [Guard.move, hq, if_true]
    exact ⟨hQ, h.observers.keep (by simp [hpc, inN]) (by simp [hx]), alone_upd h.alone (by simp [hx]) (by simp [hpc, inN]),
      fits_upd h.fits (by rw [hx]; rfl)⟩
  | start =>
    have key : ∀ p, p = .fault1 ∨ p = .run → Inv x d (upd pc g p) := by
      intro p hp
      cases hx : x g with
      | true =>
        refine ⟨h.queue.keep (by rw [hpc, hx]; rcases hp with rfl | rfl <;> rfl) (fun _ => h.queue.head g (by rw [hpc, hx]; rfl)),
          h.observers.keep (by simp [hx]) (by rw [hpc]; rcases hp with rfl | rfl <;> simp [inE]),
          alone_upd h.alone (by simp [hpc, isAlone]) (by simp [hx]), fits_upd h.fits (by rw [hx]; rcases hp with rfl | rfl <;> rfl)⟩
      | false =>
        refine ⟨h.queue.keep (by rw [hpc, hx]; rcases hp with rfl | rfl <;> rfl) (by rw [hx]; rcases hp with rfl | rfl <;> simp [isHead]),
          h.observers.keep (by rw [hpc]; rcases hp with rfl | rfl <;> simp [inN]) (by simp [hx]),
          alone_upd h.alone (by simp [hx]) (by simp [hpc, inN]), fits_upd h.fits (by rw [hx]; rcases hp with rfl | rfl <;> rfl)⟩
    cases spoiled
    · simpa [Guard.move] using key .run (.inr rfl)
    · simpa [Guard.move] using key .fault1 (.inl rfl)
  | run =>
    simp only [Guard.move]
    cases hx : x g with
    | true =>
      exact ⟨h.queue.keep (by rw [hpc, hx]; rfl) (fun _ => h.queue.head g (by rw [hpc, hx]; rfl)),
        h.observers.keep (by simp [hx]) (by simp [hpc, inE]), alone_upd h.alone (by simp [hpc, isAlone]) (by simp [hx]),
        fits_upd h.fits (by rw [hx]; rfl)⟩
    | false =>
      exact ⟨h.queue.keep (by rw [hpc, hx]; rfl) (by simp [hx, isHead]),
        h.observers.keep (by simp [hpc, inN]) (by simp [hx]), alone_upd h.alone (by simp [hx]) (by simp [hpc, inN]),
        fits_upd h.fits (by rw [hx]; rfl)⟩
  | notifyOff =>
    cases hx : x g with
    | true =>
      obtain ⟨hne, hO⟩ := h.observers.popE (p := .getOff) hx (by rw [hpc]; rfl) rfl
      simp only [Guard.move, hne, hx, if_true, if_false]
      exact ⟨h.queue.keep (by rw [hpc, hx]; rfl) (fun _ => h.queue.head g (by rw [hpc, hx]; rfl)), hO,
        alone_upd h.alone (by simp [hpc, isAlone]) (by simp [hx]), fits_upd h.fits (by rw [hx]; rfl)⟩
    | false =>
      obtain ⟨hne, hO⟩ := h.observers.popN (p := .finish) hx (by rw [hpc]; rfl) rfl
      simp only [Guard.move, hne, hx, if_false, Bool.false_eq_true]
      exact ⟨h.queue.keep (by rw [hpc, hx]; rfl) (by simp [hx, isHead]), hO,
        alone_upd h.alone (by simp [hx]) (by simp [inN]), fits_upd h.fits (by rw [hx]; rfl)⟩
  | getOff =>
    rw [hpc] at hf
    have hx : x g = true := by cases hx : x g <;> simp [hx, Guard.fits] at hf ⊢
    obtain ⟨rest, hq, hQ⟩ := h.queue.pop (p := .finish) (by rw [hpc, hx]; rfl) (by rw [hx]; rfl) (by rw [hx]; rfl)
    simp only [Guard.move, hq, if_true]
    exact ⟨hQ, h.observers.keep (by simp [hx]) (by simp [hpc, inE]), alone_upd h.alone (by simp [isAlone]) (by simp [hx]),
      fits_upd h.fits (by rw [hx]; rfl)⟩
  | finish =>
    simp only [Guard.move]
    have key : ∀ p, p = .failed ∨ p = .done → Inv x d (upd pc g p) := by
      intro p hp
      refine ⟨h.queue.keep (by rw [hpc]; cases x g <;> rcases hp with rfl | rfl <;> rfl) (by cases x g <;> rcases hp with rfl | rfl <;> simp [isHead]),
        h.observers.keep (by rw [hpc]; rcases hp with rfl | rfl <;> simp [inN]) (by rw [hpc]; rcases hp with rfl | rfl <;> simp [inE]),
        alone_upd h.alone (by rcases hp with rfl | rfl <;> simp [isAlone]) (by rcases hp with rfl | rfl <;> simp [inN]),
        fits_upd h.fits (by cases x g <;> rcases hp with rfl | rfl <;> rfl)⟩
    cases spoiled
    · simpa using key .done (.inr rfl)
    · simpa using key .failed (.inl rfl)
  | fault1 =>
    cases hx : x g with
    | true =>
      obtain ⟨hne, hO⟩ := h.observers.popE (p := .fault2) hx (by rw [hpc]; rfl) rfl
      simp only [Guard.move, hne, hx, if_true, if_false]
      exact ⟨h.queue.keep (by rw [hpc, hx]; rfl) (fun _ => h.queue.head g (by rw [hpc, hx]; rfl)), hO,
        alone_upd h.alone (by simp [hpc, isAlone]) (by simp [hx]), fits_upd h.fits (by rw [hx]; rfl)⟩
    | false =>
      obtain ⟨hne, hO⟩ := h.observers.popN (p := .failed) hx (by rw [hpc]; rfl) rfl
      simp only [Guard.move, hne, hx, if_false, Bool.false_eq_true]
      exact ⟨h.queue.keep (by rw [hpc, hx]; rfl) (by simp [hx, isHead]), hO,
        alone_upd h.alone (by simp [hx]) (by simp [inN]), fits_upd h.fits (by rw [hx]; rfl)⟩
  | fault2 =>
    rw [hpc] at hf
    have hx : x g = true := by cases hx : x g <;> simp [hx, Guard.fits] at hf ⊢
    obtain ⟨rest, hq, hQ⟩ := h.queue.pop (p := .failed) (by rw [hpc, hx]; rfl) (by rw [hx]; rfl) (by rw [hx]; rfl)
    simp only [Guard.move, hq, if_true]
    exact ⟨hQ, h.observers.keep (by simp [hx]) (by simp [hpc, inE]), alone_upd h.alone (by simp [isAlone]) (by simp [hx]),
      fits_upd h.fits (by rw [hx]; rfl)⟩
  | broken => rw [hpc] at hf; cases x g <;> simp [Guard.fits] at hf
  | done | failed | lostWaiting | lostLeaving =>
    simp only [Guard.move]
    have : upd pc g (pc g) = pc := by funext k; simp only [upd]; split <;> simp_all
    rw [← hpc, this]
    exact h

theorem Inv.cancel {d : Deques} {pc : Nat → PC} (h : Inv x d pc) (g : Nat) : Inv x d (upd pc g (cancelled (pc g))) := by
  have same : cancelled (pc g) = pc g → Inv x d (upd pc g (cancelled (pc g))) := by
    intro hs
    have : upd pc g (pc g) = pc := by funext k; simp only [upd]; split <;> simp_all
    rw [hs, this]
    exact h
  cases hpc : pc g with
  | check =>
    simp only [cancelled]
    exact ⟨h.queue.keep (by rw [hpc]; cases x g <;> rfl) (by cases x g <;> simp [isHead]),
      h.observers.keep (by simp [hpc, inN]) (by simp [hpc, inE]), alone_upd h.alone (by simp [isAlone]) (by simp [inN]),
      fits_upd h.fits (by cases x g <;> rfl)⟩
  | notifyOff =>
    simp only [cancelled]
    refine ⟨h.queue.keep (by rw [hpc]; cases x g <;> rfl) (fun hh => h.queue.head g (by rw [hpc]; cases hx : x g <;> simp [hx, isHead] at hh ⊢)),
      h.observers.keep (by simp [hpc, inN]) (by simp [hpc, inE]), alone_upd h.alone (by simp [hpc, isAlone]) (by simp [hpc, inN]),
      fits_upd h.fits (by cases x g <;> rfl)⟩
  | _ => rw [hpc] at same; exact same rfl

theorem Inv.next {s : State} (h : Inv x s.deques s.pc) (e : Event) : Inv x (s.next x e).deques (s.next x e).pc := by
  cases e with
  | step g => exact h.move g (s.spoiled g)
  | reenter g =>
    simp only [State.next]
    split <;> exact h
  | cancel g => exact h.cancel g

theorem Inv.run {es : List Event} : ∀ {s : State}, Inv x s.deques s.pc → Inv x (s.run x es).deques (s.run x es).pc := by
  induction es with
  | nil => intro s h; exact h
  | cons e es ih => intro s h; exact ih (h.next e)

theorem inv_reachable (es : List Event) : Inv x (State.init.run x es).deques (State.init.run x es).pc := Inv.run Inv.init

end Aiootp.Guard
