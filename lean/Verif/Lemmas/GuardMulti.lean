import Verif.Model.GuardMulti
import Verif.Lemmas.Guard
import Verif.Lemmas.GuardOrder

namespace Aiootp.Guard

variable {x : Nat → Bool} {target : Nat → Nat}

/-- What one pair of deques knows of a guard. -/
def Place.at (i : Nat) : Place → PC
  | .out => .idle
  | .inside j pc => if j = i then pc else .idle
  | .left j pc => if j = i then pc else .idle

/-- The guard got the deques `i`. -/
def Place.uses (i : Nat) : Place → Prop
  | .out => False
  | .inside j _ => j = i
  | .left j _ => j = i

/-- The guard is between initialisation and cleanup. -/
def Place.isInside : Place → Bool
  | .inside _ _ => true
  | _ => false

structure MInv (x : Nat → Bool) (target : Nat → Nat) (s : Multi) : Prop where
  inv : ∀ i, Inv x (s.deques i) (fun g => (s.place g).at i)
  shared : ∀ g i pc, s.place g = .inside i pc → ∃ r, s.records (target g) = some r ∧ r.inst = i
  count : ∀ t r, s.records t = some r → ∃ a : List Nat, a.Nodup ∧ (∀ g, g ∈ a ↔ target g = t ∧ (s.place g).isInside = true) ∧
    a.length ≤ r.users.length
  bound : ∀ t r, s.records t = some r → r.inst < s.fresh
  apart : ∀ t u r r', s.records t = some r → s.records u = some r' → r.inst = r'.inst → t = u
  old : ∀ g i, (s.place g).uses i → i < s.fresh
  owner : ∀ t r g, s.records t = some r → (s.place g).uses r.inst → target g = t

theorem MInv.init : MInv x target Multi.init := by
  refine ⟨fun i => Inv.init, ?_, ?_, ?_, ?_, ?_, ?_⟩ <;> simp [Multi.init, Place.uses]

theorem isInside_iff {p : Place} : p.isInside = true ↔ ∃ i pc, p = .inside i pc := by
  cases p <;> simp [Place.isInside]

/-- Adding a user for a target, when the guard's place becomes `p`. -/
theorem MInv.addUser {s : Multi} (h : MInv x target s) (g k : Nat) (p : Place)
    (hp : p = s.place g ∨ (s.place g = .out ∧ p = .inside (s.record (target g)).inst .idle)) (hk : target k = target g) :
    MInv x target { s.addUser (target g) k with place := fun j => if j = g then p else s.place j } := by
  have hat : ∀ i j, (if j = g then p else s.place j).at i = (s.place j).at i := by
    intro i j
    by_cases hj : j = g
    · subst hj
      rcases hp with rfl | ⟨h1, rfl⟩
      · simp
      · simp [h1, Place.at]
    · simp [hj]
  -- the record there was, or none
  have hrec : (∃ r, s.records (target g) = some r ∧ s.record (target g) = r) ∨ (s.records (target g) = none ∧ s.record (target g) = ⟨s.fresh, []⟩) := by
    cases hr : s.records (target g) with
    | none => exact .inr ⟨rfl, by simp [Multi.record, hr]⟩
    | some r => exact .inl ⟨r, rfl, by simp [Multi.record, hr]⟩
  have huses : ∀ j i, (if j = g then p else s.place j).uses i → (s.place j).uses i ∨ (j = g ∧ i = (s.record (target g)).inst) := by
    intro j i
    by_cases hj : j = g
    · subst hj
      rcases hp with rfl | ⟨h1, rfl⟩
      · simp only [if_true]; exact .inl
      · simp only [if_true, Place.uses]; intro e; exact .inr ⟨trivial, e.symm⟩
    · simp only [hj, if_false]; exact .inl
  have hold : ∀ j i, (s.place j).uses i → i ≠ s.fresh := by
    intro j i hu e
    have := h.old j i hu
    omega
  refine ⟨?_, ?_, ?_, ?_, ?_, ?_, ?_⟩
  · intro i
    simp only [Multi.addUser]
    have := h.inv i
    simpa only [hat i] using this
  · intro j i pc hj
    simp only [Multi.addUser] at hj ⊢
    by_cases htj : target j = target g
    · refine ⟨{ s.record (target g) with users := (s.record (target g)).users ++ [k] }, by simp [htj], ?_⟩
      simp only
      by_cases hjg : j = g
      · subst hjg
        simp only [if_true] at hj
        rcases hp with hp | ⟨h1, hp⟩
        · obtain ⟨r, hr, hi⟩ := h.shared j i pc (by rw [← hp, hj])
          rw [← hi]; simp [Multi.record, hr]
        · rw [hp] at hj; simp only [Place.inside.injEq] at hj; exact hj.1
      · simp only [hjg, if_false] at hj
        obtain ⟨r, hr, hi⟩ := h.shared j i pc hj
        rw [htj] at hr
        rw [← hi]; simp [Multi.record, hr]
    · simp only [htj, if_false]
      by_cases hjg : j = g
      · subst hjg; exact absurd rfl htj
      · simp only [hjg, if_false] at hj
        exact h.shared j i pc hj
  · intro t r hr
    simp only [Multi.addUser] at hr ⊢
    have base : ∃ a : List Nat, a.Nodup ∧ (∀ j, j ∈ a ↔ target j = target g ∧ (s.place j).isInside = true) ∧ a.length ≤ (s.record (target g)).users.length := by
      rcases hrec with ⟨r, h1, h2⟩ | ⟨h1, h2⟩
      · rw [h2]; exact h.count _ _ h1
      · refine ⟨[], by simp, ?_, by simp⟩
        intro j
        simp only [List.not_mem_nil, false_iff, not_and]
        intro hj hi
        obtain ⟨i, pc, e⟩ := isInside_iff.1 hi
        obtain ⟨r, hr, _⟩ := h.shared j i pc e
        rw [hj, h1] at hr
        cases hr
    by_cases ht : t = target g
    · subst ht
      simp only [if_true, Option.some.injEq] at hr
      subst hr
      obtain ⟨a, hn, hm, hl⟩ := base
      rcases hp with hp | ⟨h1, hp⟩
      · refine ⟨a, hn, ?_, by simp; omega⟩
        intro j
        rw [hm j]
        by_cases hj : j = g
        · subst hj; simp [hp]
        · simp [hj]
      · have hg : g ∉ a := by rw [hm g, h1]; simp [Place.isInside]
        refine ⟨g :: a, List.nodup_cons.2 ⟨hg, hn⟩, ?_, by simp; omega⟩
        intro j
        by_cases hj : j = g
        · subst hj; simp [hp, Place.isInside]
        · simp [hj, hm j]
    · simp only [ht, if_false] at hr
      obtain ⟨a, hn, hm, hl⟩ := h.count t r hr
      refine ⟨a, hn, ?_, hl⟩
      intro j
      rw [hm j]
      by_cases hj : j = g
      · subst hj; simp [Ne.symm ht]
      · simp [hj]
  · intro t r hr
    simp only [Multi.addUser] at hr ⊢
    by_cases ht : t = target g
    · subst ht
      simp only [if_true, Option.some.injEq] at hr
      subst hr
      simp only
      rcases hrec with ⟨r, h1, h2⟩ | ⟨h1, h2⟩
      · rw [h2, h1]; simpa using h.bound _ _ h1
      · rw [h2, h1]; simp
    · simp only [ht, if_false] at hr
      have := h.bound t r hr
      split <;> omega
  · intro t u r r' hr hr' he
    simp only [Multi.addUser] at hr hr'
    have main : ∀ t r, t ≠ target g → s.records t = some r → r.inst = (s.record (target g)).inst → False := by
      intro t r ht hr he
      rcases hrec with ⟨q, h1, h2⟩ | ⟨h1, h2⟩
      · rw [h2] at he; exact ht (h.apart t _ r q hr h1 he)
      · rw [h2] at he
        have := h.bound t r hr
        simp only at he
        omega
    by_cases ht : t = target g <;> by_cases hu : u = target g
    · rw [ht, hu]
    · simp only [ht, hu, if_true, if_false, Option.some.injEq] at hr hr'
      subst hr
      exact (main u r' hu hr' (by rw [← he])).elim
    · simp only [ht, hu, if_true, if_false, Option.some.injEq] at hr hr'
      subst hr'
      exact (main t r ht hr (by rw [he])).elim
    · simp only [ht, hu, if_false] at hr hr'
      exact h.apart t u r r' hr hr' he
  · intro j i hj
    simp only [Multi.addUser] at hj ⊢
    rcases huses j i hj with hj | ⟨_, rfl⟩
    · have := h.old j i hj
      split <;> omega
    · rcases hrec with ⟨r, h1, h2⟩ | ⟨h1, h2⟩
      · rw [h2, h1]; simpa using h.bound _ _ h1
      · rw [h2, h1]; simp
  · intro t r j hr hj
    simp only [Multi.addUser] at hr hj
    by_cases ht : t = target g
    · subst ht
      simp only [if_true, Option.some.injEq] at hr
      subst hr
      rcases huses j _ hj with hj | ⟨rfl, _⟩
      · simp only at hj
        rcases hrec with ⟨r, h1, h2⟩ | ⟨h1, h2⟩
        · rw [h2] at hj; exact h.owner _ _ j h1 hj
        · rw [h2] at hj; exact absurd rfl (hold j _ hj)
      · rfl
    · simp only [ht, if_false] at hr
      rcases huses j _ hj with hj | ⟨rfl, he⟩
      · exact h.owner t r j hr hj
      · exfalso
        rcases hrec with ⟨q, h1, h2⟩ | ⟨h1, h2⟩
        · rw [h2] at he; exact ht (h.apart t _ r q hr h1 he)
        · rw [h2] at he
          have := h.bound t r hr
          simp only at he
          omega

/-- The end of a guard's use. -/
theorem MInv.cleanup {s : Multi} (h : MInv x target s) {g i : Nat} {pc : PC} (hg : s.place g = .inside i pc) :
    MInv x target { s.cleanup (target g) with place := fun j => if j = g then .left i pc else s.place j } := by
  obtain ⟨r, hr, hri⟩ := h.shared g i pc hg
  obtain ⟨a, hn, hm, hl⟩ := h.count _ _ hr
  have hrec : s.record (target g) = r := by simp [Multi.record, hr]
  have hga : g ∈ a := (hm g).2 ⟨rfl, by rw [hg]; rfl⟩
  have hpos : 0 < a.length := List.length_pos_of_mem hga
  have hat : ∀ k j, (if j = g then Place.left i pc else s.place j).at k = (s.place j).at k := by
    intro k j
    by_cases hj : j = g
    · subst hj; simp [hg, Place.at]
    · simp [hj]
  have huses : ∀ j k, (if j = g then Place.left i pc else s.place j).uses k → (s.place j).uses k := by
    intro j k
    by_cases hj : j = g
    · subst hj; simp [hg, Place.uses]
    · simp [hj]
  have hsome : ∀ t q, (s.cleanup (target g)).records t = some q → ∃ q', s.records t = some q' ∧ q.inst = q'.inst ∧
      (t ≠ target g → q = q') ∧ (t = target g → q.users = q'.users.tail) := by
    intro t q hq
    simp only [Multi.cleanup, hrec] at hq
    by_cases ht : t = target g
    · subst ht
      simp only [if_true] at hq
      split at hq
      · simp only [Option.some.injEq] at hq
        subst hq
        exact ⟨r, hr, rfl, by simp, by simp⟩
      · cases hq
    · simp only [ht, if_false] at hq
      exact ⟨q, hq, rfl, by simp, by simp [ht]⟩
  refine ⟨?_, ?_, ?_, ?_, ?_, ?_, ?_⟩
  · intro k
    have := h.inv k
    simp only [Multi.cleanup]
    simpa only [hat k] using this
  · intro j k p hj
    simp only at hj
    by_cases hjg : j = g
    · subst hjg; simp at hj
    · simp only [hjg, if_false] at hj
      obtain ⟨q, hq, hqk⟩ := h.shared j k p hj
      by_cases ht : target j = target g
      · rw [ht] at hq
        rw [hr, Option.some.injEq] at hq
        subst hq
        have hja : j ∈ a := (hm j).2 ⟨ht, by rw [hj]; rfl⟩
        have h2 : 2 ≤ a.length := by
          have h1 : (a.erase g).length = a.length - 1 := List.length_erase_of_mem hga
          have h2 : j ∈ a.erase g := (hn.mem_erase_iff).2 ⟨hjg, hja⟩
          have := List.length_pos_of_mem h2
          omega
        have hne : r.users.tail ≠ [] := by
          intro e
          have := congrArg List.length e
          simp at this
          omega
        refine ⟨{ r with users := r.users.tail }, ?_, hqk⟩
        simp [Multi.cleanup, hrec, ht, hne]
      · exact ⟨q, by simp [Multi.cleanup, ht, hq], hqk⟩
  · intro t q hq
    obtain ⟨q', h1, _, h3, h4⟩ := hsome t q hq
    by_cases ht : t = target g
    · subst ht
      rw [hr, Option.some.injEq] at h1
      subst h1
      refine ⟨a.erase g, hn.erase g, ?_, ?_⟩
      · intro j
        rw [hn.mem_erase_iff, hm j]
        by_cases hj : j = g
        · subst hj; simp [Place.isInside]
        · simp [hj]
      · rw [List.length_erase_of_mem hga, h4 rfl, List.length_tail]
        omega
    · obtain ⟨b, hn', hm', hl'⟩ := h.count t q' h1
      rw [h3 ht]
      refine ⟨b, hn', ?_, hl'⟩
      intro j
      rw [hm' j]
      by_cases hj : j = g
      · subst hj; simp [Ne.symm ht]
      · simp [hj]
  · intro t q hq
    obtain ⟨q', h1, h2, _⟩ := hsome t q hq
    have := h.bound t q' h1
    rw [h2]
    simp only [Multi.cleanup, hr]
    simpa using this
  · intro t u q q' hq hq' he
    obtain ⟨p, h1, h2, _⟩ := hsome t q hq
    obtain ⟨p', h1', h2', _⟩ := hsome u q' hq'
    exact h.apart t u p p' h1 h1' (by rw [← h2, ← h2', he])
  · intro j k hj
    have := h.old j k (huses j k hj)
    simp only [Multi.cleanup, hr]
    simpa using this
  · intro t q j hq hj
    obtain ⟨p, h1, h2, _⟩ := hsome t q hq
    exact h.owner t p j h1 (by rw [← h2]; exact huses j _ hj)

/-- A change inside of a pair of deques. -/
theorem MInv.inner {s : Multi} (h : MInv x target s) {g i : Nat} {pc pc' : PC} (hg : s.place g = .inside i pc) {d : Deques}
    (hd : Inv x d (upd (fun k => (s.place k).at i) g pc')) :
    MInv x target { s with
      deques := fun j => if j = i then d else s.deques j
      place := fun j => if j = g then .inside i pc' else s.place j } := by
  refine ⟨?_, ?_, ?_, h.bound, h.apart, ?_, ?_⟩
  · intro k
    simp only
    by_cases hk : k = i
    · subst hk
      simp only [if_true]
      have : (fun j => (if j = g then Place.inside k pc' else s.place j).at k) = upd (fun j => (s.place j).at k) g pc' := by
        funext j
        by_cases hj : j = g
        · subst hj; simp [Place.at]
        · simp [hj, upd]
      rw [this]
      exact hd
    · simp only [hk, if_false]
      have : (fun j => (if j = g then Place.inside i pc' else s.place j).at k) = fun j => (s.place j).at k := by
        funext j
        by_cases hj : j = g
        · subst hj; simp [Place.at, hg, Ne.symm hk]
        · simp [hj]
      rw [this]
      exact h.inv k
  · intro j k p hj
    simp only at hj
    by_cases hjg : j = g
    · subst hjg
      simp only [if_true, Place.inside.injEq] at hj
      rw [← hj.1]
      exact h.shared j i pc hg
    · simp only [hjg, if_false] at hj
      exact h.shared j k p hj
  · intro t r hr
    obtain ⟨a, hn, hm, hl⟩ := h.count t r hr
    refine ⟨a, hn, ?_, hl⟩
    intro j
    rw [hm j]
    by_cases hj : j = g
    · subst hj; simp [hg, Place.isInside]
    · simp [hj]
  · intro j k hj
    simp only at hj
    refine h.old j k ?_
    by_cases hjg : j = g
    · subst hjg; simp [Place.uses] at hj; rw [hg]; exact hj
    · simpa [hjg] using hj
  · intro t r j hr hj
    simp only at hj
    refine h.owner t r j hr ?_
    by_cases hjg : j = g
    · subst hjg; simp [Place.uses] at hj; rw [hg]; exact hj
    · simpa [hjg] using hj

theorem MInv.next {s : Multi} (h : MInv x target s) (e : Event) : MInv x target (s.next x target e) := by
  cases e with
  | step g =>
    simp only [Multi.next]
    split
    · rename_i hp
      exact h.addUser g g _ (.inr ⟨hp, rfl⟩) rfl
    · rename_i i pc hp
      split
      · exact h.cleanup hp
      · have := (h.inv i).move g false
        simp only [hp, Place.at, if_true] at this
        exact h.inner hp this
    · exact h
  | reenter g =>
    simp only [Multi.next]
    split
    · exact h
    · have := h.addUser g g (s.place g) (.inl rfl) rfl
      have e : (fun j => if j = g then s.place g else s.place j) = s.place := by funext j; split <;> simp_all
      rw [e] at this
      exact this
  | cancel g =>
    simp only [Multi.next]
    split
    · rename_i i pc hp
      have := (h.inv i).cancel g
      simp only [hp, Place.at, if_true] at this
      have h2 := h.inner hp this
      have e : (fun j => if j = i then s.deques i else s.deques j) = s.deques := by funext j; split <;> simp_all
      rw [e] at h2
      exact h2
    · exact h

theorem MInv.run {es : List Event} : ∀ {s : Multi}, MInv x target s → MInv x target (s.run x target es) := by
  induction es with
  | nil => intro s h; exact h
  | cons e es ih => intro s h; exact ih (h.next e)

theorem minv_reachable (es : List Event) : MInv x target (Multi.init.run x target es) := MInv.run MInv.init

/-! ### without reuse and cancellation -/

structure Clean (target : Nat → Nat) (s : Multi) : Prop where
  exact : ∀ t r, s.records t = some r → ∃ a : List Nat, a.Nodup ∧ (∀ g, g ∈ a ↔ target g = t ∧ (s.place g).isInside = true) ∧
    a.length = r.users.length ∧ r.users ≠ []
  ended : ∀ g i pc, s.place g = .left i pc → pc = .done ∨ pc = .failed
  kept : ∀ g i pc, s.place g = .inside i pc → pc ≠ .lostWaiting ∧ pc ≠ .lostLeaving

theorem Clean.init : Clean target Multi.init := by
  constructor <;> simp [Multi.init]

theorem move_not_lost {p : PC} (h : p ≠ .lostWaiting ∧ p ≠ .lostLeaving) (g : Nat) (sp : Bool) (d : Deques) :
    (move x g sp d p).2.1 ≠ .lostWaiting ∧ (move x g sp d p).2.1 ≠ .lostLeaving := by
  cases hp : p <;> rw [hp] at h <;> simp only [move] <;> (try simp_all; done)
  all_goals
    (repeat' split) <;> simp

theorem Clean.step {s : Multi} (hc : Clean target s) (h : MInv x target s) (g : Nat) : Clean target (s.next x target (.step g)) := by
  simp only [Multi.next]
  split
  · rename_i hp
    refine ⟨?_, ?_, ?_⟩
    · intro t r hr
      simp only [Multi.addUser] at hr ⊢
      by_cases ht : t = target g
      · subst ht
        simp only [if_true, Option.some.injEq] at hr
        subst hr
        have base : ∃ a : List Nat, a.Nodup ∧ (∀ j, j ∈ a ↔ target j = target g ∧ (s.place j).isInside = true) ∧
            a.length = (s.record (target g)).users.length := by
          cases hr : s.records (target g) with
          | none =>
            refine ⟨[], by simp, ?_, by simp [Multi.record, hr]⟩
            intro j
            simp only [List.not_mem_nil, false_iff, not_and]
            intro hj hi
            obtain ⟨i, pc, e⟩ := isInside_iff.1 hi
            obtain ⟨r, hr', _⟩ := h.shared j i pc e
            rw [hj, hr] at hr'
            cases hr'
          | some r =>
            obtain ⟨a, h1, h2, h3, _⟩ := hc.exact _ _ hr
            exact ⟨a, h1, h2, by simp [Multi.record, hr, h3]⟩
        obtain ⟨a, hn, hm, hl⟩ := base
        have hg : g ∉ a := by rw [hm g, hp]; simp [Place.isInside]
        refine ⟨g :: a, List.nodup_cons.2 ⟨hg, hn⟩, ?_, by simp [hl], by simp⟩
        intro j
        by_cases hj : j = g
        · subst hj; simp [Place.isInside]
        · simp [hj, hm j]
      · simp only [ht, if_false] at hr
        obtain ⟨a, hn, hm, hl⟩ := hc.exact t r hr
        refine ⟨a, hn, ?_, hl⟩
        intro j
        rw [hm j]
        by_cases hj : j = g
        · subst hj; simp [Ne.symm ht]
        · simp [hj]
    · intro j i pc hj
      simp only at hj
      by_cases hjg : j = g
      · subst hjg; simp at hj
      · simp only [hjg, if_false] at hj; exact hc.ended j i pc hj
    · intro j i pc hj
      simp only at hj
      by_cases hjg : j = g
      · subst hjg; simp only [if_true, Place.inside.injEq] at hj; rw [← hj.2]; simp
      · simp only [hjg, if_false] at hj; exact hc.kept j i pc hj
  · rename_i i pc hp
    split
    · rename_i hover
      have hend : pc = .done ∨ pc = .failed := by
        have hl := hc.kept g i pc hp
        have hf := (h.inv i).fits g
        simp only [hp, Place.at, if_true] at hf
        cases hpc : pc <;> rw [hpc] at hover hl hf <;> simp_all [isOver]
        cases x g <;> simp [fits] at hf
      obtain ⟨r, hr, hri⟩ := h.shared g i pc hp
      have hrec : s.record (target g) = r := by simp [Multi.record, hr]
      obtain ⟨a, hn, hm, hl, hne⟩ := hc.exact _ _ hr
      have hga : g ∈ a := (hm g).2 ⟨rfl, by rw [hp]; rfl⟩
      refine ⟨?_, ?_, ?_⟩
      · intro t q hq
        simp only [Multi.cleanup, hrec] at hq ⊢
        by_cases ht : t = target g
        · subst ht
          simp only [if_true] at hq
          have key : r.users.tail ≠ [] → q = { r with users := r.users.tail } → ∃ a : List Nat, a.Nodup ∧
              (∀ j, j ∈ a ↔ target j = target g ∧ (if j = g then Place.left i pc else s.place j).isInside = true) ∧
              a.length = q.users.length ∧ q.users ≠ [] := by
            intro h1 h2
            subst h2
            refine ⟨a.erase g, hn.erase g, ?_, by rw [List.length_erase_of_mem hga, hl, List.length_tail], h1⟩
            intro j
            rw [hn.mem_erase_iff, hm j]
            by_cases hj : j = g
            · subst hj; simp [Place.isInside]
            · simp [hj]
          by_cases htail : r.users.tail = []
          · -- all have left, so the deques are empty
            exfalso
            have ha : a.erase g = [] := by
              apply List.eq_nil_of_length_eq_zero
              rw [List.length_erase_of_mem hga, hl, ← List.length_tail, htail]
              rfl
            have hall : ∀ j, (s.place j).at i = .idle ∨ (s.place j).at i = .done ∨ (s.place j).at i = .failed := by
              intro j
              cases hpj : s.place j with
              | out => exact .inl rfl
              | inside k p =>
                by_cases hk : k = i
                · subst hk
                  have hown := h.owner _ _ j hr (by rw [hpj, hri]; rfl)
                  by_cases hjg : j = g
                  · subst hjg
                    rw [hp] at hpj
                    simp only [Place.inside.injEq] at hpj
                    simp only [Place.at, if_true]
                    rw [← hpj.2]
                    exact .inr hend
                  · exfalso
                    have : j ∈ a.erase g := (hn.mem_erase_iff).2 ⟨hjg, (hm j).2 ⟨hown, by rw [hpj]; rfl⟩⟩
                    rw [ha] at this
                    cases this
                · exact .inl (by simp [Place.at, hk])
              | left k p =>
                simp only [Place.at]
                split
                · exact .inr (hc.ended j k p hpj)
                · exact .inl rfl
            have hI := h.inv i
            have hq0 : (s.deques i).queue = [] := by
              cases hqq : (s.deques i).queue with
              | nil => rfl
              | cons b _ =>
                have := (hI.queue.mem b).1 (by rw [hqq]; simp)

                rcases hall b with e | e | e <;> rw [e] at this <;> cases x b <;> simp [inQueue] at this
            have ho0 : (s.deques i).observers = [] := by
              apply hI.observers.empty
              · intro k _; rcases hall k with e | e | e <;> rw [e] <;> rfl
              · intro k _; rcases hall k with e | e | e <;> rw [e] <;> rfl
            rw [hri, hq0, ho0] at hq
            simp [htail, hne] at hq
          · rw [if_pos (.inl htail)] at hq
            simp only [Option.some.injEq] at hq
            exact key htail hq.symm
        · simp only [ht, if_false] at hq
          obtain ⟨b, hn', hm', hl'⟩ := hc.exact t q hq
          refine ⟨b, hn', ?_, hl'⟩
          intro j
          rw [hm' j]
          by_cases hj : j = g
          · subst hj; simp [Ne.symm ht]
          · simp [hj]
      · intro j k p hj
        simp only at hj
        by_cases hjg : j = g
        · subst hjg; simp only [if_true, Place.left.injEq] at hj; rw [← hj.2]; exact hend
        · simp only [hjg, if_false] at hj; exact hc.ended j k p hj
      · intro j k p hj
        simp only at hj
        by_cases hjg : j = g
        · subst hjg; simp at hj
        · simp only [hjg, if_false] at hj; exact hc.kept j k p hj
    · refine ⟨?_, ?_, ?_⟩
      · intro t r hr
        obtain ⟨a, hn, hm, hl⟩ := hc.exact t r hr
        refine ⟨a, hn, ?_, hl⟩
        intro j
        rw [hm j]
        by_cases hj : j = g
        · subst hj; simp [hp, Place.isInside]
        · simp [hj]
      · intro j k p hj
        simp only at hj
        by_cases hjg : j = g
        · subst hjg; simp at hj
        · simp only [hjg, if_false] at hj; exact hc.ended j k p hj
      · intro j k p hj
        simp only at hj
        by_cases hjg : j = g
        · subst hjg
          simp only [if_true, Place.inside.injEq] at hj
          rw [← hj.2]
          exact move_not_lost (hc.kept j i pc hp) j false _
        · simp only [hjg, if_false] at hj; exact hc.kept j k p hj
  · exact hc

/-- Schedules of steps only. -/
theorem clean_reachable (gs : List Nat) : Clean target (Multi.init.run x target (gs.map .step)) := by
  have : ∀ (gs : List Nat) (s : Multi), Clean target s → MInv x target s → Clean target (s.run x target (gs.map .step)) := by
    intro gs
    induction gs with
    | nil => intro s hc _; exact hc
    | cons g gs ih => intro s hc h; exact ih _ (hc.step h g) (h.next _)
  exact this gs _ Clean.init MInv.init

/-! ### targets do not see each other -/

/-- What a guard shows, apart from the number of its deques. -/
inductive Shape where
  | out
  | inside (pc : PC)
  | left (pc : PC)
  deriving DecidableEq, Repr

def Place.shape : Place → Shape
  | .out => .out
  | .inside _ pc => .inside pc
  | .left _ pc => .left pc

/-- Two managers look the same to the users of the target `t`. -/
structure Same (target : Nat → Nat) (t : Nat) (s s' : Multi) : Prop where
  record : (s.records t).map (fun r => (r.users, s.deques r.inst)) = (s'.records t).map (fun r => (r.users, s'.deques r.inst))
  place : ∀ g, target g = t → (s.place g).shape = (s'.place g).shape

/-- The guard of an event. -/
def Event.guard : Event → Nat
  | .step g => g
  | .reenter g => g
  | .cancel g => g

theorem Same.refl (t : Nat) (s : Multi) : Same target t s s := ⟨rfl, fun _ _ => rfl⟩

/-- Others do not matter. -/
theorem Same.other {t : Nat} {s s' : Multi} (h : Same target t s s') (hi : MInv x target s) {e : Event} (he : target e.guard ≠ t) :
    Same target t (s.next x target e) s' := by
  have hpl : ∀ (g : Nat), target g ≠ t → ∀ (p : Place) (d : Nat → Deques) (rs : Nat → Option Record) (f : Nat), rs t = s.records t →
      (∀ r, s.records t = some r → d r.inst = s.deques r.inst) → Same target t ⟨rs, d, f, fun j => if j = g then p else s.place j⟩ s' := by
    intro g hg p d rs f hrs hd
    refine ⟨?_, ?_⟩
    · rw [← h.record]
      simp only [hrs]
      cases hr : s.records t with
      | none => rfl
      | some r => simp [hd r hr]
    · intro k hk
      have : k ≠ g := by rintro rfl; exact hg hk
      simp only [this, if_false]
      exact h.place k hk
  cases e with
  | step g =>
    have hg : target g ≠ t := he
    simp only [Multi.next]
    split
    · exact hpl g hg _ _ _ _ (by simp [Multi.addUser, Ne.symm hg]) (fun r hr => by simp [Multi.addUser])
    · rename_i i pc hp
      split
      · exact hpl g hg _ _ _ _ (by simp [Multi.cleanup, Ne.symm hg]) (fun r hr => by simp [Multi.cleanup])
      · refine hpl g hg _ _ _ _ rfl (fun r hr => ?_)
        have : r.inst ≠ i := by
          rintro rfl
          exact hg (hi.owner t r g hr (by rw [hp]; rfl))
        simp [this]
    · exact h
  | reenter g =>
    have hg : target g ≠ t := he
    simp only [Multi.next]
    split
    · exact h
    · have := hpl g hg (s.place g) (s.addUser (target g) g).deques (s.addUser (target g) g).records (s.addUser (target g) g).fresh
        (by simp [Multi.addUser, Ne.symm hg]) (fun r hr => by simp [Multi.addUser])
      have e : (fun j => if j = g then s.place g else s.place j) = s.place := by funext j; split <;> simp_all
      rw [e] at this
      exact this
  | cancel g =>
    have hg : target g ≠ t := he
    simp only [Multi.next]
    split
    · exact hpl g hg _ _ _ _ rfl (fun r hr => rfl)
    · exact h

theorem Same.addUser {t : Nat} {s s' : Multi} (h : Same target t s s') (hi : MInv x target s) (hi' : MInv x target s') (k g : Nat) (p p' : Place)
    (hp : p.shape = p'.shape) :
    Same target t { s.addUser t k with place := fun j => if j = g then p else s.place j }
      { s'.addUser t k with place := fun j => if j = g then p' else s'.place j } := by
  have hfr : s.deques s.fresh = s'.deques s'.fresh := by
    have key : ∀ (s : Multi), MInv x target s → s.deques s.fresh = ⟨[], []⟩ := by
      intro s hi
      have hI := hi.inv s.fresh
      have hidle : ∀ g, (s.place g).at s.fresh = .idle := by
        intro g
        have := hi.old g s.fresh
        cases hp : s.place g with
        | out => rfl
        | inside j pc =>
          rw [hp] at this; simp only [Place.uses] at this
          simp only [Place.at]; split
          · rename_i e; have := this e; omega
          · rfl
        | left j pc =>
          rw [hp] at this; simp only [Place.uses] at this
          simp only [Place.at]; split
          · rename_i e; have := this e; omega
          · rfl
      have hq : (s.deques s.fresh).queue = [] := by
        cases hqq : (s.deques s.fresh).queue with
        | nil => rfl
        | cons b _ =>
          have := (hI.queue.mem b).1 (by rw [hqq]; simp)
          simp only [hidle] at this
          cases x b <;> simp [inQueue] at this
      have ho : (s.deques s.fresh).observers = [] := by
        apply hI.observers.empty <;> intro k _ <;> simp only [hidle] <;> rfl
      cases hd : s.deques s.fresh with
      | mk q o => rw [hd] at hq ho; simp only at hq ho; rw [hq, ho]
    rw [key s hi, key s' hi']
  have hrec := h.record
  refine ⟨?_, ?_⟩
  · simp only [Multi.addUser, if_true, Option.map_some, Multi.record]
    cases hr : s.records t with
    | none =>
      cases hr' : s'.records t with
      | none => simp [hfr]
      | some r' => rw [hr, hr'] at hrec; simp at hrec
    | some r =>
      cases hr' : s'.records t with
      | none => rw [hr, hr'] at hrec; simp at hrec
      | some r' => rw [hr, hr'] at hrec; simp at hrec; simp [hrec.1, hrec.2]
  · intro j hj
    simp only
    by_cases hjg : j = g
    · simp only [hjg, if_true]; exact hp
    · simp only [hjg, if_false]; exact h.place j hj

/-- Their own events look the same. -/
theorem Same.own {t : Nat} {s s' : Multi} (h : Same target t s s') (hi : MInv x target s) (hi' : MInv x target s') {e : Event}
    (he : target e.guard = t) : Same target t (s.next x target e) (s'.next x target e) := by
  have hrec := h.record
  cases e with
  | step g =>
    have hg : target g = t := he
    have hs := h.place g hg
    simp only [Multi.next]
    cases hp : s.place g with
    | out =>
      cases hp' : s'.place g with
      | out =>
        subst hg
        exact h.addUser hi hi' g g _ _ rfl
      | inside j pc => rw [hp, hp'] at hs; simp [Place.shape] at hs
      | left j pc => rw [hp, hp'] at hs; simp [Place.shape] at hs
    | left j pc =>
      cases hp' : s'.place g with
      | left j' pc' => exact h
      | inside j pc => rw [hp, hp'] at hs; simp [Place.shape] at hs
      | out => rw [hp, hp'] at hs; simp [Place.shape] at hs
    | inside i pc =>
      cases hp' : s'.place g with
      | left j' pc' => rw [hp, hp'] at hs; simp [Place.shape] at hs
      | out => rw [hp, hp'] at hs; simp [Place.shape] at hs
      | inside i' pc' =>
        rw [hp, hp'] at hs
        simp only [Place.shape, Shape.inside.injEq] at hs
        subst hs
        obtain ⟨r, hr, hri⟩ := hi.shared g i pc hp
        obtain ⟨r', hr', hri'⟩ := hi'.shared g i' pc hp'
        rw [hg] at hr hr'
        rw [hr, hr'] at hrec
        simp only [Option.map_some, Option.some.injEq, Prod.mk.injEq] at hrec
        obtain ⟨hu, hd⟩ := hrec
        simp only []
        split
        · refine ⟨?_, ?_⟩
          · simp only [Multi.cleanup, hg, if_true, Multi.record, hr, hr', ← hu, ← hd]
            split <;> simp [hd]
          · intro j hj
            simp only
            by_cases hjg : j = g
            · simp [hjg, Place.shape]
            · simp only [hjg, if_false]; exact h.place j hj
        · rw [hri, hri'] at hd
          refine ⟨?_, ?_⟩
          · simp only [hr, hr', Option.map_some, hu, hri, hri', if_true, hd]
          · intro j hj
            simp only
            by_cases hjg : j = g
            · simp [hjg, Place.shape, hd]
            · simp only [hjg, if_false]; exact h.place j hj
  | reenter g =>
    have hg : target g = t := he
    have hs := h.place g hg
    have e : ∀ s : Multi, (fun j => if j = g then s.place g else s.place j) = s.place := by intro s; funext j; split <;> simp_all
    have hadd : Same target t (s.addUser (target g) g) (s'.addUser (target g) g) := by
      have := h.addUser hi hi' g g (s.place g) (s'.place g) hs
      rw [e s, e s'] at this
      subst hg
      exact this
    simp only [Multi.next]
    cases hp : s.place g <;> cases hp' : s'.place g <;> rw [hp, hp'] at hs <;> simp [Place.shape] at hs <;> first | exact h | exact hadd
  | cancel g =>
    have hg : target g = t := he
    have hs := h.place g hg
    simp only [Multi.next]
    cases hp : s.place g <;> cases hp' : s'.place g <;> rw [hp, hp'] at hs <;> simp [Place.shape] at hs
    · exact h
    · refine ⟨hrec, ?_⟩
      intro j hj
      simp only
      by_cases hjg : j = g
      · simp [hjg, Place.shape, hs]
      · simp only [hjg, if_false]; exact h.place j hj
    · exact h

theorem same_filter (t : Nat) (es : List Event) : ∀ (s s' : Multi), MInv x target s → MInv x target s' → Same target t s s' →
    Same target t (s.run x target es) (s'.run x target (es.filter (fun e => target e.guard = t))) := by
  induction es with
  | nil => intro s s' _ _ h; exact h
  | cons e es ih =>
    intro s s' hi hi' h
    by_cases he : target e.guard = t
    · have : (e :: es).filter (fun e => target e.guard = t) = e :: es.filter (fun e => target e.guard = t) := by simp [he]
      rw [this]
      exact ih _ _ (hi.next e) (hi'.next e) (h.own hi hi' he)
    · have : (e :: es).filter (fun e => target e.guard = t) = es.filter (fun e => target e.guard = t) := by simp [he]
      rw [this]
      exact ih _ _ (hi.next e) hi' (h.other hi he)

end Aiootp.Guard
