import Verif.Lemmas.AsyncDb
import Verif.Spec.AsyncDb

namespace Aiootp.AsyncDb

open Database

variable {ρ J : Type} {E : Env ρ J}

theorem isWide_of_tag {op : Op ρ J} {t : String} (h : op.tag? = some t) : isWide op = false := by
  cases op <;> first | rfl | cases h

/-- What holds of coroutines with tags of their own: `T k` are the tags of coroutine `k`. -/
structure Good (T : Nat → String → Prop) (key salt : Bytes) (s : Sys ρ J) : Prop where
  key : s.node.key = key
  salt : s.node.man.salt = salt
  parts : ∀ k, (s.threads k).parts = []
  todo : ∀ k, Names (T k) (s.threads k).todo
  call : ∀ k op pc, (s.threads k).call = some (op, pc) → (∃ t, T k t ∧ op.tag? = some t) ∧ ∀ x, pc ≠ .ended x

/-- The next state of a coroutine, its object and directory. -/
structure One (ρ J : Type) where
  node : Node J
  disk : Disk
  thread : Thread ρ J

/-- The call is ended or goes on. -/
def Thread.after (t : Thread ρ J) (op : Op ρ J) : Pc J → Thread ρ J
  | .ended r => { t with call := none, results := t.results ++ [r] }
  | pc => { t with call := some (op, pc) }

theorem Thread.after_running (t : Thread ρ J) (op : Op ρ J) {pc : Pc J} (h : ∀ x, pc ≠ .ended x) : t.after op pc = { t with call := some (op, pc) } := by
  cases pc <;> first | rfl | exact absurd rfl (h _)

/-- What a step of a coroutine does. -/
def One.next (E : Env ρ J) (o : One ρ J) : One ρ J :=
  match o.thread.call with
  | none =>
    match o.thread.todo with
    | [] => o
    | op :: rest => ⟨o.node, o.disk, { o.thread with todo := rest, call := some (op, .start) }⟩
  | some (op, pc) =>
    let l := tagStep E o.node o.disk op pc
    ⟨l.node, l.disk, o.thread.after op l.pc⟩

theorem sys_ext {s s' : Sys ρ J} (h1 : s.node = s'.node) (h2 : s.disk = s'.disk) (h3 : ∀ k, s.threads k = s'.threads k) : s = s' := by
  cases s; cases s'
  simp only at h1 h2 h3
  have := funext h3
  subst h1 h2 this
  rfl

theorem main_eq {T : Nat → String → Prop} {key salt : Bytes} {s : Sys ρ J} (h : Good T key salt s) (k : Nat) :
    s.main E k = (let o := One.next E ⟨s.node, s.disk, s.threads k⟩
      ⟨o.node, o.disk, fun j => if j = k then o.thread else s.threads j⟩) := by
  cases hc : (s.threads k).call with
  | none =>
    cases ht : (s.threads k).todo with
    | nil =>
      simp only [Sys.main, One.next, hc, ht]
      refine sys_ext rfl rfl (fun j => ?_)
      simp only
      split
      · rename_i e; rw [e]
      · rfl
    | cons op rest => simp only [Sys.main, One.next, hc, ht]
  | some c =>
    obtain ⟨op, pc⟩ := c
    obtain ⟨⟨t, _, ht⟩, _⟩ := h.call k op pc hc
    simp only [Sys.main, One.next, hc, isWide_of_tag ht, if_neg (by decide : ¬ (false = true))]
    cases hp : (tagStep E s.node s.disk op pc).pc <;> rfl

theorem One.next_good {T : Nat → String → Prop} {k : Nat} {o : One ρ J} (hp : o.thread.parts = []) (ht : Names (T k) o.thread.todo)
    (hc : ∀ op pc, o.thread.call = some (op, pc) → (∃ t, T k t ∧ op.tag? = some t) ∧ ∀ x, pc ≠ .ended x) :
    (o.next E).node.key = o.node.key ∧ (o.next E).node.man.salt = o.node.man.salt ∧ (o.next E).thread.parts = [] ∧
    Names (T k) (o.next E).thread.todo ∧
    (∀ op pc, (o.next E).thread.call = some (op, pc) → (∃ t, T k t ∧ op.tag? = some t) ∧ ∀ x, pc ≠ .ended x) ∧
    (∀ f, (∀ t, T k t → f ≠ E.fileName o.node.key o.node.man.salt t) → Same f (o.next E).node o.node (o.next E).disk o.disk) := by
  unfold One.next
  split
  · rename_i hnone
    split
    · exact ⟨rfl, rfl, hp, ht, hc, fun f _ => Same.refl _ _ _⟩
    · rename_i op rest htodo
      have ho := ht op (by rw [htodo]; simp)
      refine ⟨rfl, rfl, hp, fun p hm => ht p (by rw [htodo]; simp [hm]), ?_, fun f _ => Same.refl _ _ _⟩
      intro op' pc' h
      simp only [Option.some.injEq, Prod.mk.injEq] at h
      obtain ⟨rfl, rfl⟩ := h
      exact ⟨ho, fun x e => by cases e⟩
  · rename_i op pc hcall
    obtain ⟨⟨t, hT, hop⟩, _⟩ := hc op pc hcall
    have hf := tagStep_frame (E := E) hop o.node o.disk pc
    have hsame : ∀ f, (∀ t, T k t → f ≠ E.fileName o.node.key o.node.man.salt t) →
        Same f (tagStep E o.node o.disk op pc).node o.node (tagStep E o.node o.disk op pc).disk o.disk := fun f h => hf.same f (h t hT)
    cases hpc : (tagStep E o.node o.disk op pc).pc with
    | ended r =>
      simp only [hpc]
      exact ⟨hf.key, hf.salt, hp, ht, fun _ _ h => by simp [Thread.after] at h, hsame⟩
    | _ =>
      all_goals
        have hne : ∀ x, (tagStep E o.node o.disk op pc).pc ≠ .ended x := by intro x e; rw [hpc] at e; cases e
        simp only [Thread.after_running _ _ hne]
        refine ⟨hf.key, hf.salt, hp, ht, ?_, hsame⟩
        intro op' pc' h
        simp only [Option.some.injEq, Prod.mk.injEq] at h
        obtain ⟨rfl, rfl⟩ := h
        exact ⟨⟨t, hT, hop⟩, hne⟩

theorem Good.step {T : Nat → String → Prop} {key salt : Bytes} {s : Sys ρ J} (h : Good T key salt s) (m : Move) : Good T key salt (s.step E m) := by
  cases m with
  | part k i =>
    have : s.step E (.part k i) = s := by simp [Sys.step, Sys.part, h.parts k]
    rw [this]; exact h
  | main k =>
    show Good T key salt (s.main E k)
    rw [main_eq h k]
    obtain ⟨h1, h2, h3, h4, h5, _⟩ := One.next_good (E := E) (T := T) (k := k) (o := ⟨s.node, s.disk, s.threads k⟩) (h.parts k) (h.todo k) (h.call k)
    refine ⟨h1.trans h.key, h2.trans h.salt, ?_, ?_, ?_⟩
    · intro j; simp only; split
      · exact h3
      · exact h.parts j
    · intro j; simp only; split
      · rename_i e; rw [e]; exact h4
      · exact h.todo j
    · intro j; simp only; split
      · rename_i e; rw [e]; exact h5
      · exact h.call j

/-- Two systems look the same to a coroutine. -/
structure Agree (T : Nat → String → Prop) (key salt : Bytes) (E : Env ρ J) (k : Nat) (s : Sys ρ J) (o : One ρ J) : Prop where
  thread : s.threads k = o.thread
  same : ∀ t, T k t → Same (E.fileName key salt t) s.node o.node s.disk o.disk
  key : o.node.key = key
  salt : o.node.man.salt = salt

theorem Agree.own {T : Nat → String → Prop} {key salt : Bytes} {s : Sys ρ J} (h : Good T key salt s) {k : Nat} {o : One ρ J}
    (ha : Agree T key salt E k s o) :
    Agree T key salt E k (s.step E (.main k)) (o.next E) := by
  show Agree T key salt E k (s.main E k) (o.next E)
  rw [main_eq h k]
  obtain ⟨a1, a2, _⟩ := One.next_good (E := E) (T := T) (k := k) (o := o) (by rw [← ha.thread]; exact h.parts k) (by rw [← ha.thread]; exact h.todo k)
    (by rw [← ha.thread]; exact h.call k)
  have key1 := a1.trans ha.key
  have salt1 := a2.trans ha.salt
  have hfn : ∀ t, s.node.filename E t = E.fileName key salt t := fun t => by simp [Node.filename, h.key, h.salt]
  have hfo : ∀ t, o.node.filename E t = E.fileName key salt t := fun t => by simp [Node.filename, ha.key, ha.salt]
  cases hc : o.thread.call with
  | none =>
    cases ht : o.thread.todo with
    | nil =>
      refine ⟨?_, ?_, key1, salt1⟩
      · simp [One.next, ha.thread, hc, ht]
      · intro t hT
        have := ha.same t hT
        simpa [One.next, ha.thread, hc, ht] using this
    | cons op rest =>
      refine ⟨?_, ?_, key1, salt1⟩
      · simp [One.next, ha.thread, hc, ht]
      · intro t hT
        have := ha.same t hT
        simpa [One.next, ha.thread, hc, ht] using this
  | some c =>
    obtain ⟨op, pc⟩ := c
    obtain ⟨⟨t, hT, hop⟩, _⟩ := h.call k op pc (by rw [ha.thread]; exact hc)
    have hal := tagStep_alike (E := E) hop (h.key.trans ha.key.symm) (h.salt.trans ha.salt.symm) (by rw [hfn]; exact ha.same t hT) pc
    have f1 := tagStep_frame (E := E) hop s.node s.disk pc
    have f2 := tagStep_frame (E := E) hop o.node o.disk pc
    rw [hfn] at f1 hal
    rw [hfo] at f2
    have hsame : ∀ u, T k u → Same (E.fileName key salt u) (tagStep E s.node s.disk op pc).node (tagStep E o.node o.disk op pc).node
        (tagStep E s.node s.disk op pc).disk (tagStep E o.node o.disk op pc).disk := by
      intro u hU
      by_cases hu : E.fileName key salt u = E.fileName key salt t
      · rw [hu]; exact hal.same
      · exact ((f1.same _ hu).trans (ha.same u hU)).trans (f2.same _ hu).symm
    have hn : ∀ o' : One ρ J, o'.thread.call = some (op, pc) → o'.next E = ⟨(tagStep E o'.node o'.disk op pc).node, (tagStep E o'.node o'.disk op pc).disk,
        o'.thread.after op (tagStep E o'.node o'.disk op pc).pc⟩ := by
      intro o' ho'
      simp only [One.next, ho']
    have e1 := hn ⟨s.node, s.disk, s.threads k⟩ (by rw [← hc]; exact congrArg _ ha.thread)
    have e2 := hn o hc
    rw [e2] at key1 salt1 ⊢
    rw [e1]
    refine ⟨?_, hsame, key1, salt1⟩
    simp only [if_true, hal.pc, ha.thread]

theorem Agree.other {T : Nat → String → Prop} {key salt : Bytes} {s : Sys ρ J} (h : Good T key salt s) {k : Nat} {o : One ρ J}
    (ha : Agree T key salt E k s o) (hdis : ∀ j t u, j ≠ k → T j t → T k u → E.fileName key salt t ≠ E.fileName key salt u) {j : Nat} (hj : j ≠ k) :
    Agree T key salt E k (s.step E (.main j)) o := by
  show Agree T key salt E k (s.main E j) o
  rw [main_eq h j]
  obtain ⟨_, _, _, _, _, h6⟩ := One.next_good (E := E) (T := T) (k := j) (o := ⟨s.node, s.disk, s.threads j⟩) (h.parts j) (h.todo j) (h.call j)
  refine ⟨?_, ?_, ha.key, ha.salt⟩
  · simp only
    rw [if_neg (fun e => hj e.symm)]
    exact ha.thread
  · intro u hU
    refine Same.trans (h6 _ (fun t hT => ?_)) (ha.same u hU)
    simp only [h.key, h.salt]
    exact fun e => hdis j t u hj hT hU e.symm

/-! ### a coroutine alone -/

def One.iter (E : Env ρ J) : Nat → One ρ J → One ρ J
  | 0, o => o
  | n + 1, o => (One.iter E n o).next E

/-- What has happened after some steps: the first calls were made as by the synchronous class, and the next call is under way. -/
structure Mid (E : Env ρ J) (s₀ : Database.Sys J) (calls : List (Op ρ J)) (steps : Nat) (o : One ρ J) : Prop where
  ex : ∃ done rest, calls = done ++ rest ∧ o.thread.results = results E s₀ done ∧
    let σ := Database.Sys.run E s₀ done
    ((o.thread.call = none ∧ o.thread.todo = rest ∧ o.node = σ.node ∧ o.disk = σ.disk ∧ (steps ≤ 6 * done.length ∨ rest = [])) ∨
     (∃ op pc j, o.thread.call = some (op, pc) ∧ rest = op :: o.thread.todo ∧ (∀ x, pc ≠ .ended x) ∧ j ≤ 4 ∧
        Local.iter E op j ⟨σ.node, σ.disk, .start⟩ = ⟨o.node, o.disk, pc⟩ ∧ steps ≤ 6 * done.length + j + 1))

theorem results_append (s : Database.Sys J) (a b : List (Op ρ J)) : results E s (a ++ b) = results E s a ++ results E (Database.Sys.run E s a) b := by
  induction a generalizing s with
  | nil => rfl
  | cons op a ih => simp [results, Database.Sys.run, ih]

theorem run_append (s : Database.Sys J) (a b : List (Op ρ J)) : Database.Sys.run E s (a ++ b) = Database.Sys.run E (Database.Sys.run E s a) b := by
  induction a generalizing s with
  | nil => rfl
  | cons op a ih => exact ih _

theorem Mid.next {s₀ : Database.Sys J} {calls : List (Op ρ J)} (hcalls : ∀ op ∈ calls, ∃ t, op.tag? = some t) {n : Nat} {o : One ρ J}
    (h : Mid E s₀ calls n o) : Mid E s₀ calls (n + 1) (o.next E) := by
  obtain ⟨done, rest, hsplit, hres, h⟩ := h
  rcases h with ⟨hc, ht, hn, hd, hlen⟩ | ⟨op, pc, j, hc, ht, hpc, hj, hit, hlen⟩
  · cases rest with
    | nil =>
      have : o.next E = o := by simp [One.next, hc, ht]
      rw [this]
      exact ⟨done, [], hsplit, hres, .inl ⟨hc, ht, hn, hd, .inr rfl⟩⟩
    | cons op rest =>
      have : o.next E = ⟨o.node, o.disk, { o.thread with todo := rest, call := some (op, .start) }⟩ := by simp [One.next, hc, ht]
      rw [this]
      refine ⟨done, op :: rest, hsplit, hres, .inr ⟨op, .start, 0, rfl, rfl, (fun x e => by cases e), by omega, ?_, ?_⟩⟩
      · simp only [Local.iter, hn, hd]
      · rcases hlen with hlen | hlen
        · omega
        · cases hlen
  · have hmem : op ∈ calls := by rw [hsplit, ht]; simp
    obtain ⟨t, htag⟩ := hcalls op hmem
    have hstep : Local.iter E op (j + 1) ⟨(Database.Sys.run E s₀ done).node, (Database.Sys.run E s₀ done).disk, .start⟩ = tagStep E o.node o.disk op pc := by
      show (Local.iter E op j _).next E op = _
      rw [hit]
      unfold Local.next
      split
      · rename_i x e; exact absurd e (hpc x)
      · rfl
    have h5 := iter_five (E := E) htag (Database.Sys.run E s₀ done).node (Database.Sys.run E s₀ done).disk
    cases hx : (tagStep E o.node o.disk op pc).pc with
    | ended r =>
      have hend : tagStep E o.node o.disk op pc = syncEnd E (Database.Sys.run E s₀ done).node (Database.Sys.run E s₀ done).disk op := by
        rw [← h5, show (5 : Nat) = (4 - j) + (j + 1) by omega, Local.iter_add, hstep]
        exact (Local.iter_ended hx _).symm
      have : o.next E = ⟨(tagStep E o.node o.disk op pc).node, (tagStep E o.node o.disk op pc).disk, { o.thread with call := none, results := o.thread.results ++ [r] }⟩ := by
        simp only [One.next, hc, hx, Thread.after]
      rw [this, hend]
      have hr : r = (op.run E (Database.Sys.run E s₀ done).node (Database.Sys.run E s₀ done).disk).1 := by
        rw [hend] at hx
        simp only [syncEnd, Pc.ended.injEq] at hx
        exact hx.symm
      refine ⟨done ++ [op], o.thread.todo, by rw [hsplit, ht]; simp, ?_, .inl ⟨rfl, rfl, ?_, ?_, .inl ?_⟩⟩
      · rw [results_append, ← hres, hr]; rfl
      · rw [run_append]; rfl
      · rw [run_append]; rfl
      · simp only [List.length_append, List.length_singleton]; omega
    | _ =>
      all_goals
        have hne : ∀ x, (tagStep E o.node o.disk op pc).pc ≠ .ended x := by intro x e; rw [hx] at e; cases e
        have hj' : j + 1 ≤ 4 := by
          refine Classical.byContradiction fun hjj => ?_
          have : j + 1 = 5 := by omega
          rw [this, h5] at hstep
          exact hne _ (by rw [← hstep]; rfl)
        have : o.next E = ⟨(tagStep E o.node o.disk op pc).node, (tagStep E o.node o.disk op pc).disk, { o.thread with call := some (op, (tagStep E o.node o.disk op pc).pc) }⟩ := by
          simp only [One.next, hc, Thread.after_running _ _ hne]
        rw [this]
        exact ⟨done, rest, hsplit, hres, .inr ⟨op, _, j + 1, rfl, ht, hne, hj', hstep, by omega⟩⟩

theorem Mid.iter {s₀ : Database.Sys J} {calls : List (Op ρ J)} (hcalls : ∀ op ∈ calls, ∃ t, op.tag? = some t) (n : Nat) :
    Mid E s₀ calls n (One.iter E n ⟨s₀.node, s₀.disk, ⟨calls, none, [], []⟩⟩) := by
  induction n with
  | zero => exact ⟨[], calls, rfl, rfl, .inl ⟨rfl, rfl, rfl, rfl, .inl (Nat.zero_le _)⟩⟩
  | succ n ih => exact ih.next hcalls

theorem One.iter_shift (n : Nat) (o : One ρ J) : One.iter E (n + 1) o = One.iter E n (o.next E) := by
  induction n with
  | zero => rfl
  | succ n ih =>
    show (One.iter E (n + 1) o).next E = _
    rw [ih]; rfl

/-- Where the coroutine is when it has had enough steps, and what its results are at any time. -/
theorem Mid.end {s₀ : Database.Sys J} {calls : List (Op ρ J)} {n : Nat} {o : One ρ J} (h : Mid E s₀ calls n o) :
    o.thread.results <+: results E s₀ calls ∧ (6 * calls.length ≤ n → o.thread.todo = [] ∧ o.thread.call = none) ∧
    (o.thread.todo = [] → o.thread.call = none → o.thread.results = results E s₀ calls ∧
      o.node = (Database.Sys.run E s₀ calls).node ∧ o.disk = (Database.Sys.run E s₀ calls).disk) := by
  obtain ⟨done, rest, hsplit, hres, h⟩ := h
  refine ⟨?_, fun hn => ?_, fun htodo hcall => ?_⟩
  · rw [hsplit, results_append, hres]; exact List.prefix_append _ _
  · have hl : calls.length = done.length + rest.length := by rw [hsplit]; simp
    rcases h with ⟨hc, ht, _, _, hlen⟩ | ⟨op, pc, j, hc, ht, hpc, hj, hit, hlen⟩
    · refine ⟨?_, hc⟩
      rcases hlen with hlen | hlen
      · rw [ht]; exact List.eq_nil_of_length_eq_zero (by omega)
      · rw [ht, hlen]
    · rw [ht, List.length_cons] at hl; omega
  · rcases h with ⟨hc, ht, hn, hd, _⟩ | ⟨op, pc, j, hc, _⟩
    · have hr : rest = [] := by rw [← ht, htodo]
      rw [hr, List.append_nil] at hsplit
      rw [hsplit]
      exact ⟨hres, hn, hd⟩
    · rw [hcall] at hc; cases hc

theorem agree_run {T : Nat → String → Prop} {key salt : Bytes} {k : Nat}
    (hdis : ∀ j t u, j ≠ k → T j t → T k u → E.fileName key salt t ≠ E.fileName key salt u) (moves : List Move) :
    ∀ {s : Sys ρ J} {o : One ρ J}, Good T key salt s → Agree T key salt E k s o →
      Agree T key salt E k (s.run E moves) (One.iter E (moves.count (.main k)) o) := by
  induction moves with
  | nil => intro s o _ ha; exact ha
  | cons m ms ih =>
    intro s o hg ha
    show Agree T key salt E k ((s.step E m).run E ms) _
    cases m with
    | part j i =>
      have e : s.step E (.part j i) = s := by simp [Sys.step, Sys.part, hg.parts j]
      rw [e, List.count_cons_of_ne (by simp)]
      exact ih hg ha
    | main j =>
      by_cases hj : j = k
      · subst hj
        rw [List.count_cons_self, One.iter_shift]
        exact ih (hg.step _) (ha.own hg)
      · rw [List.count_cons_of_ne (by simpa using hj)]
        exact ih (hg.step _) (ha.other hg hdis hj)

theorem good_start {T : Nat → String → Prop} {node : Node J} {disk : Disk} {calls : Nat → List (Op ρ J)} (h : ∀ k, Names (T k) (calls k)) :
    Good T node.key node.man.salt (Sys.start node disk calls) :=
  ⟨rfl, rfl, fun _ => rfl, h, fun _ _ _ hc => by cases hc⟩

/-- A system in which only one coroutine has something to do. -/
theorem run_alone {k : Nat} (moves : List Move) : ∀ {s : Sys ρ J},
    (∀ op ∈ (s.threads k).todo, ∃ t, op.tag? = some t) → (∀ op pc, (s.threads k).call = some (op, pc) → (∃ t, op.tag? = some t) ∧ ∀ x, pc ≠ .ended x) →
    (∀ j, (s.threads j).parts = []) → (∀ j, j ≠ k → (s.threads j).todo = [] ∧ (s.threads j).call = none) →
    let o := One.iter E (moves.count (.main k)) ⟨s.node, s.disk, s.threads k⟩
    (s.run E moves).node = o.node ∧ (s.run E moves).disk = o.disk ∧ (s.run E moves).threads k = o.thread := by
  induction moves with
  | nil => intro s _ _ _ _; exact ⟨rfl, rfl, rfl⟩
  | cons m ms ih =>
    intro s h1 h2 h3 h4
    cases m with
    | part j i =>
      have e : s.step E (.part j i) = s := by simp [Sys.step, Sys.part, h3 j]
      rw [List.count_cons_of_ne (by simp)]
      show ((s.step E (.part j i)).run E ms).node = _ ∧ ((s.step E (.part j i)).run E ms).disk = _ ∧ ((s.step E (.part j i)).run E ms).threads k = _
      rw [e]
      exact ih h1 h2 h3 h4
    | main j =>
      by_cases hj : j = k
      · subst hj
        have hg : Good (fun i _ => i = j) s.node.key s.node.man.salt s := by
          refine ⟨rfl, rfl, h3, fun i op ho => ?_, fun i op pc hc => ?_⟩
          · by_cases hi : i = j
            · subst hi
              obtain ⟨t, ht⟩ := h1 op ho
              exact ⟨t, rfl, ht⟩
            · rw [(h4 i hi).1] at ho; cases ho
          · by_cases hi : i = j
            · subst hi
              obtain ⟨⟨t, ht⟩, hx⟩ := h2 op pc hc
              exact ⟨⟨t, rfl, ht⟩, hx⟩
            · rw [(h4 i hi).2] at hc; cases hc
        have e := main_eq (E := E) hg j
        obtain ⟨_, _, g3, g4, g5, _⟩ := One.next_good (E := E) (T := fun i _ => i = j) (k := j) (o := ⟨s.node, s.disk, s.threads j⟩) (hg.parts j) (hg.todo j) (hg.call j)
        have := ih (s := s.main E j) (by
            rw [e]; simp only [if_true]
            intro op ho; obtain ⟨t, _, ht⟩ := g4 op ho; exact ⟨t, ht⟩) (by
            rw [e]; simp only [if_true]
            intro op pc hc; obtain ⟨⟨t, _, ht⟩, hx⟩ := g5 op pc hc; exact ⟨⟨t, ht⟩, hx⟩) (by
            rw [e]; intro i; simp only; split
            · exact g3
            · exact h3 i) (by
            rw [e]; intro i hi; simp only [if_neg hi]; exact h4 i hi)
        rw [List.count_cons_self, One.iter_shift]
        show ((s.main E j).run E ms).node = _ ∧ ((s.main E j).run E ms).disk = _ ∧ ((s.main E j).run E ms).threads j = _
        refine ⟨this.1.trans ?_, this.2.1.trans ?_, this.2.2.trans ?_⟩ <;> rw [e] <;> simp only [if_true]
      · have e : s.main E j = s := by simp [Sys.main, (h4 j hj).1, (h4 j hj).2]
        rw [List.count_cons_of_ne (by simpa using hj)]
        show ((s.main E j).run E ms).node = _ ∧ ((s.main E j).run E ms).disk = _ ∧ ((s.main E j).run E ms).threads k = _
        rw [e]
        exact ih h1 h2 h3 h4

end Aiootp.AsyncDb
