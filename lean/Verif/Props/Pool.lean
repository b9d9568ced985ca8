import Verif.Lemmas.PoolLive

/-
C69: `gather` on the shared pools of `Threads` and `Processes`.
-/

namespace Aiootp.Pool

variable {V : Type} {P : Prog V} {w : Nat}

/-- C69. Whatever the schedule, the number of workers, the nesting of gathers and the number of threads that use the pool: a call
that has ended gave what it may give when all functions are called one after the other. So results are in the order of the
functions, and an exception is that of the first function in this order that has one. -/
theorem C69_results {fns : List Nat} {s : State V} (h : Reachable P w fns s) {i : Nat} {t : Task V} (ht : s.tasks[i]? = some t) {o : Out V}
    (ho : t.st = .done o) : Eval P t.fn o :=
  eval_of_done (inv_reachable h) _ i t o (Nat.le_refl _) ht ho

/-- C69. If each function has one outcome only, then what `gather` gives does not depend on the schedule. -/
theorem C69_schedule_independent (hm : ∀ f a b, P.may f a → P.may f b → a = b) {w' : Nat} {fns fns' : List Nat} {s s' : State V}
    (h : Reachable P w fns s) (h' : Reachable P w' fns' s') {i i' : Nat} {t t' : Task V} (ht : s.tasks[i]? = some t) (ht' : s'.tasks[i']? = some t')
    (hf : t.fn = t'.fn) {o o' : Out V} (ho : t.st = .done o) (ho' : t'.st = .done o') : o = o' :=
  Eval.unique hm (C69_results h ht ho) (hf ▸ C69_results h' ht' ho')

/-- C69. When `gather` has returned then each of its functions was begun exactly once, in a task of its own. -/
theorem C69_once {fns : List Nat} {s : State V} (h : Reachable P w fns s) {i : Nat} {t : Task V} (ht : s.tasks[i]? = some t) {v : V}
    (ho : t.st = .done (.ok v)) {fs : List Nat} (hc : P.code t.fn = .gather fs) :
    t.subs.length = fs.length ∧ t.subs.Nodup ∧
    ∀ (j : Nat) (f : Nat), fs[j]? = some f → ∃ (k : Nat) (u : Task V), t.subs[j]? = some k ∧ s.tasks[k]? = some u ∧ u.fn = f ∧ u.parent = some i ∧
      s.log.count k = 1 := by
  have hi := inv_reachable h
  have hg := hi.good i t ht
  have hst := hg.st
  unfold StOk at hst
  simp only [ho, hc] at hst
  obtain ⟨hl, ⟨vs, _, hvl, hv⟩, _⟩ := hst
  have hsub := hg.sub
  unfold SubOk at hsub
  rw [hc] at hsub
  refine ⟨hl, hg.inc.imp (fun h => Nat.ne_of_lt h), fun j f hf => ?_⟩
  have hj := (List.getElem?_eq_some_iff.1 hf).1
  have hj' : j < vs.length := by omega
  obtain ⟨k, hk, u, hu, hd⟩ := hv j _ (List.getElem?_eq_getElem hj')
  obtain ⟨u', hu', _, hpar, hf'⟩ := hsub.2 j k hk
  rw [hu] at hu'; cases hu'
  rw [hf] at hf'; cases hf'
  refine ⟨k, u, hk, hu, rfl, hpar, ?_⟩
  have hm : k ∈ s.log := (hi.lmem k).2 ⟨u, hu, by rw [hpar]; rfl, by rw [hd]; simp, by rw [hd]; simp⟩
  rw [hi.lnodup.count, if_pos hm]

/-- C69. No task is ever begun twice, in whatever state. -/
theorem C69_at_most_once {fns : List Nat} {s : State V} (h : Reachable P w fns s) : s.log.Nodup := (inv_reachable h).lnodup

/-- C69. When `gather` has returned or raised, then none of its functions begins later. -/
theorem C69_none_later {fns : List Nat} {s s' : State V} (h : Reachable P w fns s) {n : Nat} (hs : Steps P w n s s') {i : Nat} {t : Task V}
    (ht : s.tasks[i]? = some t) {o : Out V} (ho : t.st = .done o) {k : Nat} (hk : k ∈ t.subs) (hn : k ∉ s.log) : k ∉ s'.log := by
  have hi := inv_reachable h
  obtain ⟨u, hu, _, hpar⟩ := sub_of_mem hi ht hk
  have hst := (hi.good i t ht).st
  unfold StOk at hst
  simp only [ho] at hst
  have hset : Settled s k := by
    cases hc : P.code t.fn with
    | leaf =>
      have hsub := (hi.good i t ht).sub
      unfold SubOk at hsub
      rw [hc] at hsub
      rw [hsub] at hk; cases hk
    | gather fs => rw [hc] at hst; exact hst.2.2 k hk
  obtain ⟨u', hu', hp⟩ := hset
  rw [hu] at hu'; cases hu'
  have hcan : u.st = .cancelled := by
    refine Classical.byContradiction fun hc => hn ((hi.lmem k).2 ⟨u, hu, by rw [hpar]; rfl, hp, hc⟩)
  obtain ⟨v, hv, hvc⟩ := cancelled_steps hs ⟨u, hu, hcan⟩
  have hi' := inv_steps hi hs
  intro hm
  obtain ⟨v', hv', _, _, hne⟩ := (hi'.lmem k).1 hm
  rw [hv] at hv'; cases hv'
  exact hne hvc

/-! ### do calls end? -/

/-- C69. If functions do not call themselves through gathers then every execution is finite, with a bound that depends on the functions
only. -/
theorem C69_bounded (rank : Nat → Nat) (hr : ∀ f fs, P.code f = .gather fs → ∀ g ∈ fs, rank g < rank f) (fns : List Nat) :
    ∃ bound, ∀ (n : Nat) (s : State V), Steps P w n (State.init fns) s → n ≤ bound :=
  ⟨todo P (fun f => work P (rank f + 1) f) (State.init fns), fun n s hs => by
    have := todo_steps (counts_work hr) (inv_init fns) hs
    omega⟩

/-- C69. What a state in which nothing can be done any more, but not all calls have ended, looks like: all workers are occupied by
functions that call `gather`. -/
theorem C69_stuck {fns : List Nat} {s : State V} (h : Reachable P w fns s) (hl : LeavesEnd P) (hno : ∀ s', ¬ Step P w s s') {i : Nat} {t : Task V}
    (ht : s.tasks[i]? = some t) (hp : t.parent = none) (hd : ∀ o, t.st ≠ .done o) :
    w ≤ s.busy ∧ ∀ (k : Nat) (u : Task V), s.tasks[k]? = some u → u.st.active = true → ∃ fs, P.code u.fn = .gather fs := by
  have hi := inv_reachable h
  have ha : t.st.active = true := by
    have hst := (hi.good i t ht).st
    unfold StOk at hst
    cases hs : t.st with
    | pending => rw [hs] at hst; rw [hp] at hst; simp at hst
    | cancelled => rw [hs] at hst; obtain ⟨_, p, _, hp', _⟩ := hst; rw [hp] at hp'; cases hp'
    | running got => rfl
    | closing o rest => rfl
    | done o => exact absurd hs (hd o)
  refine ⟨?_, fun k u hu hua => ?_⟩
  · obtain ⟨k, u, hu, hpen⟩ := stuck_pending hi hl hno _ i t (Nat.le_refl _) ht ha
    have hq := hi.qpend k u hu hpen
    cases hqueue : s.queue with
    | nil => rw [hqueue] at hq; cases hq
    | cons q qs =>
      refine Classical.byContradiction fun hb => ?_
      have hb : s.busy < w := by omega
      obtain ⟨v, hv, hst⟩ := hi.qmem q (by rw [hqueue]; simp)
      rcases hst with hst | hst
      · exact hno _ (.start hqueue hb hv hst)
      · exact hno _ (.drop hqueue hb hv hst)
  · obtain ⟨fs, hc, _⟩ := stuck_active hi hl hno hu hua
    exact ⟨fs, hc⟩

/-- A function that calls no pool, or gathers functions that call no pool. -/
def Flat (P : Prog V) (f : Nat) : Prop := ∀ fs, P.code f = .gather fs → ∀ g ∈ fs, P.code g = .leaf

theorem user_fns {fns : List Nat} {s : State V} (h : Reachable P w fns s) : ∀ (i : Nat) (t : Task V), s.tasks[i]? = some t → t.parent = none → t.fn ∈ fns := by
  obtain ⟨n, hs⟩ := h
  have put : ∀ {s : State V} {i : Nat} {t t' : Task V}, (∀ (i : Nat) (t : Task V), s.tasks[i]? = some t → t.parent = none → t.fn ∈ fns) →
      s.tasks[i]? = some t → t'.fn = t.fn → t'.parent = t.parent →
      ∀ (j : Nat) (u : Task V), (s.tasks.set i t')[j]? = some u → u.parent = none → u.fn ∈ fns := by
    intro s i t t' h ht hf hp j u hu hup
    rw [List.getElem?_set] at hu
    split at hu
    · rw [if_pos (lt_of_get ht)] at hu
      cases hu
      rw [hf]
      exact h i t ht (hp ▸ hup)
    · exact h j u hu hup
  generalize hs0 : (State.init fns : State V) = s0 at hs
  induction hs with
  | refl =>
    subst hs0
    intro i t ht _
    simp only [State.init, List.getElem?_map, Option.map_eq_some_iff] at ht
    obtain ⟨f, hf, e⟩ := ht
    subst e
    exact List.mem_of_getElem? hf
  | tail h1 h2 ih =>
    have ih := ih hs0
    cases h2 with
    | start hq _ ht hp => exact put ih ht rfl rfl
    | drop hq _ ht hp => exact ih
    | leaf ht hr hc ho => exact put ih ht rfl rfl
    | submit ht hr hc hf =>
      intro j u hu hup
      simp only [List.getElem?_append] at hu
      split at hu
      · exact put ih ht (by rfl) (by rfl) j u hu hup
      · rename_i hj
        have := List.mem_of_getElem? hu
        simp only [List.mem_cons, List.not_mem_nil, or_false] at this
        rw [this] at hup; cases hup
    | collect ht hr hc hall hk hu hd => exact put ih ht rfl rfl
    | fail ht hr hc hall hk hu hd => exact put ih ht rfl rfl
    | gone ht hr hc hall hk hu hd => exact put ih ht rfl rfl
    | ready ht hr hc hall hg => exact put ih ht rfl rfl
    | @cancel i k t u o rest ht hr hu =>
      have hcan : u.cancel.fn = u.fn ∧ u.cancel.parent = u.parent := by
        unfold Task.cancel; split <;> exact ⟨rfl, rfl⟩
      have h1 := put ih hu hcan.1 hcan.2
      intro j v hv hvp
      simp only [State.put] at hv
      rw [List.getElem?_set] at hv
      split at hv
      · split at hv
        · cases hv
          exact ih i t ht hvp
        · cases hv
      · exact h1 j v hv hvp
    | finish ht hr => exact put ih ht rfl rfl

theorem pool_leaves {fns : List Nat} (hf : ∀ f ∈ fns, Flat P f) {s : State V} (h : Reachable P w fns s) {i : Nat} {t : Task V}
    (ht : s.tasks[i]? = some t) {p : Nat} (hp : t.parent = some p) : P.code t.fn = .leaf := by
  have hi := inv_reachable h
  induction i using Nat.strongRecOn generalizing t p with
  | ind i ih =>
    obtain ⟨u, hu, hm⟩ := (hi.good i t ht).par p hp
    have hsub := (hi.good p u hu).sub
    unfold SubOk at hsub
    cases hc : P.code u.fn with
    | leaf => rw [hc] at hsub; rw [hsub] at hm; cases hm
    | gather fs =>
      rw [hc] at hsub
      obtain ⟨j, hj⟩ := List.getElem?_of_mem hm
      obtain ⟨t', ht', hlt, _, hfj⟩ := hsub.2 j i hj
      rw [ht] at ht'; cases ht'
      cases hup : u.parent with
      | none => exact hf u.fn (user_fns h p u hu hup) fs hc t.fn (List.mem_of_getElem? hfj)
      | some q =>
        have := ih p hlt hu hup
        rw [hc] at this; cases this

/-- C69, the part that is true: if the gathered functions do not use the pool themselves, and end, then any number of threads may call
`gather`, and whatever the schedule, all calls end: as long as one has not ended there is a next step, and there are boundedly many.
Missing: functions that use the pool themselves. -/
theorem C69_returns_partial (hw : 0 < w) (hl : LeavesEnd P) (fns : List Nat) (hf : ∀ f ∈ fns, Flat P f) :
    (∃ bound, ∀ (n : Nat) (s : State V), Steps P w n (State.init fns) s → n ≤ bound) ∧
    ∀ s : State V, Reachable P w fns s → (∀ s', ¬ Step P w s s') → ∀ (i : Nat) (t : Task V), s.tasks[i]? = some t → t.parent = none → ∃ o, t.st = .done o := by
  constructor
  · -- the functions that matter form a program of their own
    let R : Nat → Nat := fun f => match P.code f with
      | .leaf => 1
      | .gather fs => (fs.map (fun _ => 1 + 2)).sum + fs.length + fs.length + 2
    let Q : Prog V := { P with code := fun f => if f ∈ fns ∨ P.code f = .leaf then P.code f else .leaf, may := fun f o => P.code f = .leaf → P.may f o }
    have hr : ∀ f fs, Q.code f = .gather fs → ∀ g ∈ fs, (if Q.code g = .leaf then 0 else 1) < (if Q.code f = .leaf then 0 else 1) := by
      intro f fs hc g hg
      have hcf : Q.code f ≠ .leaf := by rw [hc]; simp
      rw [if_neg hcf]
      simp only [Q] at hc
      split at hc
      · rename_i hor
        rcases hor with hm | hm
        · have := hf f hm fs hc g hg
          simp [Q, this]
        · rw [hm] at hc; cases hc
      · cases hc
    have hstep : ∀ {s s' : State V}, Reachable P w fns s → Step P w s s' → Step Q w s s' := by
      intro s s' h hs
      have hcode : ∀ {i : Nat} {t : Task V}, s.tasks[i]? = some t → Q.code t.fn = P.code t.fn := by
        intro i t ht
        cases hp : t.parent with
        | none => simp [Q, user_fns h i t ht hp]
        | some p => simp [Q, pool_leaves hf h ht hp]
      cases hs with
      | start hq hw ht hp => exact .start hq hw ht hp
      | drop hq hw ht hp => exact .drop hq hw ht hp
      | leaf ht hr hc ho => exact .leaf ht hr ((hcode ht).trans hc) (fun _ => ho)
      | submit ht hr hc hf => exact .submit ht hr ((hcode ht).trans hc) hf
      | collect ht hr hc hall hk hu hd => exact .collect ht hr ((hcode ht).trans hc) hall hk hu hd
      | fail ht hr hc hall hk hu hd => exact .fail ht hr ((hcode ht).trans hc) hall hk hu hd
      | gone ht hr hc hall hk hu hd => exact .gone ht hr ((hcode ht).trans hc) hall hk hu hd
      | ready ht hr hc hall hg => exact Step.ready (P := Q) ht hr ((hcode ht).trans hc) hall hg
      | cancel ht hr hu => exact .cancel ht hr hu
      | finish ht hr => exact .finish ht hr
    have hsteps : ∀ {n : Nat} {s : State V}, Steps P w n (State.init fns) s → Steps Q w n (State.init fns) s := by
      intro n
      induction n with
      | zero => intro s hs; cases hs; exact .refl _
      | succ n ih =>
        intro s hs
        cases hs with
        | tail h1 h2 => exact .tail (ih h1) (hstep ⟨n, h1⟩ h2)
    obtain ⟨bound, hb⟩ := C69_bounded (P := Q) (w := w) _ hr fns
    exact ⟨bound, fun n s hs => hb n s (hsteps hs)⟩
  · intro s h hno i t ht hp
    refine Classical.byContradiction fun hd => ?_
    obtain ⟨hb, hg⟩ := C69_stuck h hl hno ht hp (fun o ho => hd ⟨o, ho⟩)
    have hpos : 0 < s.busy := by omega
    unfold State.busy at hpos
    obtain ⟨u, hu⟩ := List.exists_mem_of_length_pos hpos
    rw [List.mem_filter] at hu
    obtain ⟨hm, hcond⟩ := hu
    simp only [Bool.and_eq_true] at hcond
    obtain ⟨k, hk⟩ := List.getElem?_of_mem hm
    obtain ⟨fs, hc⟩ := hg k u hk hcond.2
    obtain ⟨p, hp'⟩ := Option.isSome_iff_exists.1 hcond.1
    have := pool_leaves hf h hk hp'
    rw [hc] at this; cases this

/-! ### nested gathers -/

/-- Function 0 gathers `w` times function 1, which gathers function 2, which returns at once. -/
def nested (w : Nat) : Prog Unit :=
  ⟨fun f => if f = 0 then .gather (List.replicate w 1) else if f = 1 then .gather [2] else .leaf, fun _ o => o = .ok (), fun _ => ()⟩

namespace Nested

def main (k : Nat) : Task Unit := ⟨0, none, .running [], List.range' 1 k⟩
def child (st : Status Unit) (subs : List Nat) : Task Unit := ⟨1, some 0, st, subs⟩

/-- `k` functions are submitted -/
def A (k : Nat) : State Unit := ⟨main k :: List.replicate k (child .pending []), List.range' 1 k, []⟩
/-- `k` of them are begun -/
def B (k r : Nat) : State Unit :=
  ⟨main (k + r) :: (List.replicate k (child (.running []) []) ++ List.replicate r (child .pending [])), List.range' (k + 1) r, List.range' 1 k⟩
/-- `k` of these have submitted their own -/
def C (k r : Nat) : State Unit :=
  ⟨main (k + r) :: ((List.range' 0 k).map (fun j => child (.running []) [k + r + 1 + j]) ++ List.replicate r (child (.running []) []) ++
      (List.range' 0 k).map (fun j => ⟨2, some (j + 1), .pending, []⟩)),
   List.range' (k + r + 1) k, List.range' 1 (k + r)⟩

theorem stepA {w k : Nat} (hk : k < w) : Step (nested w) w (A k) (A (k + 1)) := by
  have h : Step (nested w) w (A k) _ := .submit (i := 0) (t := main k) (fs := List.replicate w 1) (f := 1) rfl rfl rfl (by simp [main, hk])
  have e : A (k + 1) = ⟨(A k).tasks.set 0 ⟨0, none, .running [], (main k).subs ++ [(A k).tasks.length]⟩ ++ [⟨1, some 0, .pending, []⟩],
      (A k).queue ++ [(A k).tasks.length], (A k).log⟩ := by
    simp [A, main, child, List.range'_concat, List.replicate_succ', Nat.add_comm]
  rw [e]
  exact h

theorem set_middle {α : Type} (m x y : α) (X Y : List α) (k : Nat) (hk : X.length = k) : (m :: (X ++ x :: Y)).set (k + 1) y = m :: (X ++ y :: Y) := by
  subst hk
  simp

theorem get_middle {α : Type} (m x : α) (X Y : List α) (k : Nat) (hk : X.length = k) : (m :: (X ++ x :: Y))[k + 1]? = some x := by
  subst hk
  simp

theorem B_tasks (k r : Nat) : (B k (r + 1)).tasks =
    main (k + (r + 1)) :: (List.replicate k (child (.running []) []) ++ child .pending [] :: List.replicate r (child .pending [])) := by
  simp [B, List.replicate_succ]

theorem busy_cons (t : Task Unit) (l : List (Task Unit)) (q g : List Nat) :
    (State.mk (t :: l) q g).busy = (if (t.parent.isSome && t.st.active) = true then 1 else 0) + (State.mk l q g).busy := by
  simp only [State.busy, List.filter_cons]
  split <;> simp [Nat.add_comm]

theorem busy_append (l l' : List (Task Unit)) (q g : List Nat) :
    (State.mk (l ++ l') q g).busy = (State.mk l q g).busy + (State.mk l' q g).busy := by
  simp [State.busy]

theorem busy_replicate (n : Nat) (t : Task Unit) (q g : List Nat) :
    (State.mk (List.replicate n t) q g).busy = if (t.parent.isSome && t.st.active) = true then n else 0 := by
  simp only [State.busy, List.filter_replicate]
  split <;> simp

theorem stepB {w k r : Nat} (hw : k + (r + 1) = w) : Step (nested w) w (B k (r + 1)) (B (k + 1) r) := by
  have hget : (B k (r + 1)).tasks[k + 1]? = some (child .pending []) := by
    rw [B_tasks]
    exact get_middle _ _ _ _ _ (by simp)
  have h : Step (nested w) w (B k (r + 1)) _ := .start (i := k + 1) (q := List.range' (k + 2) r) (t := child .pending [])
    (by simp [B, List.range'_succ]) (by
      have : (B k (r + 1)).busy = k := by
        unfold B
        rw [busy_cons, busy_append, busy_replicate, busy_replicate]
        simp [main, child, Status.active]
      omega) hget rfl
  have e : B (k + 1) r = ⟨(B k (r + 1)).tasks.set (k + 1) (child (.running []) []), List.range' (k + 2) r, (B k (r + 1)).log ++ [k + 1]⟩ := by
    rw [B_tasks, set_middle _ _ _ _ _ _ (by simp)]
    unfold B
    have e1 : k + 1 + r = k + (r + 1) := by omega
    rw [e1, List.replicate_succ', List.append_assoc, List.range'_concat, Nat.add_comm 1, Nat.one_mul]
    simp
  rw [e]
  exact h

theorem stepC {w k r : Nat} (hw : k + (r + 1) = w) : Step (nested w) w (C k (r + 1)) (C (k + 1) r) := by
  have ht : (C k (r + 1)).tasks = main (k + (r + 1)) :: ((List.range' 0 k).map (fun j => child (.running []) [k + (r + 1) + 1 + j]) ++ child (.running []) [] ::
      (List.replicate r (child (.running []) []) ++ (List.range' 0 k).map (fun j => ⟨2, some (j + 1), .pending, []⟩))) := by
    simp [C, List.replicate_succ]
  have hlen : (C k (r + 1)).tasks.length = k + (r + 1) + 1 + k := by
    rw [ht]
    simp
    omega
  have hget : (C k (r + 1)).tasks[k + 1]? = some (child (.running []) []) := by
    rw [ht]
    exact get_middle _ _ _ _ _ (by simp)
  have h : Step (nested w) w (C k (r + 1)) _ := .submit (i := k + 1) (t := child (.running []) []) (fs := [2]) (f := 2) hget rfl rfl rfl
  have e : C (k + 1) r = ⟨(C k (r + 1)).tasks.set (k + 1) (child (.running []) [(C k (r + 1)).tasks.length]) ++ [⟨2, some (k + 1), .pending, []⟩],
      (C k (r + 1)).queue ++ [(C k (r + 1)).tasks.length], (C k (r + 1)).log⟩ := by
    rw [hlen, ht, set_middle _ _ _ _ _ _ (by simp)]
    unfold C
    have e1 : k + 1 + r = k + (r + 1) := by omega
    rw [e1]
    simp only [List.range'_concat, List.map_append, List.map_cons, List.map_nil]
    simp [Nat.add_comm, Nat.add_left_comm]
  rw [e]
  exact h

theorem steps_trans {n m : Nat} {P : Prog Unit} {w : Nat} {a b c : State Unit} (h : Steps P w n a b) (h' : Steps P w m b c) : Steps P w (n + m) a c := by
  induction h' with
  | refl => exact h
  | tail _ g ih => exact .tail (ih h) g

theorem reach (w : Nat) : ∃ n, Steps (nested w) w n (State.init [0]) (C w 0) := by
  have a : ∀ k, k ≤ w → Steps (nested w) w k (State.init [0]) (A k) := by
    intro k
    induction k with
    | zero => intro _; exact .refl _
    | succ k ih => intro h; exact .tail (ih (by omega)) (stepA (by omega))
  have b : ∀ k, k ≤ w → Steps (nested w) w k (B 0 w) (B k (w - k)) := by
    intro k
    induction k with
    | zero => intro _; exact .refl _
    | succ k ih =>
      intro h
      have e : w - k = (w - (k + 1)) + 1 := by omega
      have := ih (by omega)
      rw [e] at this
      exact .tail this (stepB (by omega))
  have c : ∀ k, k ≤ w → Steps (nested w) w k (C 0 w) (C k (w - k)) := by
    intro k
    induction k with
    | zero => intro _; exact .refl _
    | succ k ih =>
      intro h
      have e : w - k = (w - (k + 1)) + 1 := by omega
      have := ih (by omega)
      rw [e] at this
      exact .tail this (stepC (by omega))
  have ab : A w = B 0 w := by simp [A, B]
  have bc : B w 0 = C 0 w := by simp [B, C]
  have b' := b w (Nat.le_refl _)
  have c' := c w (Nat.le_refl _)
  rw [Nat.sub_self] at b' c'
  rw [bc] at b'
  exact ⟨_, steps_trans (steps_trans (ab ▸ a w (Nat.le_refl _)) b') c'⟩

/-- The tasks of the last state. -/
theorem C_get (w i : Nat) (t : Task Unit) (h : (C w 0).tasks[i]? = some t) :
    (t = main w ∧ i = 0) ∨ (∃ j, j < w ∧ t = child (.running []) [w + 1 + j]) ∨ (∃ j, t = ⟨2, some (j + 1), .pending, []⟩) := by
  have hm := List.mem_of_getElem? h
  simp only [C, List.mem_cons, List.mem_append, List.mem_map, List.replicate_zero, List.append_nil, List.not_mem_nil] at hm
  cases i with
  | zero => exact .inl ⟨by simp [C] at h; exact h.symm, rfl⟩
  | succ i =>
    simp only [C, List.getElem?_cons_succ] at h
    have hm := List.mem_of_getElem? h
    simp only [List.mem_append, List.mem_map, List.replicate_zero, List.append_nil, List.mem_range'_1] at hm
    rcases hm with ⟨j, hj, rfl⟩ | ⟨j, hj, rfl⟩
    · exact .inr (.inl ⟨j, by omega, by simp [Nat.add_comm, Nat.add_left_comm]⟩)
    · exact .inr (.inr ⟨j, rfl⟩)

theorem C_leaf (w j : Nat) (hj : j < w) : (C w 0).tasks[w + 1 + j]? = some ⟨2, some (j + 1), .pending, []⟩ := by
  have e : w + 1 + j = (w + j) + 1 := by omega
  rw [e]
  simp only [C, List.getElem?_cons_succ, List.replicate_zero, List.append_nil]
  rw [List.getElem?_append_right (by simp)]
  simp [hj]

theorem C_child (w : Nat) (hw : 0 < w) : (C w 0).tasks[1]? = some (child (.running []) [w + 1]) := by
  simp only [C, List.getElem?_cons_succ, List.replicate_zero, List.append_nil]
  rw [List.getElem?_append_left (by simp; omega)]
  simp [hw]

theorem busy_C (w : Nat) : (C w 0).busy = w := by
  unfold C
  rw [busy_cons, busy_append, busy_append, busy_replicate]
  have h1 : ∀ l : List Nat, ∀ q g, (State.mk (l.map (fun j => child (.running []) [w + 0 + 1 + j])) q g).busy = l.length := by
    intro l q g
    induction l with
    | nil => rfl
    | cons a l ih => rw [List.map_cons, busy_cons, ih]; simp [child, Status.active]; omega
  have h2 : ∀ l : List Nat, ∀ q g, (State.mk (l.map (fun j => (⟨2, some (j + 1), .pending, []⟩ : Task Unit))) q g).busy = 0 := by
    intro l q g
    induction l with
    | nil => rfl
    | cons a l ih => rw [List.map_cons, busy_cons, ih]; simp [Status.active]
  rw [h1, h2]
  simp [main]

end Nested

open Nested in
/-- C69 is false for functions that use the pool themselves, however many workers it has (`Threads`; the processes of `Processes.pool` have
pools of their own): a `gather` of functions that end in any other setting may come to a state from which nothing can go on. -/
theorem C69_nested_deadlock (w : Nat) (hw : 0 < w) : LeavesEnd (nested w) ∧
    (∃ rank : Nat → Nat, ∀ f fs, (nested w).code f = .gather fs → ∀ g ∈ fs, rank g < rank f) ∧
    ∃ s, Reachable (nested w) w [0] s ∧ (∀ s', ¬ Step (nested w) w s s') ∧ ∃ t, s.tasks[0]? = some t ∧ t.parent = none ∧ ∀ o, t.st ≠ .done o := by
  refine ⟨fun f _ => ⟨_, rfl⟩, ⟨fun f => 2 - f, fun f fs hc g hg => ?_⟩, C w 0, reach w, fun s' hs => ?_, main w, rfl, rfl, fun o => by simp [main]⟩
  · simp only [nested] at hc
    split at hc
    · cases hc
      have := List.eq_of_mem_replicate hg
      subst this
      show 2 - 1 < 2 - f
      omega
    · split at hc
      · cases hc
        simp only [List.mem_cons, List.not_mem_nil, or_false] at hg
        show 2 - g < 2 - f
        omega
      · cases hc
  · have hb := busy_C w
    have hmain : (nested w).code (main w).fn = .gather (List.replicate w 1) := rfl
    have hchild : ∀ a b, (nested w).code (child a b).fn = .gather [2] := fun _ _ => rfl
    have wait : ∀ {i k : Nat} {t u : Task Unit} {got : List Unit}, (C w 0).tasks[i]? = some t → t.st = .running got →
        t.subs[got.length]? = some k → (C w 0).tasks[k]? = some u → u.st = .pending ∨ ∃ g, u.st = .running g := by
      intro i k t u got ht hr hk hu
      rcases C_get w k u hu with ⟨rfl, _⟩ | ⟨j, _, rfl⟩ | ⟨j, rfl⟩
      · exact .inr ⟨_, rfl⟩
      · exact .inr ⟨_, rfl⟩
      · exact .inl rfl
    cases hs with
    | start hq hlt ht hp => omega
    | drop hq hlt ht hp => omega
    | leaf ht hr hc ho =>
      rcases C_get w _ _ ht with ⟨rfl, _⟩ | ⟨j, _, rfl⟩ | ⟨j, rfl⟩
      · rw [hmain] at hc; cases hc
      · rw [hchild] at hc; cases hc
      · cases hr
    | submit ht hr hc hf =>
      rcases C_get w _ _ ht with ⟨rfl, _⟩ | ⟨j, _, rfl⟩ | ⟨j, rfl⟩
      · rw [hmain] at hc; cases hc
        simp [main] at hf
      · rw [hchild] at hc; cases hc
        simp [child] at hf
      · cases hr
    | collect ht hr hc hall hk hu hd => rcases wait ht hr hk hu with h | ⟨g, h⟩ <;> rw [h] at hd <;> cases hd
    | fail ht hr hc hall hk hu hd => rcases wait ht hr hk hu with h | ⟨g, h⟩ <;> rw [h] at hd <;> cases hd
    | gone ht hr hc hall hk hu hd => rcases wait ht hr hk hu with h | ⟨g, h⟩ <;> rw [h] at hd <;> cases hd
    | ready ht hr hc hall hg =>
      rcases C_get w _ _ ht with ⟨rfl, _⟩ | ⟨j, _, rfl⟩ | ⟨j, rfl⟩
      · rw [hmain] at hc; cases hc
        cases hr
        simp at hg; omega
      · rw [hchild] at hc; cases hc
        cases hr
        simp at hg
      · cases hr
    | cancel ht hr hu => rcases C_get w _ _ ht with ⟨rfl, _⟩ | ⟨j, _, rfl⟩ | ⟨j, rfl⟩ <;> cases hr
    | finish ht hr => rcases C_get w _ _ ht with ⟨rfl, _⟩ | ⟨j, _, rfl⟩ | ⟨j, rfl⟩ <;> cases hr

/-! ### the hypotheses are met -/

/-- Function 0 gathers functions 1 and 2, which return 10 and 20. -/
def sample : Prog Nat := ⟨fun f => if f = 0 then .gather [1, 2] else .leaf, fun f o => o = .ok (10 * f), List.sum⟩

example : LeavesEnd sample ∧ (∀ f a b, sample.may f a → sample.may f b → a = b) ∧ (∀ f ∈ [0, 0], Flat sample f) := by
  refine ⟨fun f _ => ⟨_, rfl⟩, fun f a b h h' => h.trans h'.symm, fun f _ fs hc g hg => ?_⟩
  simp only [sample] at hc ⊢
  split at hc
  · cases hc
    have : g ≠ 0 := by intro h; subst h; simp at hg
    rw [if_neg this]
  · cases hc

/-- A pool with one worker: `gather` returns. -/
example : ∃ s, Reachable sample 1 [0] s ∧ s.tasks[0]? = some ⟨0, none, .done (.ok 30), [1, 2]⟩ ∧ s.log = [1, 2] := by
  let m (st : Status Nat) (subs : List Nat) : Task Nat := ⟨0, none, st, subs⟩
  let f (k : Nat) (st : Status Nat) : Task Nat := ⟨k, some 0, st, []⟩
  have h1 : Step sample 1 (State.init [0]) ⟨[m (.running []) [1], f 1 .pending], [1], []⟩ :=
    .submit (s := State.init [0]) (i := 0) (t := m (.running []) []) (fs := [1, 2]) (f := 1) rfl rfl rfl rfl
  have h2 : Step sample 1 _ ⟨[m (.running []) [1, 2], f 1 .pending, f 2 .pending], [1, 2], []⟩ :=
    .submit (s := ⟨[m (.running []) [1], f 1 .pending], [1], []⟩) (i := 0) (t := m (.running []) [1]) (fs := [1, 2]) (f := 2) rfl rfl rfl rfl
  have h3 : Step sample 1 _ ⟨[m (.running []) [1, 2], f 1 (.running []), f 2 .pending], [2], [1]⟩ :=
    .start (s := ⟨[m (.running []) [1, 2], f 1 .pending, f 2 .pending], [1, 2], []⟩) (i := 1) rfl (by decide) rfl rfl
  have h4 : Step sample 1 _ ⟨[m (.running []) [1, 2], f 1 (.done (.ok 10)), f 2 .pending], [2], [1]⟩ :=
    .leaf (s := ⟨[m (.running []) [1, 2], f 1 (.running []), f 2 .pending], [2], [1]⟩) (i := 1) rfl rfl rfl rfl
  have h5 : Step sample 1 _ ⟨[m (.running []) [1, 2], f 1 (.done (.ok 10)), f 2 (.running [])], [], [1, 2]⟩ :=
    .start (s := ⟨[m (.running []) [1, 2], f 1 (.done (.ok 10)), f 2 .pending], [2], [1]⟩) (i := 2) rfl (by decide) rfl rfl
  have h6 : Step sample 1 _ ⟨[m (.running [10]) [1, 2], f 1 (.done (.ok 10)), f 2 (.running [])], [], [1, 2]⟩ :=
    .collect (s := ⟨[m (.running []) [1, 2], f 1 (.done (.ok 10)), f 2 (.running [])], [], [1, 2]⟩) (i := 0) (fs := [1, 2]) rfl rfl rfl rfl rfl rfl rfl
  have h7 : Step sample 1 _ ⟨[m (.running [10]) [1, 2], f 1 (.done (.ok 10)), f 2 (.done (.ok 20))], [], [1, 2]⟩ :=
    .leaf (s := ⟨[m (.running [10]) [1, 2], f 1 (.done (.ok 10)), f 2 (.running [])], [], [1, 2]⟩) (i := 2) rfl rfl rfl rfl
  have h8 : Step sample 1 _ ⟨[m (.running [10, 20]) [1, 2], f 1 (.done (.ok 10)), f 2 (.done (.ok 20))], [], [1, 2]⟩ :=
    .collect (s := ⟨[m (.running [10]) [1, 2], f 1 (.done (.ok 10)), f 2 (.done (.ok 20))], [], [1, 2]⟩) (i := 0) (fs := [1, 2]) rfl rfl rfl rfl rfl rfl rfl
  have h9 : Step sample 1 _ ⟨[m (.closing (.ok 30) [1, 2]) [1, 2], f 1 (.done (.ok 10)), f 2 (.done (.ok 20))], [], [1, 2]⟩ :=
    .ready (s := ⟨[m (.running [10, 20]) [1, 2], f 1 (.done (.ok 10)), f 2 (.done (.ok 20))], [], [1, 2]⟩) (i := 0) (fs := [1, 2]) rfl rfl rfl rfl rfl
  have h10 : Step sample 1 _ ⟨[m (.closing (.ok 30) [2]) [1, 2], f 1 (.done (.ok 10)), f 2 (.done (.ok 20))], [], [1, 2]⟩ :=
    .cancel (s := ⟨[m (.closing (.ok 30) [1, 2]) [1, 2], f 1 (.done (.ok 10)), f 2 (.done (.ok 20))], [], [1, 2]⟩) (i := 0) (k := 1) rfl rfl rfl
  have h11 : Step sample 1 _ ⟨[m (.closing (.ok 30) []) [1, 2], f 1 (.done (.ok 10)), f 2 (.done (.ok 20))], [], [1, 2]⟩ :=
    .cancel (s := ⟨[m (.closing (.ok 30) [2]) [1, 2], f 1 (.done (.ok 10)), f 2 (.done (.ok 20))], [], [1, 2]⟩) (i := 0) (k := 2) rfl rfl rfl
  have h12 : Step sample 1 _ ⟨[m (.done (.ok 30)) [1, 2], f 1 (.done (.ok 10)), f 2 (.done (.ok 20))], [], [1, 2]⟩ :=
    .finish (s := ⟨[m (.closing (.ok 30) []) [1, 2], f 1 (.done (.ok 10)), f 2 (.done (.ok 20))], [], [1, 2]⟩) (i := 0) rfl rfl
  exact ⟨_, ⟨_, .tail (.tail (.tail (.tail (.tail (.tail (.tail (.tail (.tail (.tail (.tail (.tail (.refl _) h1) h2) h3) h4) h5) h6) h7) h8) h9) h10) h11) h12⟩, rfl, rfl⟩

end Aiootp.Pool
