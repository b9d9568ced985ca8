import Verif.Lemmas.Pool

namespace Aiootp.Pool

variable {V : Type} {P : Prog V} {w : Nat}

/-! ### what calls give -/

theorem seq_ok : ∀ (fs : List Nat) (vs : List V), vs.length = fs.length →
    (∀ (j : Nat) f v, fs[j]? = some f → vs[j]? = some v → Eval P f (.ok v)) → Seq P fs (.ok vs)
  | [], [], _, _ => .nil
  | f :: fs, v :: vs, hl, h =>
    .ok (h 0 f v rfl rfl) (seq_ok fs vs (by simpa using hl) (fun j f v h1 h2 => h (j + 1) f v h1 h2))
  | [], _ :: _, hl, _ => by simp at hl
  | _ :: _, [], hl, _ => by simp at hl

theorem seq_err {e : Nat} : ∀ (j : Nat) (fs : List Nat) (g : Nat), fs[j]? = some g → Eval P g (.err e) →
    (∀ j' : Nat, j' < j → ∃ f v, fs[j']? = some f ∧ Eval P f (.ok v)) → Seq P fs (.err e)
  | 0, f :: fs, g, hg, he, _ => by
    simp only [List.getElem?_cons_zero, Option.some.injEq] at hg
    subst hg
    exact .stop he
  | j + 1, f :: fs, g, hg, he, h => by
    obtain ⟨f', v, hf, hv⟩ := h 0 (by omega)
    simp only [List.getElem?_cons_zero, Option.some.injEq] at hf
    subst hf
    refine .err hv (seq_err j fs g (by simpa using hg) he (fun j' hj' => ?_))
    obtain ⟨f', v', hf', hv'⟩ := h (j' + 1) (by omega)
    exact ⟨f', v', by simpa using hf', hv'⟩
  | _, [], _, hg, _, _ => by simp at hg

theorem eval_of_done {s : State V} (h : Inv P s) : ∀ (n : Nat) (i : Nat) (t : Task V) (o : Out V), s.tasks.length - i ≤ n →
    s.tasks[i]? = some t → t.st = .done o → Eval P t.fn o := by
  intro n
  induction n with
  | zero =>
    intro i t o hn ht _
    have := lt_of_get ht
    omega
  | succ n ih =>
    intro i t o hn ht ho
    have hst := (h.good i t ht).st
    unfold StOk at hst
    simp only [ho] at hst
    cases hc : P.code t.fn with
    | leaf => rw [hc] at hst; exact .leaf hc hst
    | gather fs =>
      rw [hc] at hst
      obtain ⟨hl, hj, _⟩ := hst
      have hsub := (h.good i t ht).sub
      unfold SubOk at hsub
      rw [hc] at hsub
      have hres : ∀ (j : Nat) k o', t.subs[j]? = some k → Res s k o' → ∃ f, fs[j]? = some f ∧ Eval P f o' := by
        rintro j k o' hk ⟨u, hu, hd⟩
        obtain ⟨u', hu', hik, _, hf⟩ := hsub.2 j k hk
        rw [hu] at hu'; cases hu'
        have := lt_of_get hu
        exact ⟨u.fn, hf, ih k u o' (by omega) hu hd⟩
      cases o with
      | ok x =>
        obtain ⟨vs, rfl, hvl, hv⟩ := hj
        refine .gather hc (seq_ok fs vs (by omega) (fun j f v h1 h2 => ?_))
        obtain ⟨k, hk, hr⟩ := hv j v h2
        obtain ⟨f', hf', he⟩ := hres j k _ hk hr
        rw [h1] at hf'; cases hf'
        exact he
      | err e =>
        obtain ⟨j, k, hk, hr, hp⟩ := hj
        obtain ⟨f, hf, he⟩ := hres j k _ hk hr
        refine .raise hc (seq_err j fs f hf he (fun j' hj' => ?_))
        obtain ⟨k', v, hk', hr'⟩ := hp j' hj'
        obtain ⟨f', hf', he'⟩ := hres j' k' _ hk' hr'
        exact ⟨f', v, hf', he'⟩

mutual
theorem Eval.unique (hm : ∀ f a b, P.may f a → P.may f b → a = b) {f : Nat} {o o' : Out V} : Eval P f o → Eval P f o' → o = o'
  | .leaf _ h, .leaf _ h' => hm _ _ _ h h'
  | .leaf hc _, .gather hc' _ => by rw [hc] at hc'; cases hc'
  | .leaf hc _, .raise hc' _ => by rw [hc] at hc'; cases hc'
  | .gather hc _, .leaf hc' _ => by rw [hc] at hc'; cases hc'
  | .raise hc _, .leaf hc' _ => by rw [hc] at hc'; cases hc'
  | .gather hc h, .gather hc' h' => by
    rw [hc] at hc'; cases hc'
    have := Seq.unique hm h h'
    cases this; rfl
  | .gather hc h, .raise hc' h' => by
    rw [hc] at hc'; cases hc'
    have := Seq.unique hm h h'
    cases this
  | .raise hc h, .gather hc' h' => by
    rw [hc] at hc'; cases hc'
    have := Seq.unique hm h h'
    cases this
  | .raise hc h, .raise hc' h' => by
    rw [hc] at hc'; cases hc'
    have := Seq.unique hm h h'
    cases this; rfl

theorem Seq.unique (hm : ∀ f a b, P.may f a → P.may f b → a = b) {fs : List Nat} {r r' : Out (List V)} : Seq P fs r → Seq P fs r' → r = r'
  | .nil, .nil => rfl
  | .stop h, .stop h' => by have := Eval.unique hm h h'; cases this; rfl
  | .stop h, .ok h' _ => by have := Eval.unique hm h h'; cases this
  | .stop h, .err h' _ => by have := Eval.unique hm h h'; cases this
  | .ok h _, .stop h' => by have := Eval.unique hm h h'; cases this
  | .err h _, .stop h' => by have := Eval.unique hm h h'; cases this
  | .ok h g, .ok h' g' => by
    have := Eval.unique hm h h'; cases this
    have := Seq.unique hm g g'; cases this; rfl
  | .ok _ g, .err _ g' => by have := Seq.unique hm g g'; cases this
  | .err _ g, .ok _ g' => by have := Seq.unique hm g g'; cases this
  | .err _ g, .err _ g' => by have := Seq.unique hm g g'; cases this; rfl
end

/-! ### cancelled tasks -/

theorem cancelled_put {s : State V} {i k : Nat} {t t' : Task V} (ht : s.tasks[i]? = some t) (hn : t.st ≠ .cancelled)
    (hk : ∃ u : Task V, s.tasks[k]? = some u ∧ u.st = .cancelled) :
    ∃ u : Task V, (s.put i t').tasks[k]? = some u ∧ u.st = .cancelled := by
  obtain ⟨u, hu, hc⟩ := hk
  have e : i ≠ k := by
    rintro rfl
    rw [ht] at hu; cases hu
    exact hn hc
  exact ⟨u, by rw [getElem?_put _ _ _ _ (lt_of_get ht), if_neg e]; exact hu, hc⟩

theorem cancelled_step {s s' : State V} (hs : Step P w s s') {k : Nat} (hk : ∃ u : Task V, s.tasks[k]? = some u ∧ u.st = .cancelled) :
    ∃ u : Task V, s'.tasks[k]? = some u ∧ u.st = .cancelled := by
  cases hs with
  | start hq _ ht hp => exact cancelled_put ht (by rw [hp]; simp) hk
  | drop hq _ ht hp => exact hk
  | leaf ht hr hc ho => exact cancelled_put ht (by rw [hr]; simp) hk
  | @submit i t fs f ht hr hc hf =>
    obtain ⟨u, hu, hst⟩ := cancelled_put (t' := { t with subs := t.subs ++ [s.tasks.length] }) ht (by rw [hr]; simp) hk
    exact ⟨u, (List.getElem?_append_left (lt_of_get hu)).trans hu, hst⟩
  | collect ht hr hc hall hk' hu hd => exact cancelled_put ht (by rw [hr]; simp) hk
  | fail ht hr hc hall hk' hu hd => exact cancelled_put ht (by rw [hr]; simp) hk
  | gone ht hr hc hall hk' hu hd => exact cancelled_put ht (by rw [hr]; simp) hk
  | ready ht hr hc hall hg => exact cancelled_put ht (by rw [hr]; simp) hk
  | @cancel i k' t u o rest ht hr hu =>
    by_cases hc : u.st = .cancelled
    · have e : u.cancel = u := by unfold Task.cancel; rw [hc]
      have e' : s.put k' u = s := by
        unfold State.put
        have : s.tasks.set k' u = s.tasks := by
          obtain ⟨hk, hg⟩ := List.getElem?_eq_some_iff.1 hu
          subst hg
          exact List.set_getElem_self hk
        rw [this]
      rw [e, e']
      exact cancelled_put ht (by rw [hr]; simp) hk
    · have h1 := cancelled_put (t' := u.cancel) hu hc hk
      by_cases e : k' = i
      · subst e
        refine cancelled_put (t := u.cancel) ?_ ?_ h1
        · rw [getElem?_put _ _ _ _ (lt_of_get hu), if_pos rfl]
        · rw [ht] at hu; cases hu
          unfold Task.cancel
          rw [hr]
          simp only
          rw [hr]
          simp
      · exact cancelled_put (t := t) (by rw [getElem?_put _ _ _ _ (lt_of_get hu), if_neg e]; exact ht) (by rw [hr]; simp) h1
  | finish ht hr => exact cancelled_put ht (by rw [hr]; simp) hk

theorem cancelled_steps {n : Nat} {s s' : State V} (hs : Steps P w n s s') {k : Nat} (hk : ∃ u : Task V, s.tasks[k]? = some u ∧ u.st = .cancelled) :
    ∃ u : Task V, s'.tasks[k]? = some u ∧ u.st = .cancelled := by
  induction hs with
  | refl => exact hk
  | tail _ h' ih => exact cancelled_step h' (ih hk)

/-! ### states without a next step -/

/-- No function is run for ever. -/
def LeavesEnd (P : Prog V) : Prop := ∀ f, P.code f = .leaf → ∃ o, P.may f o

theorem stuck_active {s : State V} (h : Inv P s) (hl : LeavesEnd P) (hno : ∀ s', ¬ Step P w s s') {i : Nat} {t : Task V}
    (ht : s.tasks[i]? = some t) (ha : t.st.active = true) :
    ∃ fs, P.code t.fn = .gather fs ∧ ∃ (k : Nat) (u : Task V), i < k ∧ s.tasks[k]? = some u ∧ (u.st = .pending ∨ u.st.active = true) := by
  have hst := (h.good i t ht).st
  unfold StOk at hst
  cases hs : t.st with
  | pending => rw [hs] at ha; cases ha
  | cancelled => rw [hs] at ha; cases ha
  | done o => rw [hs] at ha; cases ha
  | closing o rest =>
    exfalso
    cases rest with
    | nil => exact hno _ (.finish ht hs)
    | cons k rest =>
      obtain ⟨fs, _, _, _, h1, _⟩ := closing_ok h ht hs
      obtain ⟨u, hu, _⟩ := sub_of_mem h ht (h1 k (by simp))
      exact hno _ (.cancel ht hs hu)
  | running got =>
    rw [hs] at hst
    simp only at hst
    cases hc : P.code t.fn with
    | leaf =>
      exfalso
      rw [hc] at hst
      simp only at hst
      subst hst
      obtain ⟨o, ho⟩ := hl _ hc
      exact hno _ (.leaf ht hs hc ho)
    | gather fs =>
      refine ⟨fs, rfl, ?_⟩
      rw [hc] at hst
      have hsub := (h.good i t ht).sub
      unfold SubOk at hsub
      rw [hc] at hsub
      by_cases hall : t.subs.length = fs.length
      · have hgl : got.length ≤ t.subs.length := by
          by_cases hg : got = []
          · simp [hg]
          · refine Classical.byContradiction fun hlt => ?_
            have : t.subs.length < got.length := by omega
            obtain ⟨k, hk, _⟩ := hst.2 t.subs.length _ (List.getElem?_eq_getElem this)
            rw [List.getElem?_eq_none (Nat.le_refl _)] at hk
            cases hk
        by_cases hg : got.length = fs.length
        · exact absurd (.ready ht hs hc hall hg) (hno _)
        · have hlt : got.length < t.subs.length := by omega
          have hk := List.getElem?_eq_getElem hlt
          obtain ⟨u, hu, hik, _, _⟩ := hsub.2 _ _ hk
          refine ⟨_, u, hik, hu, ?_⟩
          cases hus : u.st with
          | pending => exact .inl rfl
          | cancelled => exact absurd (.gone ht hs hc hall hk hu hus) (hno _)
          | done o =>
            cases o with
            | ok v => exact absurd (.collect ht hs hc hall hk hu hus) (hno _)
            | err e => exact absurd (.fail ht hs hc hall hk hu hus) (hno _)
          | running _ => exact .inr rfl
          | closing _ _ => exact .inr rfl
      · have hg : got = [] := Classical.byContradiction fun hg => hall (hst.1 hg)
        subst hg
        have hlt : t.subs.length < fs.length := by have := hsub.1; omega
        exact absurd (.submit ht hs hc (List.getElem?_eq_getElem hlt)) (hno _)

theorem stuck_pending {s : State V} (h : Inv P s) (hl : LeavesEnd P) (hno : ∀ s', ¬ Step P w s s') : ∀ (n : Nat) (i : Nat) (t : Task V),
    s.tasks.length - i ≤ n → s.tasks[i]? = some t → t.st.active = true → ∃ (k : Nat) (u : Task V), s.tasks[k]? = some u ∧ u.st = .pending := by
  intro n
  induction n with
  | zero => intro i t hn ht _; have := lt_of_get ht; omega
  | succ n ih =>
    intro i t hn ht ha
    obtain ⟨_, _, k, u, hik, hu, hk⟩ := stuck_active h hl hno ht ha
    rcases hk with hk | hk
    · exact ⟨k, u, hu, hk⟩
    · have := lt_of_get hu
      exact ih k u (by omega) hu hk

/-! ### the number of steps -/

/-- What is left to do of a call: steps, without those of the queue. -/
def left (P : Prog V) (R : Nat → Nat) (t : Task V) : Nat :=
  match t.st with
  | .pending => R t.fn
  | .cancelled => 0
  | .done _ => 0
  | .closing _ rest => rest.length + 1
  | .running got =>
    match P.code t.fn with
    | .leaf => 1
    | .gather fs => ((fs.drop t.subs.length).map (fun g => R g + 2)).sum + (fs.length - got.length) + fs.length + 2

def lefts (P : Prog V) (R : Nat → Nat) (l : List (Task V)) : Nat := (l.map (left P R)).sum

theorem lefts_set (R : Nat → Nat) : ∀ (l : List (Task V)) (i : Nat) (t t' : Task V), l[i]? = some t →
    lefts P R (l.set i t') + left P R t = lefts P R l + left P R t'
  | [], _, _, _, h => by simp at h
  | a :: l, 0, t, t', h => by
    simp only [List.getElem?_cons_zero, Option.some.injEq] at h
    subst h
    simp only [lefts, List.set_cons_zero, List.map_cons, List.sum_cons]
    omega
  | a :: l, i + 1, t, t', h => by
    have := lefts_set R l i t t' (by simpa using h)
    simp only [lefts, List.set_cons_succ, List.map_cons, List.sum_cons] at this ⊢
    omega

/-- `R` counts the work of a function. -/
def Counts (P : Prog V) (R : Nat → Nat) : Prop := ∀ f, match P.code f with
  | .leaf => R f = 1
  | .gather fs => R f = (fs.map (fun g => R g + 2)).sum + fs.length + fs.length + 2

def todo (P : Prog V) (R : Nat → Nat) (s : State V) : Nat := lefts P R s.tasks + s.queue.length

theorem todo_step {R : Nat → Nat} (hR : Counts P R) {s s' : State V} (h : Inv P s) (hs : Step P w s s') : todo P R s' + 1 ≤ todo P R s := by
  have put : ∀ {i : Nat} {t t' : Task V}, s.tasks[i]? = some t → left P R t' + 1 ≤ left P R t → todo P R (s.put i t') + 1 ≤ todo P R s := by
    intro i t t' ht hlt
    have := lefts_set (P := P) R s.tasks i t t' ht
    simp only [todo, State.put]
    omega
  cases hs with
  | @start i q t hq _ ht hp =>
    have e := lefts_set (P := P) R s.tasks i t { t with st := .running [] } ht
    have e' : left P R { t with st := .running [] } = left P R t := by
      have hst := (h.good i t ht).st
      unfold StOk at hst
      rw [hp] at hst
      have hc := hR t.fn
      unfold left
      rw [hp]
      simp only
      cases hcode : P.code t.fn with
      | leaf => rw [hcode] at hc; exact hc.symm
      | gather fs =>
        rw [hcode] at hc
        simp only at hc ⊢
        rw [hst.1]
        simp only [List.length_nil, List.drop_zero, Nat.sub_zero]
        omega
    simp only [todo, hq, List.length_cons]
    omega
  | drop hq _ ht hp =>
    simp only [todo, hq, List.length_cons]
    omega
  | leaf ht hr hc ho => exact put ht (by simp [left, hr, hc])
  | @submit i t fs f ht hr hc hf =>
    have e := lefts_set (P := P) R s.tasks i t { t with subs := t.subs ++ [s.tasks.length] } ht
    obtain ⟨hlt, hget⟩ := List.getElem?_eq_some_iff.1 hf
    have e1 : left P R t = left P R { t with subs := t.subs ++ [s.tasks.length] } + (R f + 2) := by
      simp only [left, hr, hc, List.length_append, List.length_cons, List.length_nil, Nat.zero_add]
      rw [List.drop_eq_getElem_cons hlt, hget]
      simp only [List.map_cons, List.sum_cons]
      omega
    have e2 : left P R (⟨f, some i, .pending, []⟩ : Task V) = R f := rfl
    simp only [todo, lefts, List.map_append, List.map_cons, List.map_nil, List.sum_append, List.sum_cons, List.sum_nil, List.length_append,
      List.length_cons, List.length_nil] at e ⊢
    omega
  | @collect i k t u fs got v ht hr hc hall hk hu hd =>
    refine put ht ?_
    simp only [left, hr, hc, List.length_append, List.length_cons, List.length_nil]
    have := (List.getElem?_eq_some_iff.1 hk).1
    omega
  | fail ht hr hc hall hk hu hd => exact put ht (by simp only [left, hr, hc]; omega)
  | gone ht hr hc hall hk hu hd => exact put ht (by simp only [left, hr, hc]; omega)
  | ready ht hr hc hall hg => exact put ht (by simp only [left, hr, hc]; omega)
  | @cancel i k t u o rest ht hr hu =>
    obtain ⟨fs, hc, hl, hj, h1, hs⟩ := closing_ok h ht hr
    obtain ⟨u', hu', hik, hpar⟩ := sub_of_mem h ht (h1 k (by simp))
    rw [hu] at hu'; cases hu'
    have hne : k ≠ i := by omega
    have e1 := lefts_set (P := P) R s.tasks k u u.cancel hu
    have ht' : (s.put k u.cancel).tasks[i]? = some t := by rw [getElem?_put _ _ _ _ (lt_of_get hu), if_neg hne]; exact ht
    have e2 := lefts_set (P := P) R (s.put k u.cancel).tasks i t { t with st := .closing o rest } ht'
    have e3 : left P R u.cancel ≤ left P R u := by
      unfold Task.cancel
      split
      · simp [left]
      · exact Nat.le_refl _
    have e4 : left P R t = left P R { t with st := .closing o rest } + 1 := by simp [left, hr]
    simp only [todo, State.put] at e2 ⊢
    omega
  | finish ht hr => exact put ht (by simp [left, hr])

theorem todo_steps {R : Nat → Nat} (hR : Counts P R) {n : Nat} {s s' : State V} (h : Inv P s) (hs : Steps P w n s s') :
    todo P R s' + n ≤ todo P R s := by
  induction hs with
  | refl => exact Nat.le_refl _
  | tail h1 h2 ih =>
    have := todo_step hR (inv_steps h h1) h2
    have := ih h
    omega

/-- The work of functions of rank at most `n`. -/
def work (P : Prog V) : Nat → Nat → Nat
  | 0, _ => 1
  | n + 1, f =>
    match P.code f with
    | .leaf => 1
    | .gather fs => (fs.map (fun g => work P n g + 2)).sum + fs.length + fs.length + 2

theorem work_stable {rank : Nat → Nat} (hr : ∀ f fs, P.code f = .gather fs → ∀ g ∈ fs, rank g < rank f) : ∀ (n m f : Nat), rank f < n → rank f < m →
    work P n f = work P m f := by
  intro n
  induction n with
  | zero => intro m f h; omega
  | succ n ih =>
    intro m f hn hm
    cases m with
    | zero => omega
    | succ m =>
      unfold work
      cases hc : P.code f with
      | leaf => rfl
      | gather fs =>
        simp only
        have : fs.map (fun g => work P n g + 2) = fs.map (fun g => work P m g + 2) := by
          apply List.map_congr_left
          intro g hg
          have := hr f fs hc g hg
          rw [ih m g (by omega) (by omega)]
        rw [this]

theorem counts_work {rank : Nat → Nat} (hr : ∀ f fs, P.code f = .gather fs → ∀ g ∈ fs, rank g < rank f) :
    Counts P (fun f => work P (rank f + 1) f) := by
  intro f
  cases hc : P.code f with
  | leaf => simp [work, hc]
  | gather fs =>
    simp only
    rw [work, hc]
    simp only
    have : fs.map (fun g => work P (rank f) g + 2) = fs.map (fun g => work P (rank g + 1) g + 2) := by
      apply List.map_congr_left
      intro g hg
      have := hr f fs hc g hg
      rw [work_stable hr (rank f) (rank g + 1) g this (by omega)]
    rw [this]

end Aiootp.Pool
