import Verif.Spec.Pool

namespace Aiootp.Pool

variable {V : Type} {P : Prog V} {w : Nat}

/-- `Res s k o`: call `k` has ended with `o`. -/
def Res (s : State V) (k : Nat) (o : Out V) : Prop := ∃ u : Task V, s.tasks[k]? = some u ∧ u.st = .done o

/-- inside or after `finally` -/
def Status.closed : Status V → Prop
  | .closing _ _ | .done _ => True
  | _ => False

/-- why the `gather` of `t` ends with this outcome -/
def Just (P : Prog V) (s : State V) (subs : List Nat) : Out V → Prop
  | .ok x => ∃ vs, x = P.pack vs ∧ vs.length = subs.length ∧ ∀ (j : Nat) v, vs[j]? = some v → ∃ k, subs[j]? = some k ∧ Res s k (.ok v)
  | .err e => ∃ (j : Nat) (k : Nat), subs[j]? = some k ∧ Res s k (.err e) ∧
      ∀ j' : Nat, j' < j → ∃ k' v, subs[j']? = some k' ∧ Res s k' (.ok v)

/-- the tasks submitted by a call -/
def SubOk (P : Prog V) (s : State V) (i : Nat) (t : Task V) : Prop :=
  match P.code t.fn with
  | .leaf => t.subs = []
  | .gather fs => t.subs.length ≤ fs.length ∧ ∀ (j : Nat) (k : Nat), t.subs[j]? = some k →
      ∃ u : Task V, s.tasks[k]? = some u ∧ i < k ∧ u.parent = some i ∧ fs[j]? = some u.fn

/-- not waiting to be taken -/
def Settled (s : State V) (k : Nat) : Prop := ∃ u : Task V, s.tasks[k]? = some u ∧ u.st ≠ .pending

def StOk (P : Prog V) (s : State V) (t : Task V) : Prop :=
  match t.st with
  | .pending => t.subs = [] ∧ t.parent.isSome = true
  | .cancelled => t.subs = [] ∧ ∃ p u, t.parent = some p ∧ s.tasks[p]? = some u ∧ u.st.closed
  | .running got =>
    match P.code t.fn with
    | .leaf => got = []
    | .gather fs => (got ≠ [] → t.subs.length = fs.length) ∧
        ∀ (j : Nat) v, got[j]? = some v → ∃ k, t.subs[j]? = some k ∧ Res s k (.ok v)
  | .closing o rest => ∃ fs, P.code t.fn = .gather fs ∧ t.subs.length = fs.length ∧ Just P s t.subs o ∧
      (∀ k ∈ rest, k ∈ t.subs) ∧ ∀ k ∈ t.subs, k ∉ rest → Settled s k
  | .done o =>
    match P.code t.fn with
    | .leaf => P.may t.fn o
    | .gather fs => t.subs.length = fs.length ∧ Just P s t.subs o ∧ ∀ k ∈ t.subs, Settled s k

structure Good (P : Prog V) (s : State V) (i : Nat) (t : Task V) : Prop where
  sub : SubOk P s i t
  inc : t.subs.Pairwise (· < ·)
  st : StOk P s t
  par : ∀ p, t.parent = some p → ∃ u : Task V, s.tasks[p]? = some u ∧ i ∈ u.subs

/-- How calls may change. -/
structure Ext (s s' : State V) : Prop where
  ex : ∀ (i : Nat) (t : Task V), s.tasks[i]? = some t → ∃ t' : Task V, s'.tasks[i]? = some t' ∧ t'.fn = t.fn ∧ t'.parent = t.parent ∧
    (∀ o, t.st = .done o → t'.st = .done o) ∧ (t.st ≠ .pending → t'.st ≠ .pending) ∧ (t.st.closed → t'.st.closed) ∧
    (∀ k ∈ t.subs, k ∈ t'.subs)

theorem Ext.res {s s' : State V} (h : Ext s s') {k : Nat} {o : Out V} (hr : Res s k o) : Res s' k o := by
  obtain ⟨u, hu, ho⟩ := hr
  obtain ⟨u', hu', _, _, hd, _⟩ := h.ex k u hu
  exact ⟨u', hu', hd o ho⟩

theorem Ext.settled {s s' : State V} (h : Ext s s') {k : Nat} (hr : Settled s k) : Settled s' k := by
  obtain ⟨u, hu, ho⟩ := hr
  obtain ⟨u', hu', _, _, _, hd, _⟩ := h.ex k u hu
  exact ⟨u', hu', hd ho⟩

theorem Ext.just {s s' : State V} (h : Ext s s') {subs : List Nat} {o : Out V} (hj : Just P s subs o) : Just P s' subs o := by
  cases o with
  | ok x =>
    obtain ⟨vs, e, hl, hv⟩ := hj
    exact ⟨vs, e, hl, fun j v hjv => (by obtain ⟨k, hk, hr⟩ := hv j v hjv; exact ⟨k, hk, h.res hr⟩)⟩
  | err e =>
    obtain ⟨j, k, hk, hr, hp⟩ := hj
    exact ⟨j, k, hk, h.res hr, fun j' hj' => (by obtain ⟨k', v, hk', hr'⟩ := hp j' hj'; exact ⟨k', v, hk', h.res hr'⟩)⟩

theorem Ext.subOk {s s' : State V} (h : Ext s s') {i : Nat} {t : Task V} (hs : SubOk P s i t) : SubOk P s' i t := by
  unfold SubOk at hs ⊢
  cases hc : P.code t.fn with
  | leaf => rw [hc] at hs; exact hs
  | gather fs =>
    rw [hc] at hs
    refine ⟨hs.1, fun j k hk => ?_⟩
    obtain ⟨u, hu, hik, hp, hf⟩ := hs.2 j k hk
    obtain ⟨u', hu', hfn, hpar, _⟩ := h.ex k u hu
    exact ⟨u', hu', hik, hpar.trans hp, by rw [hfn]; exact hf⟩

theorem Ext.stOk {s s' : State V} (h : Ext s s') {t : Task V} (hs : StOk P s t) : StOk P s' t := by
  unfold StOk at hs ⊢
  cases ht : t.st with
  | pending => rw [ht] at hs; exact hs
  | cancelled =>
    rw [ht] at hs
    obtain ⟨h0, p, u, hp, hu, hcl⟩ := hs
    obtain ⟨u', hu', _, _, _, _, hc, _⟩ := h.ex p u hu
    exact ⟨h0, p, u', hp, hu', hc hcl⟩
  | running got =>
    rw [ht] at hs
    simp only at hs ⊢
    cases hc : P.code t.fn with
    | leaf => rw [hc] at hs; exact hs
    | gather fs =>
      rw [hc] at hs
      exact ⟨hs.1, fun j v hv => (by obtain ⟨k, hk, hr⟩ := hs.2 j v hv; exact ⟨k, hk, h.res hr⟩)⟩
  | closing o rest =>
    rw [ht] at hs
    obtain ⟨fs, hc, hl, hj, h1, h2⟩ := hs
    exact ⟨fs, hc, hl, h.just hj, h1, fun k hk hn => h.settled (h2 k hk hn)⟩
  | done o =>
    rw [ht] at hs
    simp only at hs ⊢
    cases hc : P.code t.fn with
    | leaf => rw [hc] at hs; exact hs
    | gather fs =>
      rw [hc] at hs
      exact ⟨hs.1, h.just hs.2.1, fun k hk => h.settled (hs.2.2 k hk)⟩

theorem Ext.good {s s' : State V} (h : Ext s s') {i : Nat} {t : Task V} (hg : Good P s i t) : Good P s' i t := by
  refine ⟨h.subOk hg.sub, hg.inc, h.stOk hg.st, fun p hp => ?_⟩
  obtain ⟨u, hu, hm⟩ := hg.par p hp
  obtain ⟨u', hu', _, _, _, _, _, hsub⟩ := h.ex p u hu
  exact ⟨u', hu', hsub i hm⟩

/-- the queue and the record -/
structure Inv (P : Prog V) (s : State V) : Prop where
  good : ∀ (i : Nat) (t : Task V), s.tasks[i]? = some t → Good P s i t
  qnodup : s.queue.Nodup
  qmem : ∀ k ∈ s.queue, ∃ u : Task V, s.tasks[k]? = some u ∧ (u.st = .pending ∨ u.st = .cancelled)
  qpend : ∀ (k : Nat) (u : Task V), s.tasks[k]? = some u → u.st = .pending → k ∈ s.queue
  lnodup : s.log.Nodup
  lmem : ∀ k : Nat, k ∈ s.log ↔ ∃ u : Task V, s.tasks[k]? = some u ∧ u.parent.isSome = true ∧ u.st ≠ .pending ∧ u.st ≠ .cancelled

theorem inv_init (fns : List Nat) : Inv P (State.init fns : State V) := by
  have ht : ∀ (i : Nat) (t : Task V), (State.init fns : State V).tasks[i]? = some t → ∃ f, t = ⟨f, none, .running [], []⟩ := by
    intro i t h
    simp only [State.init, List.getElem?_map, Option.map_eq_some_iff] at h
    obtain ⟨f, _, e⟩ := h
    exact ⟨f, e.symm⟩
  refine ⟨fun i t h => ?_, List.nodup_nil, fun k hk => (by cases hk), fun k u hu hp => ?_, List.nodup_nil, fun k => ⟨fun hk => (by cases hk), ?_⟩⟩
  · obtain ⟨f, rfl⟩ := ht i t h
    refine ⟨?_, List.Pairwise.nil, ?_, fun p hp => (by cases hp)⟩
    · unfold SubOk
      cases P.code f with
      | leaf => rfl
      | gather fs => exact ⟨by simp, fun j k hk => (by simp at hk)⟩
    · unfold StOk
      simp only
      cases P.code f with
      | leaf => trivial
      | gather fs => exact ⟨fun h => absurd rfl h, fun j v hv => (by simp at hv)⟩
  · obtain ⟨f, rfl⟩ := ht k u hu
    cases hp
  · rintro ⟨u, hu, hp, _⟩
    obtain ⟨f, rfl⟩ := ht k u hu
    cases hp

theorem getElem?_put (s : State V) (i : Nat) (t' : Task V) (j : Nat) (hi : i < s.tasks.length) :
    (s.put i t').tasks[j]? = if i = j then some t' else s.tasks[j]? := by
  simp [State.put, List.getElem?_set, hi]

theorem lt_of_get {l : List (Task V)} {i : Nat} {t : Task V} (h : l[i]? = some t) : i < l.length := (List.getElem?_eq_some_iff.1 h).1

/-- One record is replaced by one that has moved on. -/
theorem Ext.put {s : State V} {i : Nat} {t t' : Task V} (ht : s.tasks[i]? = some t) (hf : t'.fn = t.fn) (hp : t'.parent = t.parent)
    (hd : ∀ o, t.st = .done o → t'.st = .done o) (hn : t.st ≠ .pending → t'.st ≠ .pending) (hc : t.st.closed → t'.st.closed)
    (hs : ∀ k ∈ t.subs, k ∈ t'.subs) : Ext s (s.put i t') := by
  refine ⟨fun j u hu => ?_⟩
  rw [getElem?_put _ _ _ _ (lt_of_get ht)]
  by_cases e : i = j
  · subst e
    rw [ht] at hu; cases hu
    rw [if_pos rfl]
    exact ⟨t', rfl, hf, hp, hd, hn, hc, hs⟩
  · rw [if_neg e]
    exact ⟨u, hu, rfl, rfl, fun _ h => h, id, id, fun _ h => h⟩

/-- One running or closing record is replaced by one that has moved on, but not to the queue. -/
theorem Inv.put {s : State V} (h : Inv P s) {i : Nat} {t t' : Task V} (ht : s.tasks[i]? = some t) (hx : Ext s (s.put i t'))
    (hp : t'.parent = t.parent) (h1 : t.st ≠ .pending) (h2 : t.st ≠ .cancelled) (h3 : t'.st ≠ .pending) (h4 : t'.st ≠ .cancelled)
    (hg : Good P (s.put i t') i t') : Inv P (s.put i t') := by
  have hi := lt_of_get ht
  refine ⟨fun j u hu => ?_, h.qnodup, fun k hk => ?_, fun k u hu hpen => ?_, h.lnodup, fun k => ?_⟩
  · rw [getElem?_put _ _ _ _ hi] at hu
    by_cases e : i = j
    · subst e
      rw [if_pos rfl] at hu
      cases hu
      exact hg
    · rw [if_neg e] at hu
      exact hx.good (h.good j u hu)
  · obtain ⟨u, hu, hst⟩ := h.qmem k hk
    rw [getElem?_put _ _ _ _ hi]
    have e : i ≠ k := by
      intro e
      subst e
      rw [ht] at hu; cases hu
      rcases hst with hst | hst
      · exact h1 hst
      · exact h2 hst
    rw [if_neg e]
    exact ⟨u, hu, hst⟩
  · rw [getElem?_put _ _ _ _ hi] at hu
    by_cases e : i = k
    · subst e
      rw [if_pos rfl] at hu; cases hu
      exact absurd hpen h3
    · rw [if_neg e] at hu
      exact h.qpend k u hu hpen
  · show k ∈ s.log ↔ _
    rw [h.lmem k]
    constructor
    · rintro ⟨u, hu, ha, hb, hc⟩
      rw [getElem?_put _ _ _ _ hi]
      by_cases e : i = k
      · subst e
        rw [ht] at hu; cases hu
        rw [if_pos rfl]
        exact ⟨t', rfl, by rw [hp]; exact ha, h3, h4⟩
      · rw [if_neg e]
        exact ⟨u, hu, ha, hb, hc⟩
    · rintro ⟨u, hu, ha, hb, hc⟩
      rw [getElem?_put _ _ _ _ hi] at hu
      by_cases e : i = k
      · subst e
        rw [if_pos rfl] at hu; cases hu
        exact ⟨t, ht, by rw [← hp]; exact ha, h1, h2⟩
      · rw [if_neg e] at hu
        exact ⟨u, hu, ha, hb, hc⟩

theorem Good.subOk_of {s s' : State V} {i : Nat} {t t' : Task V} (hx : Ext s s') (hg : Good P s i t) (hf : t'.fn = t.fn) (hs : t'.subs = t.subs) :
    SubOk P s' i t' := by
  have := hx.subOk hg.sub
  unfold SubOk at this ⊢
  rw [hf, hs]; exact this

theorem Good.par_of {s s' : State V} {i : Nat} {t t' : Task V} (hx : Ext s s') (hg : Good P s i t) (hp : t'.parent = t.parent) :
    ∀ p, t'.parent = some p → ∃ u : Task V, s'.tasks[p]? = some u ∧ i ∈ u.subs := by
  rw [hp]; exact (hx.good hg).par

/-- A cancelled task belongs to a call that has ended, or is about to. -/
theorem Inv.not_gone {s : State V} (h : Inv P s) {i k : Nat} {t u : Task V} {got : List V} (ht : s.tasks[i]? = some t)
    (hr : t.st = .running got) (hk : k ∈ t.subs) (hu : s.tasks[k]? = some u) : u.st ≠ .cancelled := by
  intro hc
  have hst := (h.good k u hu).st
  unfold StOk at hst
  rw [hc] at hst
  obtain ⟨_, p, v, hp, hv, hcl⟩ := hst
  have hsub := (h.good i t ht).sub
  unfold SubOk at hsub
  cases hcode : P.code t.fn with
  | leaf => rw [hcode] at hsub; rw [hsub] at hk; cases hk
  | gather fs =>
    rw [hcode] at hsub
    obtain ⟨j, hj⟩ := List.getElem?_of_mem hk
    obtain ⟨u', hu', _, hpar, _⟩ := hsub.2 j k hj
    rw [hu] at hu'; cases hu'
    rw [hpar] at hp; cases hp
    rw [ht] at hv; cases hv
    rw [hr] at hcl
    exact hcl

theorem getElem?_start (s : State V) (i : Nat) (t' : Task V) (q l : List Nat) (j : Nat) (hi : i < s.tasks.length) :
    (State.mk (s.tasks.set i t') q l).tasks[j]? = if i = j then some t' else s.tasks[j]? := by
  simp [List.getElem?_set, hi]

theorem inv_start {s : State V} (h : Inv P s) {i : Nat} {q : List Nat} {t : Task V} (hq : s.queue = i :: q) (ht : s.tasks[i]? = some t)
    (hp : t.st = .pending) :
    Inv P { tasks := s.tasks.set i { t with st := .running [] }, queue := q, log := s.log ++ [i] } := by
  have hi := lt_of_get ht
  have hx : Ext s { tasks := s.tasks.set i { t with st := .running [] }, queue := q, log := s.log ++ [i] } := by
    refine ⟨fun j u hu => ?_⟩
    rw [getElem?_start _ _ _ _ _ _ hi]
    by_cases e : i = j
    · subst e
      rw [ht] at hu; cases hu
      rw [if_pos rfl]
      refine ⟨_, rfl, rfl, rfl, fun o ho => ?_, fun _ => by simp, fun hc => ?_, fun _ h => h⟩
      · rw [hp] at ho; cases ho
      · rw [hp] at hc; exact hc.elim
    · rw [if_neg e]
      exact ⟨u, hu, rfl, rfl, fun _ h => h, id, id, fun _ h => h⟩
  have hg := h.good i t ht
  have hst := hg.st
  unfold StOk at hst
  rw [hp] at hst
  have hnq : i ∉ q := by have := h.qnodup; rw [hq] at this; exact (List.nodup_cons.1 this).1
  refine ⟨fun j u hu => ?_, ?_, fun k hk => ?_, fun k u hu hpen => ?_, ?_, fun k => ?_⟩
  · rw [getElem?_start _ _ _ _ _ _ hi] at hu
    by_cases e : i = j
    · subst e
      rw [if_pos rfl] at hu; cases hu
      refine ⟨Good.subOk_of hx hg rfl rfl, hg.inc, ?_, Good.par_of hx hg rfl⟩
      unfold StOk
      simp only
      cases P.code t.fn with
      | leaf => trivial
      | gather fs => exact ⟨fun h => absurd rfl h, fun j v hv => (by simp at hv)⟩
    · rw [if_neg e] at hu
      exact hx.good (h.good j u hu)
  · have := h.qnodup; rw [hq] at this; exact (List.nodup_cons.1 this).2
  · obtain ⟨u, hu, hst⟩ := h.qmem k (by rw [hq]; exact List.mem_cons_of_mem _ hk)
    rw [getElem?_start _ _ _ _ _ _ hi]
    have e : i ≠ k := fun e => hnq (e ▸ hk)
    rw [if_neg e]
    exact ⟨u, hu, hst⟩
  · rw [getElem?_start _ _ _ _ _ _ hi] at hu
    by_cases e : i = k
    · subst e
      rw [if_pos rfl] at hu; cases hu
      cases hpen
    · rw [if_neg e] at hu
      have := h.qpend k u hu hpen
      rw [hq] at this
      rcases List.mem_cons.1 this with e' | hm
      · exact absurd e'.symm e
      · exact hm
  · show (s.log ++ [i]).Nodup
    rw [List.nodup_append]
    refine ⟨h.lnodup, by simp, ?_⟩
    intro a ha b hb
    simp only [List.mem_cons, List.not_mem_nil, or_false] at hb
    subst hb
    rintro rfl
    obtain ⟨u, hu, _, hn, _⟩ := (h.lmem a).1 ha
    rw [ht] at hu; cases hu
    exact hn hp
  · show k ∈ s.log ++ [i] ↔ _
    rw [List.mem_append, h.lmem k, getElem?_start _ _ _ _ _ _ hi]
    by_cases e : i = k
    · subst e
      rw [if_pos rfl]
      exact ⟨fun _ => ⟨_, rfl, hst.2, by simp, by simp⟩, fun _ => .inr (by simp)⟩
    · rw [if_neg e]
      constructor
      · rintro (h | h)
        · exact h
        · simp only [List.mem_cons, List.not_mem_nil, or_false] at h
          exact absurd h.symm e
      · exact .inl

theorem inv_drop {s : State V} (h : Inv P s) {i : Nat} {q : List Nat} {t : Task V} (hq : s.queue = i :: q) (ht : s.tasks[i]? = some t)
    (hp : t.st = .cancelled) : Inv P { s with queue := q } := by
  have hx : Ext s { s with queue := q } := ⟨fun j u hu => ⟨u, hu, rfl, rfl, fun _ h => h, id, id, fun _ h => h⟩⟩
  refine ⟨fun j u hu => hx.good (h.good j u hu), ?_, fun k hk => h.qmem k (by rw [hq]; exact List.mem_cons_of_mem _ hk),
    fun k u hu hpen => ?_, h.lnodup, h.lmem⟩
  · have := h.qnodup; rw [hq] at this; exact (List.nodup_cons.1 this).2
  · have := h.qpend k u hu hpen
    rw [hq] at this
    rcases List.mem_cons.1 this with e | hm
    · subst e
      change s.tasks[k]? = some u at hu
      rw [ht] at hu; cases hu
      rw [hp] at hpen; cases hpen
    · exact hm

theorem inv_leaf {s : State V} (h : Inv P s) {i : Nat} {t : Task V} {o : Out V} (ht : s.tasks[i]? = some t) (hr : t.st = .running [])
    (hc : P.code t.fn = .leaf) (ho : P.may t.fn o) : Inv P (s.put i { t with st := .done o }) := by
  have hx : Ext s (s.put i { t with st := .done o }) :=
    Ext.put ht rfl rfl (fun o' ho' => by rw [hr] at ho'; cases ho') (fun _ => by simp) (fun _ => trivial) (fun _ h => h)
  have hg := h.good i t ht
  refine h.put ht hx rfl (by rw [hr]; simp) (by rw [hr]; simp) (by simp) (by simp) ⟨Good.subOk_of hx hg rfl rfl, hg.inc, ?_, Good.par_of hx hg rfl⟩
  unfold StOk
  simp only
  rw [hc]
  exact ho

theorem inv_submit {s : State V} (h : Inv P s) {i : Nat} {t : Task V} {fs : List Nat} {f : Nat} (ht : s.tasks[i]? = some t)
    (hr : t.st = .running []) (hc : P.code t.fn = .gather fs) (hf : fs[t.subs.length]? = some f) :
    Inv P { s with tasks := s.tasks.set i { t with subs := t.subs ++ [s.tasks.length] } ++ [⟨f, some i, .pending, []⟩],
                   queue := s.queue ++ [s.tasks.length] } := by
  have hi := lt_of_get ht
  generalize hs' : ({ s with tasks := s.tasks.set i { t with subs := t.subs ++ [s.tasks.length] } ++ [⟨f, some i, .pending, []⟩], queue := s.queue ++ [s.tasks.length] } : State V) = s'
  have hget : ∀ j : Nat, s'.tasks[j]? = if i = j then some { t with subs := t.subs ++ [s.tasks.length] } else
      if j = s.tasks.length then some ⟨f, some i, .pending, []⟩ else s.tasks[j]? := by
    intro j
    subst hs'
    simp only [List.getElem?_append, List.length_set, List.getElem?_set]
    by_cases e : i = j
    · subst e; simp [hi]
    · simp only [e, if_false]
      by_cases hj : j < s.tasks.length
      · simp [hj, Nat.ne_of_lt hj]
      · simp only [hj, if_false]
        by_cases hj' : j = s.tasks.length
        · simp [hj']
        · have : j - s.tasks.length ≠ 0 := by omega
          rw [if_neg hj', List.getElem?_eq_none (by simp; omega), List.getElem?_eq_none (by omega)]
  have hnew : s.tasks[s.tasks.length]? = none := List.getElem?_eq_none (Nat.le_refl _)
  have hlt : ∀ j u, s.tasks[j]? = some u → j ≠ s.tasks.length := fun j u hu e => by rw [e, hnew] at hu; cases hu
  have hx : Ext s s' := by
    refine ⟨fun j u hu => ?_⟩
    rw [hget]
    by_cases e : i = j
    · subst e
      rw [ht] at hu; cases hu
      rw [if_pos rfl]
      exact ⟨_, rfl, rfl, rfl, fun _ h => h, id, id, fun k hk => by simp [hk]⟩
    · rw [if_neg e, if_neg (hlt j u hu)]
      exact ⟨u, hu, rfl, rfl, fun _ h => h, id, id, fun _ h => h⟩
  have hg := h.good i t ht
  have hsub := hg.sub
  unfold SubOk at hsub
  rw [hc] at hsub
  have hnewg : s'.tasks[s.tasks.length]? = some ⟨f, some i, .pending, []⟩ := by
    rw [hget, if_neg (by omega), if_pos rfl]
  refine ⟨fun j u hu => ?_, ?_, fun k hk => ?_, fun k u hu hpen => ?_, ?_, fun k => ?_⟩
  · rw [hget] at hu
    by_cases e : i = j
    · subst e
      rw [if_pos rfl] at hu; cases hu
      refine ⟨?_, ?_, ?_, Good.par_of hx hg rfl⟩
      · unfold SubOk
        simp only
        rw [hc]
        have hl := (List.getElem?_eq_some_iff.1 hf).1
        refine ⟨by simp; omega, fun j k hk => ?_⟩
        rw [List.getElem?_append] at hk
        split at hk
        · obtain ⟨u, hu, hik, hpar, hfj⟩ := hsub.2 j k hk
          obtain ⟨u', hu', h1, h2, _⟩ := hx.ex k u hu
          exact ⟨u', hu', hik, h2.trans hpar, by rw [h1]; exact hfj⟩
        · rename_i hj
          have hj0 : j - t.subs.length = 0 := by
            cases hd : j - t.subs.length with
            | zero => rfl
            | succ n => rw [hd] at hk; simp at hk
          rw [hj0] at hk
          simp only [List.getElem?_cons_zero, Option.some.injEq] at hk
          subst hk
          have hj' : j = t.subs.length := by omega
          subst hj'
          exact ⟨_, hnewg, hi, rfl, hf⟩
      · show (t.subs ++ [s.tasks.length]).Pairwise (· < ·)
        rw [List.pairwise_append]
        refine ⟨hg.inc, by simp, fun a ha b hb => ?_⟩
        simp only [List.mem_cons, List.not_mem_nil, or_false] at hb
        subst hb
        obtain ⟨j, hj⟩ := List.getElem?_of_mem ha
        obtain ⟨u, hu, _⟩ := hsub.2 j a hj
        exact lt_of_get hu
      · unfold StOk
        simp only [hr, hc]
        exact ⟨fun h => absurd rfl h, fun j v hv => (by simp at hv)⟩
    · rw [if_neg e] at hu
      by_cases e' : j = s.tasks.length
      · rw [if_pos e'] at hu
        cases hu
        refine ⟨?_, List.Pairwise.nil, ⟨rfl, rfl⟩, fun p hp => ?_⟩
        · unfold SubOk
          cases P.code f with
          | leaf => rfl
          | gather fs => exact ⟨by simp, fun j k hk => (by simp at hk)⟩
        · cases hp
          rw [hget, if_pos rfl]
          exact ⟨_, rfl, by simp [e']⟩
      · rw [if_neg e'] at hu
        exact hx.good (h.good j u hu)
  · subst hs'
    show (s.queue ++ [s.tasks.length]).Nodup
    rw [List.nodup_append]
    refine ⟨h.qnodup, by simp, fun a ha b hb => ?_⟩
    simp only [List.mem_cons, List.not_mem_nil, or_false] at hb
    subst hb
    obtain ⟨u, hu, _⟩ := h.qmem a ha
    exact hlt a u hu
  · have hk' : k ∈ s.queue ++ [s.tasks.length] := by subst hs'; exact hk
    rcases List.mem_append.1 hk' with hk' | hk'
    · obtain ⟨u, hu, hst⟩ := h.qmem k hk'
      have e : i ≠ k := by
        rintro rfl
        rw [ht] at hu; cases hu
        rw [hr] at hst; simp at hst
      rw [hget, if_neg e, if_neg (hlt k u hu)]
      exact ⟨u, hu, hst⟩
    · simp only [List.mem_cons, List.not_mem_nil, or_false] at hk'
      subst hk'
      exact ⟨_, hnewg, .inl rfl⟩
  · have hq : s'.queue = s.queue ++ [s.tasks.length] := by subst hs'; rfl
    rw [hq]
    rw [hget] at hu
    by_cases e : i = k
    · subst e
      rw [if_pos rfl] at hu; cases hu
      simp only [hr] at hpen; cases hpen
    · rw [if_neg e] at hu
      by_cases e' : k = s.tasks.length
      · simp [e']
      · rw [if_neg e'] at hu
        exact List.mem_append_left _ (h.qpend k u hu hpen)
  · subst hs'; exact h.lnodup
  · have hl : s'.log = s.log := by subst hs'; rfl
    rw [hl, h.lmem k, hget]
    by_cases e : i = k
    · subst e
      rw [if_pos rfl, ht]
      constructor
      · rintro ⟨u, hu, ha, hb, hc⟩
        cases hu
        exact ⟨_, rfl, ha, hb, hc⟩
      · rintro ⟨u, hu, ha, hb, hc⟩
        cases hu
        exact ⟨_, rfl, ha, hb, hc⟩
    · rw [if_neg e]
      by_cases e' : k = s.tasks.length
      · rw [if_pos e', e', hnew]
        constructor
        · rintro ⟨u, hu, _⟩; cases hu
        · rintro ⟨u, hu, _, hb, _⟩
          cases hu
          exact absurd rfl hb
      · rw [if_neg e']

theorem running_gather {s : State V} (h : Inv P s) {i : Nat} {t : Task V} {fs : List Nat} {got : List V} (ht : s.tasks[i]? = some t)
    (hr : t.st = .running got) (hc : P.code t.fn = .gather fs) :
    (got ≠ [] → t.subs.length = fs.length) ∧ ∀ (j : Nat) v, got[j]? = some v → ∃ k, t.subs[j]? = some k ∧ Res s k (.ok v) := by
  have := (h.good i t ht).st
  unfold StOk at this
  simp only [hr, hc] at this
  exact this

theorem inv_collect {s : State V} (h : Inv P s) {i k : Nat} {t u : Task V} {fs : List Nat} {got : List V} {v : V}
    (ht : s.tasks[i]? = some t) (hr : t.st = .running got) (hc : P.code t.fn = .gather fs) (hall : t.subs.length = fs.length)
    (hk : t.subs[got.length]? = some k) (hu : s.tasks[k]? = some u) (hd : u.st = .done (.ok v)) :
    Inv P (s.put i { t with st := .running (got ++ [v]) }) := by
  have hx : Ext s (s.put i { t with st := .running (got ++ [v]) }) :=
    Ext.put ht rfl rfl (fun o' ho' => by rw [hr] at ho'; cases ho') (fun _ => by simp) (fun hc => by rw [hr] at hc; exact hc) (fun _ h => h)
  have hg := h.good i t ht
  refine h.put ht hx rfl (by rw [hr]; simp) (by rw [hr]; simp) (by simp) (by simp) ⟨Good.subOk_of hx hg rfl rfl, hg.inc, ?_, Good.par_of hx hg rfl⟩
  unfold StOk
  simp only [hc]
  refine ⟨fun _ => hall, fun j x hj => ?_⟩
  rw [List.getElem?_append] at hj
  split at hj
  · obtain ⟨k, hk, hres⟩ := (running_gather h ht hr hc).2 j x hj
    exact ⟨k, hk, hx.res hres⟩
  · rename_i hlt
    have hj0 : j - got.length = 0 := by
      cases hd : j - got.length with
      | zero => rfl
      | succ n => rw [hd] at hj; simp at hj
    rw [hj0] at hj
    simp only [List.getElem?_cons_zero, Option.some.injEq] at hj
    subst hj
    have : j = got.length := by omega
    subst this
    exact ⟨k, hk, hx.res ⟨u, hu, hd⟩⟩

theorem inv_close {s : State V} (h : Inv P s) {i : Nat} {t : Task V} {fs : List Nat} {got : List V} {o : Out V}
    (ht : s.tasks[i]? = some t) (hr : t.st = .running got) (hc : P.code t.fn = .gather fs) (hall : t.subs.length = fs.length)
    (hj : Just P s t.subs o) : Inv P (s.put i { t with st := .closing o t.subs }) := by
  have hx : Ext s (s.put i { t with st := .closing o t.subs }) :=
    Ext.put ht rfl rfl (fun o' ho' => by rw [hr] at ho'; cases ho') (fun _ => by simp) (fun _ => trivial) (fun _ h => h)
  have hg := h.good i t ht
  refine h.put ht hx rfl (by rw [hr]; simp) (by rw [hr]; simp) (by simp) (by simp) ⟨Good.subOk_of hx hg rfl rfl, hg.inc, ?_, Good.par_of hx hg rfl⟩
  unfold StOk
  exact ⟨fs, hc, hall, hx.just hj, fun _ h => h, fun k hk hn => absurd hk hn⟩

theorem closing_ok {s : State V} (h : Inv P s) {i : Nat} {t : Task V} {o : Out V} {rest : List Nat} (ht : s.tasks[i]? = some t)
    (hr : t.st = .closing o rest) : ∃ fs, P.code t.fn = .gather fs ∧ t.subs.length = fs.length ∧ Just P s t.subs o ∧
      (∀ k ∈ rest, k ∈ t.subs) ∧ ∀ k ∈ t.subs, k ∉ rest → Settled s k := by
  have := (h.good i t ht).st
  unfold StOk at this
  simp only [hr] at this
  exact this

theorem inv_finish {s : State V} (h : Inv P s) {i : Nat} {t : Task V} {o : Out V} (ht : s.tasks[i]? = some t)
    (hr : t.st = .closing o []) : Inv P (s.put i { t with st := .done o }) := by
  have hx : Ext s (s.put i { t with st := .done o }) :=
    Ext.put ht rfl rfl (fun o' ho' => by rw [hr] at ho'; cases ho') (fun _ => by simp) (fun _ => trivial) (fun _ h => h)
  have hg := h.good i t ht
  refine h.put ht hx rfl (by rw [hr]; simp) (by rw [hr]; simp) (by simp) (by simp) ⟨Good.subOk_of hx hg rfl rfl, hg.inc, ?_, Good.par_of hx hg rfl⟩
  obtain ⟨fs, hc, hl, hj, _, hs⟩ := closing_ok h ht hr
  unfold StOk
  simp only [hc]
  exact ⟨hl, hx.just hj, fun k hk => hx.settled (hs k hk (by simp))⟩

theorem sub_of_mem {s : State V} (h : Inv P s) {i k : Nat} {t : Task V} (ht : s.tasks[i]? = some t) (hk : k ∈ t.subs) :
    ∃ u : Task V, s.tasks[k]? = some u ∧ i < k ∧ u.parent = some i := by
  have hsub := (h.good i t ht).sub
  unfold SubOk at hsub
  cases hcode : P.code t.fn with
  | leaf => rw [hcode] at hsub; rw [hsub] at hk; cases hk
  | gather fs =>
    rw [hcode] at hsub
    obtain ⟨j, hj⟩ := List.getElem?_of_mem hk
    obtain ⟨u, hu, h1, h2, _⟩ := hsub.2 j k hj
    exact ⟨u, hu, h1, h2⟩

/-- A task that is not taken is cancelled by its owner. -/
theorem inv_cancelled {s : State V} (h : Inv P s) {i k : Nat} {t u : Task V} (ht : s.tasks[i]? = some t) (hcl : t.st.closed)
    (hu : s.tasks[k]? = some u) (hpar : u.parent = some i) (hp : u.st = .pending) (hik : i ≠ k) :
    Ext s (s.put k { u with st := .cancelled }) ∧ Inv P (s.put k { u with st := .cancelled }) := by
  have hk := lt_of_get hu
  have hx : Ext s (s.put k { u with st := .cancelled }) :=
    Ext.put hu rfl rfl (fun o' ho' => by rw [hp] at ho'; cases ho') (fun _ => by simp) (fun hc => by rw [hp] at hc; exact hc.elim) (fun _ h => h)
  have hg := h.good k u hu
  refine ⟨hx, fun j v hv => ?_, h.qnodup, fun j hj => ?_, fun j v hv hpen => ?_, h.lnodup, fun j => ?_⟩
  · rw [getElem?_put _ _ _ _ hk] at hv
    by_cases e : k = j
    · subst e
      rw [if_pos rfl] at hv; cases hv
      refine ⟨Good.subOk_of hx hg rfl rfl, hg.inc, ?_, Good.par_of hx hg rfl⟩
      have hst := hg.st
      unfold StOk at hst ⊢
      rw [hp] at hst
      refine ⟨hst.1, i, t, hpar, ?_, hcl⟩
      rw [getElem?_put _ _ _ _ hk, if_neg (Ne.symm hik)]
      exact ht
    · rw [if_neg e] at hv
      exact hx.good (h.good j v hv)
  · obtain ⟨v, hv, hst⟩ := h.qmem j hj
    rw [getElem?_put _ _ _ _ hk]
    by_cases e : k = j
    · rw [if_pos e]; exact ⟨_, rfl, .inr rfl⟩
    · rw [if_neg e]; exact ⟨v, hv, hst⟩
  · rw [getElem?_put _ _ _ _ hk] at hv
    by_cases e : k = j
    · rw [if_pos e] at hv; cases hv; cases hpen
    · rw [if_neg e] at hv; exact h.qpend j v hv hpen
  · show j ∈ s.log ↔ _
    rw [h.lmem j, getElem?_put _ _ _ _ hk]
    by_cases e : k = j
    · subst e
      rw [if_pos rfl]
      constructor
      · rintro ⟨v, hv, _, hb, _⟩
        rw [hu] at hv; cases hv
        exact absurd hp hb
      · rintro ⟨v, hv, _, _, hc⟩
        cases hv
        exact absurd rfl hc
    · rw [if_neg e]

theorem inv_move_on {s : State V} (h : Inv P s) {i k : Nat} {t : Task V} {o : Out V} {rest : List Nat} (ht : s.tasks[i]? = some t)
    (hr : t.st = .closing o (k :: rest)) (hk : Settled s k) : Inv P (s.put i { t with st := .closing o rest }) := by
  have hx : Ext s (s.put i { t with st := .closing o rest }) :=
    Ext.put ht rfl rfl (fun o' ho' => by rw [hr] at ho'; cases ho') (fun _ => by simp) (fun _ => trivial) (fun _ h => h)
  have hg := h.good i t ht
  refine h.put ht hx rfl (by rw [hr]; simp) (by rw [hr]; simp) (by simp) (by simp) ⟨Good.subOk_of hx hg rfl rfl, hg.inc, ?_, Good.par_of hx hg rfl⟩
  obtain ⟨fs, hc, hl, hj, h1, hs⟩ := closing_ok h ht hr
  unfold StOk
  refine ⟨fs, hc, hl, hx.just hj, fun j hj => h1 j (List.mem_cons_of_mem _ hj), fun j hj hn => ?_⟩
  by_cases e : j = k
  · subst e; exact hx.settled hk
  · exact hx.settled (hs j hj (by simp [e, hn]))

theorem inv_cancel {s : State V} (h : Inv P s) {i k : Nat} {t u : Task V} {o : Out V} {rest : List Nat} (ht : s.tasks[i]? = some t)
    (hr : t.st = .closing o (k :: rest)) (hu : s.tasks[k]? = some u) :
    Inv P ((s.put k u.cancel).put i { t with st := .closing o rest }) := by
  obtain ⟨fs, hc, hl, hj, h1, hs⟩ := closing_ok h ht hr
  obtain ⟨u', hu', hik, hpar⟩ := sub_of_mem h ht (h1 k (by simp))
  rw [hu] at hu'; cases hu'
  have hne : i ≠ k := by omega
  by_cases hp : u.st = .pending
  · have hcl : t.st.closed := by rw [hr]; trivial
    obtain ⟨hx, hinv⟩ := inv_cancelled h ht hcl hu hpar hp hne
    have e : u.cancel = { u with st := .cancelled } := by unfold Task.cancel; rw [hp]
    rw [e]
    refine inv_move_on hinv ?_ hr ⟨{ u with st := .cancelled }, ?_, ?_⟩
    · rw [getElem?_put _ _ _ _ (lt_of_get hu), if_neg (Ne.symm hne)]; exact ht
    · rw [getElem?_put _ _ _ _ (lt_of_get hu), if_pos rfl]
    · simp
  · have e : u.cancel = u := by
      unfold Task.cancel
      split
      · rename_i hp'; exact absurd hp' hp
      · rfl
    have e' : s.put k u = s := by
      unfold State.put
      have : s.tasks.set k u = s.tasks := by
        obtain ⟨hk, hg⟩ := List.getElem?_eq_some_iff.1 hu
        subst hg
        exact List.set_getElem_self hk
      rw [this]
    rw [e, e']
    exact inv_move_on h ht hr ⟨u, hu, hp⟩

theorem inv_step {s s' : State V} (h : Inv P s) (hs : Step P w s s') : Inv P s' := by
  cases hs with
  | start hq _ ht hp => exact inv_start h hq ht hp
  | drop hq _ ht hp => exact inv_drop h hq ht hp
  | leaf ht hr hc ho => exact inv_leaf h ht hr hc ho
  | submit ht hr hc hf => exact inv_submit h ht hr hc hf
  | collect ht hr hc hall hk hu hd => exact inv_collect h ht hr hc hall hk hu hd
  | @fail i k t u fs got e ht hr hc hall hk hu hd =>
    refine inv_close h ht hr hc hall ⟨got.length, k, hk, ⟨u, hu, hd⟩, fun j' hj' => ?_⟩
    obtain ⟨k', hk', hres⟩ := (running_gather h ht hr hc).2 j' _ (List.getElem?_eq_getElem hj')
    exact ⟨k', _, hk', hres⟩
  | gone ht hr hc hall hk hu hd => exact absurd hd (h.not_gone ht hr (List.mem_of_getElem? hk) hu)
  | @ready i t fs got ht hr hc hall hg =>
    exact inv_close h ht hr hc hall ⟨got, rfl, by omega, (running_gather h ht hr hc).2⟩
  | cancel ht hr hu => exact inv_cancel h ht hr hu
  | finish ht hr => exact inv_finish h ht hr

theorem inv_steps {n : Nat} {s s' : State V} (h : Inv P s) (hs : Steps P w n s s') : Inv P s' := by
  induction hs with
  | refl => exact h
  | tail _ h' ih => exact inv_step (ih h) h'

theorem inv_reachable {fns : List Nat} {s : State V} (h : Reachable P w fns s) : Inv P s := by
  obtain ⟨n, hn⟩ := h
  exact inv_steps (inv_init fns) hn

end Aiootp.Pool
