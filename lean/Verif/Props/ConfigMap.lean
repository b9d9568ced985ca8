import Verif.Model.ConfigMap

/-
Property C68: entries of configuration registries are permanent and know their ids.
-/

namespace Aiootp.ConfigMap

variable {W : World}

/-! ### dictionaries -/

theorem find_nil (k : Key) : find [] k = none := rfl

theorem find_cons (e : Key × Nat) (es : List (Key × Nat)) (k : Key) :
    find (e :: es) k = if e.1 = k then some e.2 else find es k := by
  unfold find
  rw [List.find?_cons]
  by_cases h : e.1 = k <;> simp [h]

theorem find_append (es fs : List (Key × Nat)) (k : Key) : find (es ++ fs) k = (find es k).or (find fs k) := by
  induction es with
  | nil => simp [find_nil]
  | cons e es ih =>
    rw [List.cons_append, find_cons, find_cons, ih]
    split <;> simp

theorem find_map (es : List (Key × Nat)) (k k' : Key) (c : Nat) :
    find (es.map (fun e => if e.1 = k then (k, c) else e)) k' = if k' = k then (find es k).map (fun _ => c) else find es k' := by
  induction es with
  | nil => simp [find_nil]
  | cons e es ih =>
    rw [List.map_cons, find_cons, ih, find_cons, find_cons]
    by_cases h : e.1 = k
    · by_cases h' : k' = k
      · subst h'; simp [h]
      · have : ¬ k = k' := fun e => h' e.symm
        simp [h, h', this]
    · by_cases h' : k' = k
      · subst h'; simp [h]
      · simp [h, h']

theorem find_put (es : List (Key × Nat)) (k k' : Key) (c : Nat) :
    find (put es k c) k' = if k' = k then some c else find es k' := by
  unfold put
  split
  · rename_i h
    rw [find_map]
    split
    · obtain ⟨d, hd⟩ := Option.isSome_iff_exists.1 h
      rw [hd]; rfl
    · rfl
  · rename_i h
    rw [find_append, find_cons, find_nil]
    by_cases e : k' = k
    · subst e
      cases hf : find es k' with
      | none => simp
      | some d => rw [hf] at h; simp at h
    · have : ¬ k = k' := fun h => e h.symm
      simp [this, e]

theorem find_mem {es : List (Key × Nat)} {k : Key} : (find es k).isSome = true ↔ k ∈ es.map (·.1) := by
  induction es with
  | nil => simp [find_nil]
  | cons e es ih =>
    rw [find_cons, List.map_cons, List.mem_cons]
    by_cases h : e.1 = k
    · simp [h]
    · have : ¬ k = e.1 := fun x => h x.symm
      simp [h, ih, this]

theorem put_keys (es : List (Key × Nat)) (k : Key) (c : Nat) :
    (put es k c).map (·.1) = if k ∈ es.map (·.1) then es.map (·.1) else es.map (·.1) ++ [k] := by
  unfold put
  by_cases h : (find es k).isSome = true
  · rw [if_pos h, if_pos (find_mem.1 h), List.map_map]
    apply List.map_congr_left
    intro e _
    simp only [Function.comp]
    split
    · rename_i h; exact h.symm
    · rfl
  · rw [if_neg h, if_neg (fun hm => h (find_mem.2 hm)), List.map_append]
    rfl

/-! ### one call -/

/-- What a call does to the entries and to the ids of configs. -/
theorem set_cases (s : State) (k : Key) (c : Nat) :
    ((s.set W k c).2.entries = s.entries ∨
      ((s.set W k c).1 = .ok () ∧ (s.set W k c).2.entries = put s.entries k c ∧ (s.set W k c).2.cid c = some k ∧
        W.kind c = .config true ∧ (find s.entries k = none ∨ find s.entries k = some c))) ∧
    (∀ d x, s.cid d = some x → (s.set W k c).2.cid d = some x) ∧
    ((∃ e, (s.set W k c).1 = .error e) → (s.set W k c).2.entries = s.entries) := by
  unfold State.set
  cases hk : W.kind c with
  | none => simp
  | config ofType =>
    simp only
    cases hs : s.setConfigId c k with
    | error e => simp
    | ok s' =>
      simp only
      have hs' : s'.entries = s.entries ∧ s'.typeSlot = s.typeSlot ∧ s'.cid c = some k ∧ (∀ d x, s.cid d = some x → s'.cid d = some x) := by
        unfold State.setConfigId at hs
        cases hc : s.cid c with
        | none =>
          rw [hc] at hs
          cases hs
          refine ⟨rfl, rfl, by simp, ?_⟩
          intro d x hx
          by_cases e : d = c
          · subst e; rw [hc] at hx; cases hx
          · simp [e, hx]
        | some k' =>
          rw [hc] at hs
          simp only at hs
          split at hs
          · rename_i e
            cases hs
            exact ⟨rfl, rfl, by rw [hc, e], fun _ _ h => h⟩
          · cases hs
      obtain ⟨e1, e2, e3, e4⟩ := hs'
      by_cases h1 : (s'.typeSlot.isSome || !ofType) = true
      · rw [if_pos h1]
        exact ⟨.inl e1, e4, fun _ => e1⟩
      · rw [if_neg h1]
        by_cases h2 : (s'.contains W k && s'.get k ≠ some c) = true
        · rw [if_pos h2]
          exact ⟨.inl e1, e4, fun _ => e1⟩
        · rw [if_neg h2]
          have hty : ofType = true := by
            cases ofType with
            | true => rfl
            | false => simp at h1
          subst hty
          have hfree : (k ≠ .configType → k ≠ .dict → k ≠ .cls → find s.entries k = none ∨ find s.entries k = some c) := by
            intro n1 n2 n3
            have hg : s'.get k = find s'.entries k := by
              unfold State.get
              cases k <;> first | rfl | contradiction
            cases hf : find s.entries k with
            | none => exact .inl rfl
            | some d =>
              right
              have hc : s'.contains W k = true := by
                unfold State.contains
                rw [e1, hf]; simp
              rw [hc] at h2
              simp only [Bool.true_and, decide_eq_true_eq, Decidable.not_not, ne_eq] at h2
              rw [hg, e1, hf] at h2
              exact h2
          cases k with
          | configType => exact ⟨.inl e1, e4, fun _ => e1⟩
          | dict => exact ⟨.inl e1, e4, fun _ => e1⟩
          | cls => exact ⟨.inl e1, e4, fun _ => e1⟩
          | slotsSet =>
            refine ⟨.inr ⟨rfl, by rw [← e1], e3, rfl, hfree (by simp) (by simp) (by simp)⟩, e4, fun ⟨e, h⟩ => (by cases h)⟩
          | name n =>
            refine ⟨.inr ⟨rfl, by rw [← e1], e3, rfl, hfree (by simp) (by simp) (by simp)⟩, e4, fun ⟨e, h⟩ => (by cases h)⟩
          | other n =>
            refine ⟨.inr ⟨rfl, by rw [← e1], e3, rfl, hfree (by simp) (by simp) (by simp)⟩, e4, fun ⟨e, h⟩ => (by cases h)⟩

theorem mark_keeps (s : State) (c : Nat) (k : Key) :
    (s.exec W (.mark c k)).2.entries = s.entries ∧ ∀ d x, s.cid d = some x → (s.exec W (.mark c k)).2.cid d = some x := by
  unfold State.exec State.setConfigId
  simp only
  cases hc : s.cid c with
  | none =>
    refine ⟨rfl, ?_⟩
    intro d x hx
    by_cases e : d = c
    · subst e; rw [hc] at hx; cases hx
    · simp [e, hx]
  | some k' =>
    simp only
    by_cases e : k' = k
    · rw [if_pos e]; exact ⟨rfl, fun _ _ h => h⟩
    · rw [if_neg e]; exact ⟨rfl, fun _ _ h => h⟩

/-! ### C68 -/

/-- Config ids are permanent: no call changes or removes the id of a config that has one. -/
theorem cid_kept (s : State) (op : Op) (d : Nat) (x : Key) (h : s.cid d = some x) : (s.exec W op).2.cid d = some x := by
  cases op with
  | set k c => exact (set_cases s k c).2.1 d x h
  | del k => exact h
  | mark c k => exact (mark_keeps s c k).2 d x h
  | clear => exact h

/-- C68, the part that is true: whatever is called on the map and on configs, except `clear`, an entry stays what it is. -/
theorem C68_permanent_partial (s : State) (ops : List Op) (hops : Op.clear ∉ ops) (k : Key) (c : Nat)
    (h : find s.entries k = some c) : find (s.run W ops).entries k = some c := by
  induction ops generalizing s with
  | nil => exact h
  | cons op ops ih =>
    refine ih _ (fun hm => hops (by simp [hm])) ?_
    cases op with
    | set j d =>
      show find (s.set W j d).2.entries k = some c
      rcases (set_cases (W := W) s j d).1 with e | ⟨_, e, _, _, hf⟩
      · rw [e]; exact h
      · rw [e, find_put]
        by_cases e : k = j
        · subst e
          rw [if_pos rfl]
          rw [h] at hf
          rcases hf with hf | hf
          · cases hf
          · exact hf.symm
        · rw [if_neg e]; exact h
    | del j => exact h
    | mark d j => rw [(mark_keeps (W := W) s d j).1]; exact h
    | clear => exact absurd (by simp) hops

/-- Every entry is a config of the declared type that knows the id it is stored under, and ids are listed once. -/
structure Registered (W : World) (s : State) : Prop where
  known : ∀ k c, find s.entries k = some c → s.cid c = some k ∧ W.kind c = .config true
  once : s.keys.Nodup

theorem registered_exec {s : State} (h : Registered W s) (op : Op) : Registered W (s.exec W op).2 := by
  have same : (s.exec W op).2.entries = s.entries → Registered W (s.exec W op).2 := by
    intro e
    refine ⟨fun k c hf => ?_, by unfold State.keys; rw [e]; exact h.once⟩
    rw [e] at hf
    exact ⟨cid_kept s op _ _ (h.known k c hf).1, (h.known k c hf).2⟩
  cases op with
  | set k c =>
    rcases (set_cases (W := W) s k c).1 with e | ⟨_, e, hc, ht, hf⟩
    · exact same e
    · refine ⟨fun j d hd => ?_, ?_⟩
      · change find (s.set W k c).2.entries j = some d at hd
        rw [e, find_put] at hd
        by_cases ej : j = k
        · subst ej
          rw [if_pos rfl] at hd
          cases hd
          exact ⟨hc, ht⟩
        · rw [if_neg ej] at hd
          exact ⟨cid_kept s (.set k c) _ _ (h.known j d hd).1, (h.known j d hd).2⟩
      · show ((s.set W k c).2.entries.map (·.1)).Nodup
        rw [e, put_keys]
        split
        · exact h.once
        · rename_i hn
          rw [List.nodup_append]
          exact ⟨h.once, by simp, by
            intro a ha b hb
            simp only [List.mem_cons, List.not_mem_nil, or_false] at hb
            subst hb
            exact fun e => hn (e ▸ ha)⟩
  | del k => exact same rfl
  | mark c k => exact same (mark_keeps s c k).1
  | clear => exact ⟨fun k c hf => (by cases hf), List.nodup_nil⟩

/-- C68. After every history of calls on a map and on configs, each config that the map gives for an id is of the type of the
map and knows that id; so that no config is stored under two ids. Every id is listed once. -/
theorem C68_known (cid : Nat → Option Key) (ops : List Op) :
    Registered W ((State.new cid).run W ops) ∧
    ∀ j k c, find ((State.new cid).run W ops).entries j = some c → find ((State.new cid).run W ops).entries k = some c → j = k := by
  have gen : ∀ (ops : List Op) (s : State), Registered W s → Registered W (s.run W ops) := by
    intro ops
    induction ops with
    | nil => intro s h; exact h
    | cons op ops ih => intro s h; exact ih _ (registered_exec h op)
  have hr := gen ops (State.new cid) ⟨fun k c hf => (by cases hf), List.nodup_nil⟩
  refine ⟨hr, fun j k c hj hk => ?_⟩
  have := (hr.known j c hj).1.symm.trans (hr.known k c hk).1
  exact Option.some.inj this

/-- C68. A call that raises leaves all entries as they were, except `clear`. -/
theorem C68_raising_keeps (s : State) (op : Op) (hop : op ≠ .clear) (e : Err) (h : (s.exec W op).1 = .error e) :
    (s.exec W op).2.entries = s.entries := by
  cases op with
  | set k c => exact (set_cases s k c).2.2 ⟨e, h⟩
  | del k => rfl
  | mark c k => exact (mark_keeps s c k).1
  | clear => exact absurd rfl hop

/-- C68. What is stored is found: after `map[k] = config` has returned, `map[k]` is that config, whatever else is called, except
`clear`. -/
theorem C68_found (s : State) (k : Key) (c : Nat) (ops : List Op) (hops : Op.clear ∉ ops) (hk : k ≠ .configType)
    (h : (s.set W k c).1 = .ok ()) : ((s.set W k c).2.run W ops).get k = some c := by
  have hset : find (s.set W k c).2.entries k = some c ∧ k ≠ .dict ∧ k ≠ .cls := by
    have h0 := h
    unfold State.set at h ⊢
    cases hkd : W.kind c with
    | none => rw [hkd] at h; cases h
    | config ofType =>
      rw [hkd] at h
      simp only at h ⊢
      cases hs : s.setConfigId c k with
      | error e => rw [hs] at h; cases h
      | ok s' =>
        rw [hs] at h
        simp only at h ⊢
        split at h
        · cases h
        · rename_i h1
          rw [if_neg h1]
          split at h
          · cases h
          · rename_i h2
            rw [if_neg h2]
            cases k with
            | configType => exact absurd rfl hk
            | dict => cases h
            | cls => cases h
            | slotsSet => exact ⟨by rw [find_put, if_pos rfl], by simp, by simp⟩
            | name n => exact ⟨by rw [find_put, if_pos rfl], by simp, by simp⟩
            | other n => exact ⟨by rw [find_put, if_pos rfl], by simp, by simp⟩
  have hp := C68_permanent_partial (W := W) _ ops hops k c hset.1
  have hg : ((s.set W k c).2.run W ops).get k = find ((s.set W k c).2.run W ops).entries k := by
    unfold State.get
    cases k with
    | configType => exact absurd rfl hk
    | dict => exact absurd rfl hset.2.1
    | cls => exact absurd rfl hset.2.2
    | slotsSet => rfl
    | name n => rfl
    | other n => rfl
  rw [hg, hp]

/-- No config replaces the declared type, as long as none is stored under `_slots_set`. -/
theorem type_kept (s : State) (ops : List Op) (hops : ∀ c, Op.set .slotsSet c ∉ ops) (ht : s.typeSlot = none) (hf : find s.entries .slotsSet = none) :
    (s.run W ops).typeSlot = none ∧ find (s.run W ops).entries .slotsSet = none := by
  induction ops generalizing s with
  | nil => exact ⟨ht, hf⟩
  | cons op ops ih =>
    have key : (s.exec W op).2.typeSlot = none ∧ find (s.exec W op).2.entries .slotsSet = none := by
      cases op with
      | set k c =>
        constructor
        · show (s.set W k c).2.typeSlot = none
          unfold State.set
          cases W.kind c with
          | none => exact ht
          | config t =>
            simp only
            cases hs : s.setConfigId c k with
            | error e => exact ht
            | ok s' =>
              have hs' : s'.typeSlot = none ∧ s'.entries = s.entries := by
                unfold State.setConfigId at hs
                cases hc : s.cid c with
                | none => rw [hc] at hs; cases hs; exact ⟨ht, rfl⟩
                | some k' =>
                  rw [hc] at hs
                  simp only at hs
                  split at hs
                  · cases hs; exact ⟨ht, rfl⟩
                  · cases hs
              simp only
              split
              · exact hs'.1
              · split
                · exact hs'.1
                · rename_i h2
                  cases k with
                  | configType =>
                    exfalso
                    apply h2
                    simp [State.contains, State.get, State.hasAttr, hs'.1, hs'.2, hf]
                  | dict => exact hs'.1
                  | cls => exact hs'.1
                  | slotsSet => exact hs'.1
                  | name n => exact hs'.1
                  | other n => exact hs'.1
        · show find (s.set W k c).2.entries .slotsSet = none
          rcases (set_cases (W := W) s k c).1 with e | ⟨_, e, _⟩
          · rw [e]; exact hf
          · rw [e, find_put]
            have : ¬ Key.slotsSet = k := fun e => hops c (by rw [e]; simp)
            rw [if_neg this]; exact hf
      | del k => exact ⟨ht, hf⟩
      | mark c k =>
        refine ⟨?_, by rw [(mark_keeps (W := W) s c k).1]; exact hf⟩
        unfold State.exec State.setConfigId
        simp only
        cases s.cid c with
        | none => exact ht
        | some k' =>
          simp only
          by_cases e : k' = k
          · rw [if_pos e]; exact ht
          · rw [if_neg e]; exact ht
      | clear => exact ⟨ht, rfl⟩
    exact ih _ (fun c hm => hops c (by simp [hm])) key.1 key.2

/-- How `map[k] = config` ends, for a map with the items `items`, if configs have the ids `cid`. -/
inductive SetEnds (W : World) (items : Key → Option Nat) (cid : Nat → Option Key) (k : Key) (c : Nat) : Except Err Unit → Prop
  | noConfig (h : W.kind c = .none) : SetEnds W items cid k c (.error .attribute)
  | otherId (h : W.kind c ≠ .none) (j : Key) (hj : cid c = some j) (hne : j ≠ k) : SetEnds W items cid k c (.error .value)
  | otherType (h : W.kind c = .config false) (hid : cid c = none ∨ cid c = some k) : SetEnds W items cid k c (.error .type)
  | cls (h : W.kind c = .config true) (hid : cid c = none ∨ cid c = some k) (hk : k = .cls) : SetEnds W items cid k c (.error .type)
  | taken (h : W.kind c = .config true) (hid : cid c = none ∨ cid c = some k) (hk : k ≠ .cls)
      (ht : k = .configType ∨ k = .dict ∨ ∃ d, items k = some d ∧ d ≠ c) : SetEnds W items cid k c (.error .permission)
  | stored (h : W.kind c = .config true) (hid : cid c = none ∨ cid c = some k) (hk : k ≠ .cls ∧ k ≠ .configType ∧ k ≠ .dict)
      (ht : items k = none ∨ items k = some c) : SetEnds W items cid k c (.ok ())

/-- Entries are never stored under the names of the slots. -/
theorem special_free (cid : Nat → Option Key) (ops : List Op) (k : Key) (hk : k = .cls ∨ k = .configType ∨ k = .dict) :
    find ((State.new cid).run W ops).entries k = none := by
  have gen : ∀ (ops : List Op) (s : State), find s.entries k = none → find (s.run W ops).entries k = none := by
    intro ops
    induction ops with
    | nil => intro s h; exact h
    | cons op ops ih =>
      intro s h
      refine ih _ ?_
      cases op with
      | set j c =>
        show find (s.set W j c).2.entries k = none
        by_cases e : k = j
        · subst e
          unfold State.set
          cases W.kind c with
          | none => exact h
          | config t =>
            simp only
            cases hs : s.setConfigId c k with
            | error e => exact h
            | ok s' =>
              have hs' : s'.entries = s.entries := by
                unfold State.setConfigId at hs
                cases hc : s.cid c with
                | none => rw [hc] at hs; cases hs; rfl
                | some k' =>
                  rw [hc] at hs
                  simp only at hs
                  split at hs
                  · cases hs; rfl
                  · cases hs
              have h' : find s'.entries k = none := by rw [hs']; exact h
              simp only
              split
              · exact h'
              · split
                · exact h'
                · rcases hk with rfl | rfl | rfl <;> exact h'
        · rcases (set_cases (W := W) s j c).1 with e' | ⟨_, e', _⟩
          · rw [e']; exact h
          · rw [e', find_put, if_neg e]; exact h
      | del j => exact h
      | mark c j => rw [(mark_keeps (W := W) s c j).1]; exact h
      | clear => rfl
  exact gen ops _ rfl

/-- C68. How each assignment ends, after every history in which nothing was stored under `_slots_set`. -/
theorem C68_outcomes_partial (cid : Nat → Option Key) (ops : List Op) (hops : ∀ c, Op.set .slotsSet c ∉ ops) (k : Key) (c : Nat) :
    let s := (State.new cid).run W ops
    SetEnds W (find s.entries) s.cid k c (s.exec W (.set k c)).1 := by
  intro s
  obtain ⟨ht, hf⟩ := type_kept (W := W) (State.new cid) ops hops rfl rfl
  change s.typeSlot = none at ht
  change find s.entries .slotsSet = none at hf
  have hsp := special_free (W := W) cid ops
  change ∀ k, _ → find s.entries k = none at hsp
  generalize s = s at *
  show SetEnds _ _ _ _ _ (s.set W k c).1
  unfold State.set
  cases hk : W.kind c with
  | none => exact .noConfig hk
  | config t =>
    simp only
    have hid : (∃ s', s.setConfigId c k = .ok s' ∧ s'.entries = s.entries ∧ s'.typeSlot = none ∧ (s.cid c = none ∨ s.cid c = some k)) ∨
        (s.setConfigId c k = .error .value ∧ ∃ j, s.cid c = some j ∧ j ≠ k) := by
      unfold State.setConfigId
      cases hc : s.cid c with
      | none => exact .inl ⟨_, rfl, rfl, ht, .inl rfl⟩
      | some j =>
        simp only
        by_cases e : j = k
        · rw [if_pos e]; exact .inl ⟨_, rfl, rfl, ht, .inr (by rw [e])⟩
        · rw [if_neg e]; exact .inr ⟨rfl, j, rfl, e⟩
    rcases hid with ⟨s', hs, he, ht', hid⟩ | ⟨hs, j, hj, hne⟩
    · simp only [hs, ht', Option.isSome_none, Bool.false_or]
      cases t with
      | false => exact .otherType hk hid
      | true =>
        simp only [Bool.not_true, Bool.false_eq_true, if_false]
        by_cases h1 : k = .configType
        · subst h1
          simp only [State.contains, State.get, State.hasAttr, he, hf, ht']
          simp
          exact .taken hk hid (by simp) (.inl rfl)
        by_cases h2 : k = .dict
        · subst h2
          simp only [State.contains, State.get, State.hasAttr, he, hf]
          simp
          exact .taken hk hid (by simp) (.inr (.inl rfl))
        by_cases h3 : k = .cls
        · subst h3
          have := hsp .cls (.inl rfl)
          simp only [State.contains, State.get, State.hasAttr, he, hf, this]
          simp
          exact .cls hk hid rfl
        have hcon : s'.contains W k = (find s.entries k).isSome := by
          unfold State.contains
          rw [he, hf]
          simp [h1, h2]
        have hget : s'.get k = find s.entries k := by
          rw [← he]
          unfold State.get
          cases k <;> first | rfl | contradiction
        rw [hcon, hget]
        cases hfk : find s.entries k with
        | none =>
          simp only [Option.isSome_none, Bool.false_and, Bool.false_eq_true, if_false]
          have : SetEnds W (find s.entries) s.cid k c (.ok ()) := .stored hk hid ⟨h3, h1, h2⟩ (.inl hfk)
          cases k <;> first | exact this | contradiction
        | some d =>
          by_cases e : d = c
          · subst e
            simp only [Option.isSome_some, ne_eq, not_true_eq_false, decide_false, Bool.and_false, Bool.false_eq_true, if_false]
            have : SetEnds W (find s.entries) s.cid k d (.ok ()) := .stored hk hid ⟨h3, h1, h2⟩ (.inr hfk)
            cases k <;> first | exact this | contradiction
          · have : (some d ≠ some c) := fun h => e (Option.some.inj h)
            simp only [Option.isSome_some, this, ne_eq, not_false_eq_true, decide_true, Bool.and_true, if_true]
            exact .taken hk hid h3 (.inr (.inr ⟨d, hfk, e⟩))
    · rw [hs]
      exact .otherId (by rw [hk]; simp) j hj hne

/-- C68. A config that has an id accepts that id again, and no other one; a config without an id takes any. -/
theorem C68_mark (s : State) (c : Nat) (k : Key) :
    ((s.exec W (.mark c k)).1 = .ok () ∧ (s.cid c = none ∨ s.cid c = some k) ∧ (s.exec W (.mark c k)).2.cid c = some k ∧
      ∀ d, d ≠ c → (s.exec W (.mark c k)).2.cid d = s.cid d) ∨
    ((s.exec W (.mark c k)).1 = .error .value ∧ (∃ j, s.cid c = some j ∧ j ≠ k) ∧ (s.exec W (.mark c k)).2 = s) := by
  unfold State.exec State.setConfigId
  simp only
  cases hc : s.cid c with
  | none => exact .inl ⟨rfl, .inl rfl, by simp, fun d hd => by simp [hd]⟩
  | some j =>
    simp only
    by_cases e : j = k
    · subst e
      rw [if_pos rfl]
      exact .inl ⟨rfl, .inr rfl, hc, fun _ _ => rfl⟩
    · rw [if_neg e]
      exact .inr ⟨rfl, ⟨j, rfl, e⟩, rfl⟩

/-! ### findings -/

/-- C68 is false of `clear`: it raises, but all entries are gone. -/
theorem C68_clear_empties (s : State) : (∃ e, (s.exec W .clear).1 = .error e) ∧ (s.exec W .clear).2.entries = [] :=
  ⟨⟨_, rfl⟩, rfl⟩

/-- A call that is refused because the config is of another type, or because there is another config with the id, has marked
the config with the id all the same: it can be stored under no other id afterwards, in no map. -/
theorem C68_refused_is_marked (s : State) (k j : Key) (c : Nat) (t : Bool) (ht : W.kind c = .config t) (hc : s.cid c = none)
    (hj : j ≠ k) : ((s.set W k c).2.exec W (.set j c)).1 = .error .value := by
  have h1 : (s.set W k c).2.cid c = some k := by
    unfold State.set State.setConfigId
    rw [ht, hc]
    simp only
    split
    · simp
    · split
      · simp
      · cases k <;> simp
  show ((s.set W k c).2.set W j c).1 = _
  have hne : ¬ k = j := fun e => hj e.symm
  generalize (s.set W k c).2 = s' at h1
  unfold State.set State.setConfigId
  rw [ht, h1]
  simp [hne]

/-- Names of methods are not refused (as they are by other containers, slots.py:222): the config stored under such a name is what
`map.name` gives, so that the method cannot be called any more. -/
theorem C68_method_shadowed (cid : Nat → Option Key) (c n : Nat) (_hn : W.classAttr n = true) (ht : W.kind c = .config true)
    (hc : cid c = none) : (((State.new cid).set W (.name n) c).1 = .ok ()) ∧
      ((State.new cid).set W (.name n) c).2.get (.name n) = some c := by
  have : ((State.new cid).set W (.name n) c).1 = .ok () := by
    unfold State.set State.setConfigId State.contains
    rw [ht]
    simp [State.new, hc, find_nil]
  exact ⟨this, C68_found (State.new cid) (.name n) c [] (by simp) (by simp) this⟩

/-- With an entry of the name `_slots_set` the declared type of a map can be replaced, after which the map accepts nothing. -/
theorem C68_type_replaced (cid : Nat → Option Key) (a b c : Nat) (k : Key) (hab : a ≠ b) (hbc : b ≠ c) (hac : a ≠ c)
    (ha : W.kind a = .config true) (hb : W.kind b = .config true) (hc : W.kind c = .config true) (hn : ∀ x, cid x = none)
    (hh : W.has a .configType = false) :
    let s := (State.new cid).run W [.set .slotsSet a, .set .configType b]
    s.typeSlot = some b ∧ (s.exec W (.set k c)).1 = .error .type := by
  have hba : ¬ b = a := fun e => hab e.symm
  have hca : ¬ c = a := fun e => hac e.symm
  have hcb : ¬ c = b := fun e => hbc e.symm
  simp [State.run, State.exec, State.set, State.setConfigId, State.new, ha, hb, hc, hn, hba, hca, hcb, State.contains, put, find_nil,
    find_cons, hh]

/-! ### the hypotheses are met -/

/-- Four configs of the declared type, one of another type. -/
def sampleWorld : World := ⟨fun c => if c < 4 then .config true else if c = 4 then .config false else .none, fun _ _ => false, fun n => n < 5⟩

example :
    let s := (State.new (fun _ => none)).run sampleWorld [.set (.name 7) 0, .set (.other 9) 1, .set (.name 7) 1, .set (.name 8) 0, .del (.name 7), .set (.name 6) 4]
    s.entries = [(.name 7, 0), (.other 9, 1)] ∧ s.cid 4 = some (.name 6) ∧ s.get (.name 7) = some 0 := by decide

/-- `C68_permanent_partial`, `C68_found` -/
example : ((State.new (fun _ => none)).set sampleWorld (.name 7) 0).1 = .ok () := by decide

/-- `C68_raising_keeps` -/
example : (((State.new (fun _ => none)).set sampleWorld (.name 7) 0).2.exec sampleWorld (.set (.name 7) 1)).1 = .error .permission := by decide

/-- `C68_refused_is_marked`: the config of another type -/
example : ((State.new (fun _ => none)).set sampleWorld (.name 6) 4).1 = .error .type ∧ sampleWorld.kind 4 = .config false := by decide

/-- `C68_method_shadowed`, `C68_type_replaced` -/
example : (((State.new (fun _ => none)).set sampleWorld (.name 3) 0).2.get (.name 3) = some 0) ∧
    ((State.new (fun _ => none)).run sampleWorld [.set .slotsSet 0, .set .configType 1]).typeSlot = some 1 :=
  ⟨(C68_method_shadowed (W := sampleWorld) (fun _ => none) 0 3 rfl rfl rfl).2,
   (C68_type_replaced (W := sampleWorld) (fun _ => none) 0 1 2 (.name 0) (by decide) (by decide) (by decide) rfl rfl rfl (fun _ => rfl) rfl).1⟩

end Aiootp.ConfigMap
