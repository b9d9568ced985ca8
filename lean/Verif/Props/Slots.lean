import Verif.Spec.Slots
import Verif.Lemmas.Py

/-!
C50 (frozen containers) and C51 (typed slots).
-/

namespace Aiootp.Slots

theorem assign_self {α β : Type} [DecidableEq α] (m : α → Option β) (k : α) (v : Option β) : assign m k v k = v := by simp [assign]

theorem assign_ne {α β : Type} [DecidableEq α] (m : α → Option β) {k x : α} (v : Option β) (h : x ≠ k) : assign m k v x = m x := by simp [assign, h]

/-- One more thing is set. -/
structure Adds (o o' : Obj) (n : Name) : Prop where
  cls : o'.cls = o.cls
  dict : ∀ m, m ≠ n → o'.dict m = o.dict m
  get : ∀ m x, o.get m = some x → o'.get m = some x
  noDict : o.cls.hasDict = false → o'.dict = o.dict

theorem Adds.refl (o : Obj) (n : Name) : Adds o o n := ⟨rfl, fun _ _ => rfl, fun _ _ h => h, fun _ => rfl⟩

theorem adds_slot {o : Obj} {s : String} {v : Value} (h : s ∈ o.cls.slots → o.slot s = none) : Adds o { o with slot := assign o.slot s (some v) } (.str s) := by
  refine ⟨rfl, fun _ _ => rfl, ?_, fun _ => rfl⟩
  intro m x hm
  cases m with
  | other k => exact hm
  | str t =>
    simp only [Obj.get] at hm ⊢
    split
    · rename_i ht
      rw [if_pos ht] at hm
      by_cases e : t = s
      · subst e
        rw [h ht] at hm
        cases hm
      · rw [assign_ne _ _ e]; exact hm
    · rename_i ht
      rw [if_neg ht] at hm
      exact hm

theorem adds_dict {o : Obj} {n : Name} {v : Value} (hd : o.cls.hasDict = true) (h : o.dict n = none) : Adds o { o with dict := assign o.dict n (some v) } n := by
  refine ⟨rfl, fun m hm => assign_ne _ _ hm, ?_, fun h => by rw [hd] at h; cases h⟩
  intro m x hm
  have key : ∀ y, o.dict m = some y → assign o.dict n (some v) m = some y := by
    intro y hy
    by_cases e : m = n
    · subst e
      rw [h] at hy
      cases hy
    · rw [assign_ne _ _ e]; exact hy
  cases m with
  | other k => exact key x hm
  | str t =>
    simp only [Obj.get] at hm ⊢
    split
    · rename_i ht
      rw [if_pos ht] at hm
      exact hm
    · rename_i ht
      rw [if_neg ht] at hm
      exact key x hm

/-! ### C50: FrozenInstance -/

theorem set_instance {W : World} {o o' : Obj} {n : Name} {v : Value} (hk : o.cls.kind = .frozenInstance) (h : o.set W n v = .ok o') : Adds o o' n := by
  simp only [Obj.set, hk] at h
  cases n with
  | other k => cases h
  | str s =>
    simp only at h
    split at h
    · cases h
    · rename_i hh
      simp only [Obj.hasattr] at hh
      unfold Obj.setattr at h
      split at h
      · rename_i e
        rw [if_pos e] at hh
        exact absurd rfl hh
      · rename_i e1
        rw [if_neg e1] at hh
        split at h
        · rename_i e2
          rw [if_pos e2] at hh
          rw [if_neg hh] at h
          cases h
        · rename_i e2
          rw [if_neg e2] at hh
          split at h
          · rename_i e3
            rw [if_pos e3] at hh
            injection h with h
            rw [← h]
            exact adds_slot fun _ => by simpa using hh
          · rename_i e3
            rw [if_neg e3] at hh
            split at h
            · rename_i e4
              injection h with h
              rw [← h]
              apply adds_dict e4
              simp only [e4, Bool.true_and, Bool.or_eq_true, not_or] at hh
              simpa using hh.1
            · cases h

theorem update_adds {W : World} {P : Obj → Prop} (hstep : ∀ o o' n v, P o → o.set W n v = .ok o' → P o') (l : List (Name × Value)) :
    ∀ o, P o → P (o.update W l).1 := by
  induction l with
  | nil => intro o h; exact h
  | cons a l ih =>
    intro o h
    simp only [Obj.update]
    cases hs : o.set W a.1 a.2 with
    | error e => exact h
    | ok o' => exact ih o' (hstep o o' _ _ h hs)

/-- **C50** An attribute of a `FrozenInstance` is never changed or removed, by any history of operations. -/
theorem C50_instance (W : World) (o : Obj) (hk : o.cls.kind = .frozenInstance) (ops : List Op) (n : Name) (x : Value) (hx : o.get n = some x) :
    (o.run W ops).get n = some x := by
  have key : ∀ (ops : List Op) (o : Obj), o.cls.kind = .frozenInstance ∧ o.get n = some x → (o.run W ops).get n = some x := by
    intro ops
    induction ops with
    | nil => intro o h; exact h.2
    | cons op ops ih =>
      intro o h
      apply ih
      cases op with
      | set m v =>
        simp only [Obj.step, once]
        cases hs : o.set W m v with
        | error e => exact h
        | ok o' =>
          have ha := set_instance h.1 hs
          exact ⟨by rw [ha.cls]; exact h.1, ha.get _ _ h.2⟩
      | del m =>
        have : o.del m = .error .permission := by simp [Obj.del, h.1]
        simp only [Obj.step, once, this]
        exact h
      | update l =>
        refine update_adds (P := fun o => o.cls.kind = .frozenInstance ∧ o.get n = some x) ?_ l o h
        intro o o' m v h hs
        have ha := set_instance h.1 hs
        exact ⟨by rw [ha.cls]; exact h.1, ha.get _ _ h.2⟩
      | clear =>
        simp only [Obj.step]
        rw [if_pos h.1]
        exact h
  exact key ops o ⟨hk, hx⟩

/-! ### C50: the other frozen classes -/

theorem contains_false {o : Obj} {n : Name} (hshadow : o.shadow "_slots_set" = none) (h : o.contains n = .ok false) :
    (∀ s, n = .str s → s ∈ o.cls.slots → o.hasattr s = false) ∧ (o.cls.hasDict = true → o.dict n = none) := by
  simp only [Obj.contains, Obj.inContainer, hshadow, bind, Except.bind] at h
  cases n with
  | other k =>
    simp only [Bool.false_eq_true, if_false] at h
    injection h with h
    refine ⟨(by intro s hs; cases hs), fun hd => ?_⟩
    rw [hd, Bool.true_and] at h
    simpa using h
  | str s =>
    simp only at h
    injection h with h
    simp only [Bool.or_eq_false_iff, Bool.and_eq_false_iff, decide_eq_false_iff_not] at h
    refine ⟨?_, fun hd => ?_⟩
    · intro t ht hm
      injection ht with ht
      subst ht
      rcases h.1 with h1 | h1
      · exact absurd hm h1
      · exact h1
    · rcases h.2 with h1 | h1
      · rw [hd] at h1; cases h1
      · simpa using h1

/-- The names a frozen object must not be given. -/
structure NameSafe (c : Cls) (n : Name) : Prop where
  cls : n ≠ .str "__class__"
  slotsSet : c.hasDict = true → n ≠ .str "_slots_set"
  dict : c.hasDict = true → "__dict__" ∈ c.slots ∨ n ≠ .str "__dict__"

theorem deny_base {o o' : Obj} {n : Name} {v : Value} (hn : NameSafe o.cls n) (hshadow : o.shadow "_slots_set" = none) (h1 : o.denyIfIn n = .ok ())
    (h2 : o.baseSet n v = .ok o') : Adds o o' n := by
  simp only [Obj.denyIfIn, bind_eq_ok, raiseIf_ok] at h1
  obtain ⟨b, hb, hf⟩ := h1
  have hb : o.contains n = .ok false := by
    rw [hb]
    cases b with
    | false => rfl
    | true => exact absurd rfl hf
  obtain ⟨c1, c2⟩ := contains_false hshadow hb
  simp only [Obj.baseSet, bind_eq_ok] at h2
  obtain ⟨r, _, h2⟩ := h2
  split at h2
  · cases h2
  · cases n with
    | other k =>
      simp only at h2
      split at h2
      · rename_i hd
        injection h2 with h2
        rw [← h2]
        exact adds_dict hd (c2 hd)
      · cases h2
    | str s =>
      simp only [Obj.setattr] at h2
      split at h2
      · rename_i e
        exact absurd (by rw [e]) hn.cls
      · rename_i e1
        split at h2
        · rename_i e2
          split at h2
          · rename_i hd
            exfalso
            rcases hn.dict hd with hs | hs
            · subst e2
              have := c1 _ rfl hs
              simp [Obj.hasattr, hd] at this
            · exact hs (by rw [e2])
          · cases h2
        · rename_i e2
          split at h2
          · rename_i e3
            injection h2 with h2
            rw [← h2]
            apply adds_slot
            intro _
            have := c1 _ rfl e3
            simpa [Obj.hasattr, e1, e2, e3] using this
          · split at h2
            · rename_i hd
              injection h2 with h2
              rw [← h2]
              exact adds_dict hd (c2 hd)
            · cases h2

theorem set_frozen {W : World} {o o' : Obj} {n : Name} {v : Value} (hk : o.cls.kind.Frozen) (hn : NameSafe o.cls n) (hshadow : o.shadow "_slots_set" = none)
    (h : o.set W n v = .ok o') : Adds o o' n := by
  rcases hk with hk | hk | hk
  · simp only [Obj.set, hk, bind_eq_ok] at h
    obtain ⟨_, h1, h2⟩ := h
    exact deny_base hn hshadow h1 h2
  · simp only [Obj.set, hk, bind_eq_ok] at h
    obtain ⟨_, h1, _, _, h2⟩ := h
    exact deny_base hn hshadow h1 h2
  · simp only [Obj.set, hk] at h
    split at h
    · rename_i e
      simp only [Obj.setConfigId, bind_eq_ok] at h
      obtain ⟨_, _, h⟩ := h
      split at h
      · rename_i hs
        injection h with h
        rw [← h, e]
        exact adds_slot fun _ => hs
      · split at h
        · injection h with h
          rw [← h]
          exact Adds.refl _ _
        · cases h
    · simp only [bind_eq_ok] at h
      obtain ⟨_, h1, _, _, h2⟩ := h
      exact deny_base hn hshadow h1 h2

/-- Nothing is deleted from frozen objects. -/
theorem del_frozen {o : Obj} (hk : o.cls.kind.Frozen) (n : Name) : o.del n = .error .permission := by
  rcases hk with hk | hk | hk <;> simp [Obj.del, hk]

theorem clearSlots_frozen {o : Obj} (hk : o.cls.kind.Frozen) (l : List String) :
    o.clearSlots l = (o, if l.any o.hasattr then .error .permission else .ok ()) := by
  induction l with
  | nil => rfl
  | cons s l ih =>
    simp only [Obj.clearSlots, del_frozen hk, List.any_cons]
    by_cases hs : o.hasattr s = true
    · simp [hs]
    · simp [hs, ih]

/-- The names an operation assigns to. -/
def Op.Names (op : Op) (n : Name) : Prop :=
  match op with
  | .set m _ => n = m
  | .update l => ∃ v, (n, v) ∈ l
  | .del _ => False
  | .clear => False

theorem assigns_iff (op : Op) (s : String) : op.Assigns s ↔ op.Names (.str s) := by
  cases op with
  | set m v => exact eq_comm
  | _ => exact Iff.rfl

/-- What every operation keeps is kept by every history. -/
theorem run_inv {W : World} {P : Obj → Prop} {N : Name → Prop} {C : Prop} (hset : ∀ o o' m v, N m → P o → o.set W m v = .ok o' → P o')
    (hdel : ∀ o o' m, P o → o.del m = .ok o' → P o') (hclear : C → ∀ o, P o → P (o.step W .clear).1) (ops : List Op) :
    (∀ op ∈ ops, (∀ m, op.Names m → N m) ∧ (op = .clear → C)) → ∀ o, P o → P (o.run W ops) := by
  induction ops with
  | nil => intro _ o h; exact h
  | cons op ops ih =>
    intro hs o h
    refine ih (fun op hop => hs op (List.mem_cons_of_mem _ hop)) _ ?_
    obtain ⟨hop, hcl⟩ := hs op List.mem_cons_self
    cases op with
    | set m v =>
      simp only [Obj.step, once]
      cases e : o.set W m v with
      | error e => exact h
      | ok o' => exact hset _ _ _ _ (hop m rfl) h e
    | del m =>
      simp only [Obj.step, once]
      cases e : o.del m with
      | error e => exact h
      | ok o' => exact hdel _ _ _ h e
    | update l =>
      simp only [Obj.step]
      have hl : ∀ a ∈ l, N a.1 := fun a ha => hop a.1 ⟨a.2, ha⟩
      clear hop hs ih hcl
      induction l generalizing o with
      | nil => exact h
      | cons a l ih =>
        simp only [Obj.update]
        cases e : o.set W a.1 a.2 with
        | error e => exact h
        | ok o' => exact ih o' (hset _ _ _ _ (hl a List.mem_cons_self) h e) fun b hb => hl b (List.mem_cons_of_mem _ hb)
    | clear => exact hclear (hcl rfl) o h

theorem frozen_names {c : Cls} {op : Op} (h : op.FrozenSafe c) : (∀ m, op.Names m → NameSafe c m) ∧ (op = .clear → c.hasDict = false) := by
  obtain ⟨h1, h2⟩ := h
  simp only [assigns_iff] at h1 h2
  refine ⟨fun m hm => ⟨?_, ?_, ?_⟩, ?_⟩
  · rintro rfl; exact h1 hm
  · rintro hd rfl; exact (h2 hd).2.1 hm
  · intro hd
    rcases (h2 hd).2.2 with h | h
    · exact .inl h
    · right
      rintro rfl
      exact h hm
  · rintro rfl
    cases hd : c.hasDict with
    | false => rfl
    | true => exact absurd rfl (h2 hd).1

theorem clear_frozen {W : World} {o : Obj} (hk : o.cls.kind.Frozen) (hd : o.cls.hasDict = false) : (o.step W .clear).1 = o := by
  have hne : o.cls.kind ≠ .frozenInstance := by
    rcases hk with e | e | e <;> rw [e] <;> decide
  simp only [Obj.step, if_neg hne, Obj.clear, hd, Bool.false_eq_true, if_false]
  rw [clearSlots_frozen hk]

theorem shadow_adds {o o' : Obj} {m : Name} {s : String} (h : o.shadow s = none) (ha : Adds o o' m) (hn : o.cls.hasDict = true → m ≠ .str s) : o'.shadow s = none := by
  simp only [Obj.shadow, ha.cls] at h ⊢
  split
  · rename_i hd
    rw [if_pos hd] at h
    rw [ha.dict _ (Ne.symm (hn hd))]
    exact h
  · rfl

/-- What holds of a frozen object as long as it is used safely. -/
structure FrozenInv (c : Cls) (o : Obj) : Prop where
  cls : o.cls = c
  shadow : o.shadow "_slots_set" = none

theorem frozen_run {W : World} {c : Cls} (hk : c.kind.Frozen) {Q : Obj → Prop} (hQ : ∀ o o' m, Q o → Adds o o' m → Q o') {ops : List Op}
    (hs : ∀ op ∈ ops, op.FrozenSafe c) {o : Obj} (h : FrozenInv c o) (hq : Q o) : FrozenInv c (o.run W ops) ∧ Q (o.run W ops) := by
  refine run_inv (N := NameSafe c) (C := c.hasDict = false) (P := fun o => FrozenInv c o ∧ Q o) ?_ ?_ ?_ ops (fun op hop => frozen_names (hs op hop)) o ⟨h, hq⟩
  · rintro o o' m v hn ⟨h, hq⟩ hset
    have ha := set_frozen (by rw [h.cls]; exact hk) (by rw [h.cls]; exact hn) h.shadow hset
    refine ⟨⟨by rw [ha.cls]; exact h.cls, shadow_adds h.shadow ha ?_⟩, hQ _ _ _ hq ha⟩
    rw [h.cls]
    exact hn.slotsSet
  · rintro o o' m ⟨h, hq⟩ hd
    rw [del_frozen (by rw [h.cls]; exact hk)] at hd
    cases hd
  · rintro hd o ⟨h, hq⟩
    rw [clear_frozen (by rw [h.cls]; exact hk) (by rw [h.cls]; exact hd)]
    exact ⟨h, hq⟩

theorem run_append (W : World) (o : Obj) (ops ops' : List Op) : o.run W (ops ++ ops') = (o.run W ops).run W ops' := by
  induction ops generalizing o with
  | nil => rfl
  | cons op ops ih => exact ih _

theorem new_shadow (c : Cls) (s : String) : (Obj.new c).shadow s = none := by
  cases hd : c.hasDict <;> simp [Obj.shadow, Obj.new, hd]

/-- **C50** (part) What is set on an instance of a frozen class is never changed or removed, by any history of operations other than those named by
`FrozenSafe`. For classes without an instance dictionary only the assignment of `__class__` is excluded. -/
theorem C50_frozen_partial (W : World) (c : Cls) (hk : c.kind.Frozen) (ops ops' : List Op) (hs : ∀ op ∈ ops ++ ops', op.FrozenSafe c) (n : Name) (x : Value)
    (hx : ((Obj.new c).run W ops).get n = some x) : ((Obj.new c).run W (ops ++ ops')).get n = some x := by
  rw [run_append]
  obtain ⟨h1, _⟩ := frozen_run (W := W) hk (Q := fun _ => True) (fun _ _ _ _ _ => trivial) (fun op h => hs op (List.mem_append_left _ h)) ⟨rfl, new_shadow c _⟩ trivial
  exact (frozen_run hk (Q := fun o => o.get n = some x) (fun _ _ _ h ha => ha.get _ _ h) (fun op h => hs op (List.mem_append_right _ h)) h1 hx).2

/-- **C50** An attempt to set what is set already raises `PermissionError`, after any safe history. (A `Config` object accepts its own id again.) -/
theorem C50_denied (W : World) (c : Cls) (hk : c.kind.Frozen) (ops : List Op) (hs : ∀ op ∈ ops, op.FrozenSafe c) (s : String)
    (hd : s ≠ "__dict__" ∧ s ≠ "__class__") (hid : s ≠ "CONFIG_ID") (x v : Value) (hx : ((Obj.new c).run W ops).get (.str s) = some x) :
    ((Obj.new c).run W ops).set W (.str s) v = .error .permission ∧ ((Obj.new c).run W ops).del (.str s) = .error .permission := by
  obtain ⟨h, _, hdict⟩ := frozen_run (W := W) hk (Q := fun o => o.cls = c ∧ (c.hasDict = false → ∀ n, o.dict n = none))
    (fun o o' m hq ha => ⟨by rw [ha.cls]; exact hq.1, fun hd n => by rw [ha.noDict (by rw [hq.1]; exact hd)]; exact hq.2 hd n⟩) hs (o := Obj.new c)
    ⟨rfl, new_shadow c _⟩ ⟨rfl, fun _ _ => rfl⟩
  generalize (Obj.new c).run W ops = o at h hx hdict
  refine ⟨?_, del_frozen (by rw [h.cls]; exact hk) _⟩
  have hdeny : o.denyIfIn (.str s) = .error .permission := by
    have hc : o.contains (.str s) = .ok true := by
      simp only [Obj.contains, Obj.inContainer, h.shadow, bind, Except.bind]
      simp only [Obj.get] at hx
      split at hx
      · rename_i hm
        simp [Obj.hasattr, hd, hm, hx]
      · cases e : c.hasDict with
        | true => simp [h.cls, e, hx]
        | false =>
          rw [hdict e] at hx
          cases hx
    simp [Obj.denyIfIn, hc, bind, Except.bind, raiseIf]
  have hne : (Name.str s) ≠ .str "CONFIG_ID" := by
    intro e
    injection e with e
    exact hid e
  rcases hk with e | e | e
  · simp only [Obj.set, h.cls, e, hdeny, bind, Except.bind]
  · simp only [Obj.set, h.cls, e, hdeny, bind, Except.bind]
  · simp only [Obj.set, h.cls, e, hdeny, bind, Except.bind, if_neg hne]

/-! ### C50: what breaks the promise -/

/-- **C50** The negation: `clear` raises `PermissionError`, but only after it has removed everything that is in the dictionary of a frozen namespace. -/
theorem C50_clear_empties (W : World) (o : Obj) (hk : o.cls.kind.Frozen) (hd : o.cls.hasDict = true) (hs : "__dict__" ∈ o.cls.slots) :
    (o.step W .clear).2 = .error .permission ∧ (∀ n, (o.step W .clear).1.dict n = none) ∧
      ∀ s v, s ∉ o.cls.slots → o.get (.str s) = some v → (o.step W .clear).1.get (.str s) = none := by
  have hne : o.cls.kind ≠ .frozenInstance := by
    rcases hk with e | e | e <;> rw [e] <;> decide
  simp only [Obj.step, if_neg hne, Obj.clear, hd, if_true]
  rw [clearSlots_frozen (o := { o with dict := fun _ => none }) hk]
  refine ⟨?_, fun _ => rfl, ?_⟩
  · simp only
    rw [if_pos]
    rw [List.any_eq_true]
    exact ⟨_, hs, by simp [Obj.hasattr, hd]⟩
  · intro s v hm _
    simp [Obj.get, hm]

theorem baseSet_slot {o : Obj} {s : String} {v : Value} (hr : o.shadow "_RESTRICTED_ATTRIBUTES" = none) (hn : s ∉ o.cls.restricted) (hd : s ≠ "__dict__" ∧ s ≠ "__class__")
    (hs : s ∈ o.cls.slots) : o.baseSet (.str s) v = .ok { o with slot := assign o.slot s (some v) } := by
  simp [Obj.baseSet, Obj.inContainer, hr, hn, bind, Except.bind, Obj.setattr, hd, hs]

/-- **C50** The negation: the class of an object without a dictionary can be replaced, and then its slots be set again. -/
theorem C50_class_replaced (W : World) (o : Obj) (hk : o.cls.kind = .frozen) (hd : o.cls.hasDict = false) (hc : "__class__" ∉ o.cls.slots ∧ "__class__" ∉ o.cls.restricted)
    (s : String) (hs : s ∈ o.cls.slots) (hr : s ∉ o.cls.restricted) (hn : s ≠ "__dict__" ∧ s ≠ "__class__") (v : Value) :
    (o.run W [.set (.str "__class__") (.cls { o.cls with kind := .slots }), .set (.str s) v]).get (.str s) = some v := by
  have hsh : ∀ x, o.shadow x = none := fun x => by simp [Obj.shadow, hd]
  have h1 : o.set W (.str "__class__") (.cls { o.cls with kind := .slots }) = .ok { o with cls := { o.cls with kind := .slots } } := by
    simp [Obj.set, hk, Obj.denyIfIn, Obj.contains, Obj.inContainer, hsh, hc, hd, bind, Except.bind, raiseIf, Obj.baseSet, Obj.setattr]
  have h2 : ({ o with cls := { o.cls with kind := .slots } } : Obj).set W (.str s) v = .ok { o with cls := { o.cls with kind := .slots }, slot := assign o.slot s (some v) } := by
    simp only [Obj.set]
    exact baseSet_slot (by simp [Obj.shadow, hd]) hr hn hs
  simp only [Obj.run, Obj.step, once, h1, h2]
  simp [Obj.get, hs, assign_self]

/-- **C50** The negation: the name `_slots_set` hides the names of the slots of a frozen object with a dictionary, which can then be set again. -/
theorem C50_slots_set_hidden (W : World) (o : Obj) (hk : o.cls.kind = .frozen) (hd : o.cls.hasDict = true) (hsh : o.shadow "_slots_set" = none)
    (hsh2 : o.shadow "_RESTRICTED_ATTRIBUTES" = none) (hc : "_slots_set" ∉ o.cls.slots ∧ "_slots_set" ∉ o.cls.restricted)
    (s : String) (hs : s ∈ o.cls.slots) (hr : s ∉ o.cls.restricted) (hn : s ≠ "__dict__" ∧ s ≠ "__class__") (hdict : o.dict (.str s) = none) (v : Value) :
    (o.run W [.set (.str "_slots_set") (.names []), .set (.str s) v]).get (.str s) = some v := by
  have hdn : o.dict (.str "_slots_set") = none := by simpa [Obj.shadow, hd] using hsh
  have hdr : o.dict (.str "_RESTRICTED_ATTRIBUTES") = none := by simpa [Obj.shadow, hd] using hsh2
  have h1 : o.set W (.str "_slots_set") (.names []) = .ok { o with dict := assign o.dict (.str "_slots_set") (some (.names [])) } := by
    simp [Obj.set, hk, Obj.denyIfIn, Obj.contains, Obj.inContainer, hsh, hsh2, hc, hd, hdn, bind, Except.bind, raiseIf, Obj.baseSet, Obj.setattr]
  have hss : s ≠ "_slots_set" := fun e => hc.1 (e ▸ hs)
  have h2 : ({ o with dict := assign o.dict (.str "_slots_set") (some (.names [])) } : Obj).set W (.str s) v =
      .ok { o with dict := assign o.dict (.str "_slots_set") (some (.names [])), slot := assign o.slot s (some v) } := by
    simp only [Obj.set, hk]
    have hdeny : ({ o with dict := assign o.dict (.str "_slots_set") (some (.names [])) } : Obj).denyIfIn (.str s) = .ok () := by
      simp [Obj.denyIfIn, Obj.contains, Obj.inContainer, Obj.shadow, hd, assign, hss, hdict, bind, Except.bind, raiseIf]
    simp only [hdeny, bind, Except.bind]
    exact baseSet_slot (by simp [Obj.shadow, hd, assign, hdr]) hr hn hs
  simp only [Obj.run, Obj.step, once, h1, h2]
  simp [Obj.get, hs, assign_self]

/-- **C50** The negation: a dictionary that is not declared as a slot can be replaced. -/
theorem C50_dict_replaced (W : World) (o : Obj) (hk : o.cls.kind = .frozen) (hd : o.cls.hasDict = true) (hsh : o.shadow "_slots_set" = none)
    (hsh2 : o.shadow "_RESTRICTED_ATTRIBUTES" = none) (hc : "__dict__" ∉ o.cls.slots ∧ "__dict__" ∉ o.cls.restricted) (hdict : o.dict (.str "__dict__") = none)
    (items : List (Name × Value)) (s : String) (hs : s ∉ o.cls.slots) :
    (o.run W [.set (.str "__dict__") (.map items)]).get (.str s) = ofItems items (.str s) := by
  have h1 : o.set W (.str "__dict__") (.map items) = .ok { o with dict := ofItems items } := by
    simp [Obj.set, hk, Obj.denyIfIn, Obj.contains, Obj.inContainer, hsh, hsh2, hc, hd, hdict, bind, Except.bind, raiseIf, Obj.baseSet, Obj.setattr]
  simp only [Obj.run, Obj.step, once, h1]
  simp [Obj.get, hs]

/-! ### C51 -/

/-- What `__init_subclass__` ensures of a class whose instances check types. -/
structure TypedCls (c : Cls) : Prop where
  kind : c.kind.Typed
  types : ∀ s t, c.types.lookup s = some t → s ∈ c.slots
  restricted : ∀ s ∈ c.slots, s ∉ c.restricted
  slotsTypes : "slots_types" ∈ c.restricted

/-- The names a typed object must not be given. -/
structure TypedName (c : Cls) (n : Name) : Prop where
  cls : n ≠ .str "__class__"
  validate : c.hasDict = true → n ≠ .str "_validate_type"
  restricted : c.hasDict = true → n ≠ .str "_RESTRICTED_ATTRIBUTES"
  dict : c.hasDict = true → n ≠ .str "__dict__"

/-- What holds of a typed object as long as it is used safely. -/
structure TypedInv (W : World) (c : Cls) (o : Obj) : Prop where
  cls : o.cls = c
  validate : o.dict (.str "_validate_type") = none
  hidden : o.dict (.str "_RESTRICTED_ATTRIBUTES") = none
  restricted : ∀ s ∈ c.restricted, o.dict (.str s) = none
  slots : ∀ s ∈ c.slots, o.dict (.str s) = none
  typed : WellTyped W o

/-- Some things are not set any more. -/
structure Removes (o o' : Obj) : Prop where
  cls : o'.cls = o.cls
  dict : ∀ n, o.dict n = none → o'.dict n = none
  slot : ∀ s x, o'.slot s = some x → o.slot s = some x

theorem Removes.refl (o : Obj) : Removes o o := ⟨rfl, fun _ h => h, fun _ _ h => h⟩

theorem Removes.trans {o o' o'' : Obj} (h : Removes o o') (h' : Removes o' o'') : Removes o o'' :=
  ⟨h'.cls.trans h.cls, fun n hn => h'.dict n (h.dict n hn), fun s x hx => h.slot s x (h'.slot s x hx)⟩

theorem typedInv_removes {W : World} {c : Cls} (hc : TypedCls c) {o o' : Obj} (h : TypedInv W c o) (hr : Removes o o') : TypedInv W c o' := by
  refine ⟨hr.cls.trans h.cls, hr.dict _ h.validate, hr.dict _ h.hidden, fun s hs => hr.dict _ (h.restricted s hs), fun s hs => hr.dict _ (h.slots s hs), ?_⟩
  intro s t hl v hv
  rw [hr.cls, h.cls] at hl
  refine h.typed s t (by rw [h.cls]; exact hl) v ?_
  have hm := hc.types s t hl
  simp only [Obj.get, hr.cls, h.cls, if_pos hm] at hv ⊢
  exact hr.slot _ _ hv

theorem removes_dict (o : Obj) (n : Name) : Removes o { o with dict := assign o.dict n none } := by
  refine ⟨rfl, fun m hm => ?_, fun _ _ h => h⟩
  by_cases e : m = n
  · subst e; exact assign_self _ _ _
  · exact (assign_ne _ _ e).trans hm

theorem baseDel_removes {o o' : Obj} {n : Name} (h : o.baseDel n = .ok o') : Removes o o' := by
  cases n with
  | other k =>
    simp only [Obj.baseDel] at h
    split at h
    · split at h
      · injection h with h; rw [← h]; exact removes_dict _ _
      · cases h
    · cases h
  | str s =>
    simp only [Obj.baseDel, Obj.delattr] at h
    split at h
    · cases h
    · split at h
      · split at h
        · injection h with h; rw [← h]; exact ⟨rfl, fun _ _ => rfl, fun _ _ h => h⟩
        · cases h
      · split at h
        · split at h
          · injection h with h
            rw [← h]
            refine ⟨rfl, fun _ h => h, ?_⟩
            intro t x hx
            by_cases e : t = s
            · subst e
              rw [show ({ o with slot := assign o.slot t none } : Obj).slot t = none from assign_self _ _ _] at hx
              cases hx
            · rw [show ({ o with slot := assign o.slot s none } : Obj).slot t = o.slot t from assign_ne _ _ e] at hx
              exact hx
          · cases h
        · split at h
          · injection h with h; rw [← h]; exact removes_dict _ _
          · cases h

theorem del_removes {o o' : Obj} {n : Name} (h : o.del n = .ok o') : Removes o o' := by
  unfold Obj.del at h
  split at h
  · exact baseDel_removes h
  · exact baseDel_removes h
  · cases h

theorem clearSlots_removes (l : List String) : ∀ o : Obj, Removes o (o.clearSlots l).1 := by
  induction l with
  | nil => intro o; exact Removes.refl o
  | cons s l ih =>
    intro o
    simp only [Obj.clearSlots]
    split
    · cases h : o.del (.str s) with
      | error e => exact Removes.refl o
      | ok o' => exact (del_removes h).trans (ih o')
    · exact ih o

theorem clear_removes (W : World) (o : Obj) : Removes o (o.step W .clear).1 := by
  simp only [Obj.step]
  split
  · exact Removes.refl o
  · refine Removes.trans (o' := { o with dict := fun n => if o.cls.hasDict then none else o.dict n }) ⟨rfl, ?_, fun _ _ h => h⟩ (clearSlots_removes _ _)
    intro n hn
    simp only
    split
    · rfl
    · exact hn

theorem typedInv_slot {W : World} {c : Cls} (hc : TypedCls c) {o : Obj} {s : String} {v : Value} (h : TypedInv W c o)
    (hv : ∀ t, c.types.lookup s = some t → W.isa v t = true) : TypedInv W c { o with slot := assign o.slot s (some v) } := by
  refine ⟨h.cls, h.validate, h.hidden, h.restricted, h.slots, ?_⟩
  intro u t hl x hx
  have hl' : c.types.lookup u = some t := by rw [← h.cls]; exact hl
  have hm := hc.types u t hl'
  simp only [Obj.get, h.cls, if_pos hm] at hx
  by_cases e : u = s
  · subst e
    rw [assign_self] at hx
    injection hx with hx
    rw [← hx]
    exact hv t hl'
  · rw [assign_ne _ _ e] at hx
    exact h.typed u t hl x (by simp only [Obj.get, h.cls, if_pos hm]; exact hx)

theorem typedInv_dict {W : World} {c : Cls} (hc : TypedCls c) {o : Obj} {n : Name} {v : Value} (h : TypedInv W c o) (h1 : n ≠ .str "_validate_type")
    (h2 : n ≠ .str "_RESTRICTED_ATTRIBUTES") (h3 : ∀ s ∈ c.restricted, n ≠ .str s)
    (h4 : ∀ s ∈ c.slots, n ≠ .str s) : TypedInv W c { o with dict := assign o.dict n (some v) } := by
  refine ⟨h.cls, ?_, ?_, fun s hs => ?_, fun s hs => ?_, ?_⟩
  · exact (assign_ne _ _ (Ne.symm h1)).trans h.validate
  · exact (assign_ne _ _ (Ne.symm h2)).trans h.hidden
  · exact (assign_ne _ _ (Ne.symm (h3 s hs))).trans (h.restricted s hs)
  · exact (assign_ne _ _ (Ne.symm (h4 s hs))).trans (h.slots s hs)
  · intro u t hl x hx
    have hl' : c.types.lookup u = some t := by rw [← h.cls]; exact hl
    have hm := hc.types u t hl'
    refine h.typed u t hl x ?_
    simp only [Obj.get, h.cls, if_pos hm] at hx ⊢
    exact hx

theorem shadow_none {o : Obj} {s : String} (h : o.dict (.str s) = none) : o.shadow s = none := by
  unfold Obj.shadow
  split
  · exact h
  · rfl

theorem validate_ok {W : World} {c : Cls} (hc : TypedCls c) {o : Obj} {s : String} {v : Value} (h : TypedInv W c o) (hv : o.validate W (.str s) v = .ok ()) :
    ∀ t, c.types.lookup s = some t → W.isa v t = true := by
  intro t ht
  simp only [Obj.validate, shadow_none h.validate, shadow_none (h.restricted _ hc.slotsTypes), h.cls, ht, raiseIf_ok] at hv
  simpa using hv

theorem typed_base {W : World} {c : Cls} (hc : TypedCls c) {o o' : Obj} {n : Name} {v : Value} (hn : TypedName c n) (h : TypedInv W c o)
    (h1 : o.validate W n v = .ok ()) (h2 : o.baseSet n v = .ok o') : TypedInv W c o' := by
  simp only [Obj.baseSet, Obj.inContainer, shadow_none h.hidden, bind, Except.bind] at h2
  cases n with
  | other k =>
    simp only [Bool.false_eq_true, if_false] at h2
    split at h2
    · injection h2 with h2
      rw [← h2]
      exact typedInv_dict hc h (by intro e; cases e) (by intro e; cases e) (by intro s _ e; cases e) (by intro s _ e; cases e)
    · cases h2
  | str s =>
    simp only at h2
    split at h2
    · cases h2
    · rename_i hr
      simp only [decide_eq_true_eq, h.cls] at hr
      simp only [Obj.setattr] at h2
      split at h2
      · rename_i e; exact absurd (by rw [e]) hn.cls
      · split at h2
        · rename_i e
          split at h2
          · rename_i hd; exact absurd (by rw [e]) (hn.dict (by rw [← h.cls]; exact hd))
          · cases h2
        · split at h2
          · injection h2 with h2
            rw [← h2]
            exact typedInv_slot hc h (validate_ok hc h h1)
          · rename_i hslot
            split at h2
            · rename_i hd
              rw [h.cls] at hd
              injection h2 with h2
              rw [← h2]
              refine typedInv_dict hc h (hn.validate hd) (hn.restricted hd) ?_ ?_
              · intro t ht e
                injection e with e
                exact hr (e ▸ ht)
              · intro t ht e
                injection e with e
                exact hslot (by rw [h.cls, e]; exact ht)
            · cases h2

theorem typed_set {W : World} {c : Cls} (hc : TypedCls c) {o o' : Obj} {n : Name} {v : Value} (hn : TypedName c n) (h : TypedInv W c o) (hs : o.set W n v = .ok o') :
    TypedInv W c o' := by
  rcases hc.kind with e | e | e
  · simp only [Obj.set, h.cls, e, bind_eq_ok] at hs
    obtain ⟨_, h1, h2⟩ := hs
    exact typed_base hc hn h h1 h2
  · simp only [Obj.set, h.cls, e, bind_eq_ok] at hs
    obtain ⟨_, _, _, h1, h2⟩ := hs
    exact typed_base hc hn h h1 h2
  · simp only [Obj.set, h.cls, e] at hs
    split at hs
    · simp only [Obj.setConfigId, bind_eq_ok] at hs
      obtain ⟨_, h1, h2⟩ := hs
      split at h2
      · injection h2 with h2
        rw [← h2]
        exact typedInv_slot hc h (validate_ok hc h h1)
      · split at h2
        · injection h2 with h2
          rw [← h2]
          exact h
        · cases h2
    · simp only [bind_eq_ok] at hs
      obtain ⟨_, _, _, h1, h2⟩ := hs
      exact typed_base hc hn h h1 h2

theorem typed_names {c : Cls} {op : Op} (h : op.TypedSafe c) : (∀ m, op.Names m → TypedName c m) ∧ (op = .clear → True) := by
  obtain ⟨h1, h2⟩ := h
  simp only [assigns_iff] at h1 h2
  refine ⟨fun m hm => ⟨?_, ?_, ?_, ?_⟩, fun _ => trivial⟩
  · rintro rfl; exact h1 hm
  · rintro hd rfl; exact (h2 hd).1 hm
  · rintro hd rfl; exact (h2 hd).2.1 hm
  · rintro hd rfl; exact (h2 hd).2.2 hm

theorem typed_run {W : World} {c : Cls} (hc : TypedCls c) {ops : List Op} (hs : ∀ op ∈ ops, op.TypedSafe c) {o : Obj} (h : TypedInv W c o) : TypedInv W c (o.run W ops) :=
  run_inv (N := TypedName c) (C := True) (P := TypedInv W c) (fun _ _ _ _ hn h hset => typed_set hc hn h hset)
    (fun _ _ _ h hd => typedInv_removes hc h (del_removes hd)) (fun _ o h => typedInv_removes hc h (clear_removes W o)) ops
    (fun op hop => typed_names (hs op hop)) o h

theorem new_inv (W : World) (c : Cls) : TypedInv W c (Obj.new c) := by
  refine ⟨rfl, rfl, rfl, fun _ _ => rfl, fun _ _ => rfl, ?_⟩
  intro s t _ v hv
  by_cases hm : s ∈ c.slots <;> simp [Obj.get, Obj.new, hm] at hv

/-- **C51** (part) Every attribute of a typed object has its declared type and no restricted name is ever set, after every history of operations other than those named
by `TypedSafe`. For classes without an instance dictionary only the assignment of `__class__` is excluded. -/
theorem C51_types_partial (W : World) (c : Cls) (hc : TypedCls c) (ops : List Op) (hs : ∀ op ∈ ops, op.TypedSafe c) :
    WellTyped W ((Obj.new c).run W ops) ∧ ∀ s ∈ c.restricted, ((Obj.new c).run W ops).get (.str s) = none := by
  have h := typed_run hc hs (new_inv W c)
  refine ⟨h.typed, fun s hr => ?_⟩
  have hm : s ∉ c.slots := fun hm => hc.restricted s hm hr
  simp only [Obj.get, h.cls, if_neg hm]
  exact h.restricted s hr

/-- What is left of an object in which one slot is assigned. -/
theorem get_assign {o : Obj} {s : String} {v : Value} (hm : s ∈ o.cls.slots) :
    ({ o with slot := assign o.slot s (some v) } : Obj).get (.str s) = some v ∧
      ∀ n, n ≠ .str s → ({ o with slot := assign o.slot s (some v) } : Obj).get n = o.get n := by
  refine ⟨by simp [Obj.get, hm, assign_self], fun n hn => ?_⟩
  cases n with
  | other k => rfl
  | str x =>
    have hx : x ≠ s := fun e => hn (by rw [e])
    simp [Obj.get, assign_ne _ _ hx]

/-- **C51** After every safe history an assignment to an attribute of a declared type does what `assigned` says: it raises the exception, or it ends with the value in
its place and everything else as it was. -/
theorem C51_assignment (W : World) (c : Cls) (hc : TypedCls c) (ops : List Op) (hs : ∀ op ∈ ops, op.TypedSafe c) (hf : c.kind ≠ .typed → ∀ op ∈ ops, op.FrozenSafe c)
    (s : String) (t : Nat) (ht : c.types.lookup s = some t) (hd : s ≠ "__dict__" ∧ s ≠ "__class__") (v : Value) :
    match assigned W c.kind s t (((Obj.new c).run W ops).get (.str s)) v with
    | .error e => ((Obj.new c).run W ops).set W (.str s) v = .error e
    | .ok x => ∃ o', ((Obj.new c).run W ops).set W (.str s) v = .ok o' ∧ o'.get (.str s) = some x ∧
        ∀ n, n ≠ .str s → o'.get n = ((Obj.new c).run W ops).get n := by
  have h := typed_run hc hs (new_inv W c)
  have hshadow : c.kind ≠ .typed → ((Obj.new c).run W ops).shadow "_slots_set" = none := by
    intro hk
    have hfr : c.kind.Frozen := by
      rcases hc.kind with e | e | e
      · exact absurd e hk
      · exact .inr (.inl e)
      · exact .inr (.inr e)
    exact (frozen_run (W := W) hfr (Q := fun _ => True) (fun _ _ _ _ _ => trivial) (hf hk) ⟨rfl, new_shadow c _⟩ trivial).1.shadow
  generalize (Obj.new c).run W ops = o at h hshadow
  have hm : s ∈ c.slots := hc.types s t ht
  have hmo : s ∈ o.cls.slots := by rw [h.cls]; exact hm
  have hval : o.validate W (.str s) v = if W.isa v t = true then .ok () else .error .type := by
    simp only [Obj.validate, shadow_none h.validate, shadow_none (h.restricted _ hc.slotsTypes), h.cls, ht, raiseIf]
    cases W.isa v t <;> simp
  have hbase : o.baseSet (.str s) v = .ok { o with slot := assign o.slot s (some v) } :=
    baseSet_slot (shadow_none h.hidden) (by rw [h.cls]; exact hc.restricted s hm) hd hmo
  have hget : o.get (.str s) = o.slot s := by simp [Obj.get, hmo]
  obtain ⟨hput, hkeep⟩ := get_assign (v := v) hmo
  have hdeny : c.kind ≠ .typed → o.denyIfIn (.str s) = if (o.slot s).isSome then .error .permission else .ok () := by
    intro hk
    simp only [Obj.denyIfIn, Obj.contains, Obj.inContainer, hshadow hk, bind, Except.bind, raiseIf]
    cases e : o.slot s <;> simp [Obj.hasattr, hd, hmo, h.slots s hm, e]
  have hcur : o.get (.str s) = o.slot s := hget
  rw [hcur]
  unfold assigned
  rcases hc.kind with e | e | e
  · have hset : o.set W (.str s) v = if W.isa v t = true then .ok { o with slot := assign o.slot s (some v) } else .error .type := by
      simp only [Obj.set, h.cls, e, hval, hbase, bind, Except.bind]
      cases W.isa v t <;> rfl
    rw [hset]
    cases hi : W.isa v t
    · simp [e]
    · simp only [e]
      simpa using ⟨hput, hkeep⟩
  · have hset : o.set W (.str s) v = if (o.slot s).isSome then .error .permission
        else if W.isa v t = true then .ok { o with slot := assign o.slot s (some v) } else .error .type := by
      simp only [Obj.set, h.cls, e, hval, hbase, bind, Except.bind, hdeny (by rw [e]; decide)]
      cases o.slot s <;> cases W.isa v t <;> rfl
    rw [hset]
    cases hx : o.slot s <;> cases hi : W.isa v t
    · simp [e]
    · simp only [e]
      simpa [hx] using ⟨hput, hkeep⟩
    · simp [e]
    · simp [e]
  · by_cases hid : s = "CONFIG_ID"
    · subst hid
      have hset : o.set W (.str "CONFIG_ID") v = if W.isa v t = true then
          (match o.slot "CONFIG_ID" with
            | none => .ok { o with slot := assign o.slot "CONFIG_ID" (some v) }
            | some x => if W.same v x then .ok o else .error .value) else .error .type := by
        simp only [Obj.set, h.cls, e, if_pos, Obj.setConfigId, hval, bind, Except.bind]
        cases W.isa v t <;> rfl
      rw [hset]
      cases hx : o.slot "CONFIG_ID" <;> cases hi : W.isa v t
      · simp [e]
      · simp only [e]
        simpa [hx] using ⟨hput, hkeep⟩
      · simp [e]
      · rename_i x
        cases hsame : W.same v x
        · simp [e, hsame]
        · simp only [e]
          simpa [hsame] using hcur.trans hx
    · have hne : (Name.str s) ≠ .str "CONFIG_ID" := by
        intro e
        injection e with e
        exact hid e
      have hset : o.set W (.str s) v = if (o.slot s).isSome then .error .permission
          else if W.isa v t = true then .ok { o with slot := assign o.slot s (some v) } else .error .type := by
        simp only [Obj.set, h.cls, e, if_neg hne, hval, hbase, bind, Except.bind, hdeny (by rw [e]; decide)]
        cases o.slot s <;> cases W.isa v t <;> rfl
      rw [hset]
      cases hx : o.slot s <;> cases hi : W.isa v t
      · simp [e, hid]
      · simp only [e]
        simpa [hx, hid] using ⟨hput, hkeep⟩
      · simp [e, hid]
      · simp [e, hid]

theorem mem_eraseDups {l : List String} {s : String} : s ∈ l.eraseDups ↔ s ∈ l := List.mem_eraseDups

theorem mergeTypes_ok {checkable : Nat → Bool} {slots : List String} {l : List (List (String × Nat))} {r : List (String × Nat)} (h : mergeTypes checkable slots l = .ok r) :
    ∀ t ∈ r, checkable t.2 = true ∧ t.1 ≠ "__dict__" ∧ t.1 ∈ slots := by
  induction l generalizing r with
  | nil =>
    injection h with h
    subst h
    intro t ht
    cases ht
  | cons ts rest ih =>
    simp only [mergeTypes, bind_eq_ok, raiseIf_ok] at h
    obtain ⟨m, hm, _, h1, _, h2, _, h3, h4⟩ := h
    injection h4 with h4
    subst h4
    intro t ht
    rcases List.mem_append.1 ht with ht | ht
    · refine ⟨?_, ?_, ?_⟩
      · cases e : checkable t.2 with
        | true => rfl
        | false => exact absurd ⟨t, ht, e⟩ h1
      · exact fun e => h2 ⟨t, ht, e⟩
      · exact Classical.byContradiction fun e => h3 ⟨t, ht, e⟩
    · exact ih hm t ht

theorem lookup_mem {l : List (String × Nat)} {s : String} {t : Nat} (h : l.lookup s = some t) : (s, t) ∈ l := by
  induction l with
  | nil => cases h
  | cons a l ih =>
    obtain ⟨k, u⟩ := a
    simp only [List.lookup_cons] at h
    split at h
    · rename_i e
      have : s = k := by simpa using e
      injection h with h
      rw [this, h]
      exact List.mem_cons_self
    · exact List.mem_cons_of_mem _ (ih h)

/-- **C51** A class statement is accepted only if every slot has a type that can be checked and nothing else has one, and no slot has a restricted name. -/
theorem C51_declared {checkable : Nat → Bool} {kind : Kind} {mro : List Decl} {c : Cls} (hk : kind.Typed) (h : makeCls checkable kind mro = .ok c) :
    c.kind = kind ∧ (∀ s ∈ c.slots, s ≠ "__dict__" → ∃ t, c.types.lookup s = some t ∧ checkable t = true) ∧
    (∀ s t, c.types.lookup s = some t → s ∈ c.slots) ∧ (∀ s ∈ c.slots, s ∉ c.restricted) ∧
    (∀ d ∈ mro, ∀ s ∈ d.slots.getD [], s ∈ c.slots) ∧ (∀ d ∈ mro, ∀ s ∈ d.restricted, s ∈ c.restricted) := by
  simp only [makeCls, bind_eq_ok, raiseIf_ok] at h
  obtain ⟨_, h1, ts, ht, h2⟩ := h
  injection h2 with h2
  rw [declaredTypes, if_pos (show _ ∨ _ ∨ _ from hk)] at ht
  simp only [bind_eq_ok, raiseIf_ok] at ht
  obtain ⟨m, hm, _, h3, h4⟩ := ht
  injection h4 with h4
  subst h4
  have ht := And.intro hm h3
  have hok := mergeTypes_ok ht.1
  subst h2
  refine ⟨rfl, ?_, ?_, fun s hs hr => h1 ⟨s, hs, hr⟩, ?_, ?_⟩
  · intro s hs hne
    cases e : m.lookup s with
    | none => exact absurd ⟨s, hs, hne, e⟩ ht.2
    | some t => exact ⟨t, rfl, (hok _ (lookup_mem e)).1⟩
  · intro s t e
    exact (hok _ (lookup_mem e)).2.2
  · intro d hd s hs
    exact mem_eraseDups.2 (List.mem_flatten.2 ⟨_, List.mem_map.2 ⟨d, hd, rfl⟩, hs⟩)
  · intro d hd s hs
    exact mem_eraseDups.2 (List.mem_flatten.2 ⟨_, List.mem_map.2 ⟨d, hd, rfl⟩, hs⟩)

/-- Classes that were accepted are typed classes: `TypedSlots` itself makes `slots_types` a restricted name (typed_slots.py:72). -/
theorem typedCls_of_make {checkable : Nat → Bool} {kind : Kind} {mro : List Decl} {c : Cls} (hk : kind.Typed) (h : makeCls checkable kind mro = .ok c)
    (hb : ∃ d ∈ mro, "slots_types" ∈ d.restricted) : TypedCls c := by
  obtain ⟨h1, h2, h3, h4, h5, h6⟩ := C51_declared hk h
  obtain ⟨d, hd, hr⟩ := hb
  exact ⟨by rw [h1]; exact hk, h3, h4, h6 d hd _ hr⟩

/-- **C51** The negation: a typed object with a dictionary lets its own check be hidden, and then holds a value of any type. -/
theorem C51_check_hidden (W : World) (c : Cls) (hk : c.kind = .typed) (hd : c.hasDict = true) (hc : "_validate_type" ∉ c.slots ∧ "_validate_type" ∉ c.restricted)
    (s : String) (hs : s ∈ c.slots) (hr : s ∉ c.restricted) (hn : s ≠ "__dict__" ∧ s ≠ "__class__") (ht : c.types.lookup "_validate_type" = none) (v : Value) :
    ((Obj.new c).run W [.set (.str "_validate_type") .callable, .set (.str s) v]).get (.str s) = some v := by
  have h1 : (Obj.new c).set W (.str "_validate_type") .callable = .ok ⟨c, fun _ => none, assign (fun _ => none) (.str "_validate_type") (some .callable)⟩ := by
    have hsh : ∀ x, (Obj.new c).shadow x = none := new_shadow c
    have hv : (Obj.new c).validate W (.str "_validate_type") .callable = .ok () := by
      simp only [Obj.validate, hsh]
      simp [Obj.new, ht]
    simp only [Obj.set, Obj.new, hk] at hv ⊢
    rw [hv]
    simp [Obj.baseSet, Obj.inContainer, Obj.shadow, hc, hd, bind, Except.bind, Obj.setattr]
  have h2 : (⟨c, fun _ => none, assign (fun _ => none) (.str "_validate_type") (some .callable)⟩ : Obj).set W (.str s) v =
      .ok ⟨c, assign (fun _ => none) s (some v), assign (fun _ => none) (.str "_validate_type") (some .callable)⟩ := by
    have hv : (⟨c, fun _ => none, assign (fun _ => none) (.str "_validate_type") (some .callable)⟩ : Obj).validate W (.str s) v = .ok () := by
      simp [Obj.validate, Obj.shadow, hd, assign]
    simp only [Obj.set, hk, hv, bind, Except.bind]
    exact baseSet_slot (by simp [Obj.shadow, hd, assign]) hr hn hs
  simp only [Obj.run, Obj.step, once, h1, h2]
  simp [Obj.get, hs, assign_self]

/-! ### samples -/

/-- slots.py:39-90 `Slots` (its own declarations). -/
def slotsDecl : Decl := ⟨some [], ["keys", "values", "items", "update", "clear"], [], ["keys", "values", "items", "update", "clear", "_slots_set"]⟩

/-- typed_slots.py:36-74 `TypedSlots`. -/
def typedDecl : Decl := ⟨some [], ["slots_types"], [], ["slots_types", "_validate_type"]⟩

def sampleWorld : World := ⟨fun v t => match v with | .val id => id = t | _ => false, fun _ _ => true⟩

/-- A class with two typed slots. -/
def pairDecl : Decl := ⟨some ["a", "b"], [], [("a", 1), ("b", 2)], []⟩

/-- A frozen namespace with a slot. -/
def hybridDecl : Decl := ⟨some ["attr", "__dict__"], [], [], []⟩

theorem sample_classes : (∃ c, makeCls (fun _ => true) .frozenTyped [pairDecl, typedDecl, slotsDecl] = .ok c ∧ c.hasDict = false) ∧
    (∃ c, makeCls (fun _ => true) .frozen [hybridDecl, slotsDecl] = .ok c ∧ c.hasDict = true ∧ "__dict__" ∈ c.slots) := by
  refine ⟨⟨_, rfl, ?_⟩, ⟨_, rfl, ?_, ?_⟩⟩ <;> decide

example : ∃ c, makeCls (fun _ => true) .frozenTyped [pairDecl, typedDecl, slotsDecl] = .ok c ∧ TypedCls c ∧
    WellTyped sampleWorld ((Obj.new c).run sampleWorld [.set (.str "a") (.val 1), .set (.str "b") (.val 1), .set (.str "a") (.val 5), .clear]) ∧
    ((Obj.new c).run sampleWorld [.set (.str "a") (.val 1), .set (.str "b") (.val 1), .set (.str "a") (.val 5), .clear]).get (.str "a") = some (.val 1) := by
  obtain ⟨c, hc, hd⟩ := sample_classes.1
  have ht := typedCls_of_make (.inr (.inl rfl)) hc ⟨typedDecl, by simp, by simp [typedDecl]⟩
  refine ⟨c, hc, ht, (C51_types_partial _ c ht _ ?_).1, ?_⟩
  · intro op hop
    simp only [List.mem_cons, List.not_mem_nil, or_false] at hop
    rcases hop with rfl | rfl | rfl | rfl <;> simp [Op.TypedSafe, Op.Assigns, hd]
  · refine C50_frozen_partial sampleWorld c (.inr (.inl (C51_declared (.inr (.inl rfl)) hc).1)) [.set (.str "a") (.val 1)]
      [.set (.str "b") (.val 1), .set (.str "a") (.val 5), .clear] ?_ _ _ ?_
    · intro op hop
      simp only [List.cons_append, List.nil_append, List.mem_cons, List.not_mem_nil, or_false] at hop
      rcases hop with rfl | rfl | rfl | rfl <;> simp [Op.FrozenSafe, Op.Assigns, hd]
    · injection hc with hc
      subst hc
      rfl

example : ∃ c, makeCls (fun _ => true) .frozen [hybridDecl, slotsDecl] = .ok c ∧
    ((Obj.new c).run sampleWorld [.set (.str "attr") (.val 1), .set (.str "other") (.val 2), .set (.str "other") (.val 3)]).get (.str "other") = some (.val 2) ∧
    ((Obj.new c).run sampleWorld [.set (.str "other") (.val 2), .clear]).get (.str "other") = none ∧
    ((Obj.new c).run sampleWorld [.set (.str "attr") (.val 1), .set (.str "_slots_set") (.names []), .set (.str "attr") (.val 2)]).get (.str "attr") = some (.val 2) := by
  obtain ⟨c, hc, _⟩ := sample_classes.2
  refine ⟨c, hc, ?_, ?_, ?_⟩ <;>
  · injection hc with hc
    subst hc
    rfl

/-- A class of settings with an id. -/
def settingsDecl : Decl := ⟨some ["CONFIG_ID", "size"], [], [("CONFIG_ID", 1), ("size", 2)], []⟩

/-- Numbers; the type of a number is its last digit. -/
def settingsWorld : World := ⟨fun v t => match v with | .val id => id % 10 = t | _ => false,
  fun v w => match v, w with | .val a, .val b => a = b | _, _ => false⟩

example : ∃ c, makeCls (fun _ => true) .config [settingsDecl, typedDecl, slotsDecl] = .ok c ∧ TypedCls c ∧
    (let o := (Obj.new c).run settingsWorld [.set (.str "CONFIG_ID") (.val 11), .set (.str "size") (.val 22)]
     o.set settingsWorld (.str "CONFIG_ID") (.val 21) = .error .value ∧ o.set settingsWorld (.str "CONFIG_ID") (.val 12) = .error .type ∧
     o.set settingsWorld (.str "size") (.val 22) = .error .permission ∧ ∃ o', o.set settingsWorld (.str "CONFIG_ID") (.val 11) = .ok o') := by
  have hc : makeCls (fun _ => true) .config [settingsDecl, typedDecl, slotsDecl] = .ok _ := rfl
  have ht := typedCls_of_make (.inr (.inr rfl)) hc ⟨typedDecl, by simp, by simp [typedDecl]⟩
  have hsafe : ∀ c, ∀ op ∈ [Op.set (.str "CONFIG_ID") (.val 11), .set (.str "size") (.val 22)], op.TypedSafe c ∧ op.FrozenSafe c := by
    intro c op hop
    simp only [List.mem_cons, List.not_mem_nil, or_false] at hop
    rcases hop with rfl | rfl <;> exact ⟨⟨by simp [Op.Assigns], by simp [Op.Assigns]⟩, ⟨by simp [Op.Assigns], by simp [Op.Assigns]⟩⟩
  have key := fun s t h1 h2 v => C51_assignment settingsWorld _ ht _ (fun op h => (hsafe _ op h).1) (fun _ op h => (hsafe _ op h).2) s t h1 h2 v
  refine ⟨_, hc, ht, key "CONFIG_ID" 1 rfl (by decide) (.val 21), key "CONFIG_ID" 1 rfl (by decide) (.val 12), key "size" 2 rfl (by decide) (.val 22), ?_⟩
  obtain ⟨o', h, _⟩ := key "CONFIG_ID" 1 rfl (by decide) (.val 11)
  exact ⟨o', h⟩

/-! ### dictionaries -/

/-- `del obj.__dict__` empties the dictionary and leaves the slots; without a dictionary it raises `AttributeError`. -/
theorem C50_del_dict (o : Obj) (hk : o.cls.kind = .slots ∨ o.cls.kind = .typed) :
    (o.cls.hasDict = true → ∃ o', o.del (.str "__dict__") = .ok o' ∧ o'.cls = o.cls ∧ (∀ n, o'.dict n = none) ∧ o'.slot = o.slot) ∧
    (o.cls.hasDict = false → o.del (.str "__dict__") = .error .attribute) := by
  constructor <;> intro h <;> rcases hk with hk | hk <;> simp [Obj.del, hk, Obj.baseDel, Obj.delattr, h]

/-- A finding beside **C51**: a dictionary that is stored as `slots_types` in the instance takes the place of the declared types. Names that it has not are
not checked any more, and values for the names that it has are refused. -/
theorem C51_types_hidden (W : World) (o : Obj) (hk : o.cls.kind = .typed) (hd : o.cls.hasDict = true) (l : List (Name × Value))
    (hv : o.dict (.str "_validate_type") = none) (hl : o.dict (.str "slots_types") = some (.map l)) (hr : o.dict (.str "_RESTRICTED_ATTRIBUTES") = none)
    (s : String) (hs : s ∈ o.cls.slots) (hrs : s ∉ o.cls.restricted) (hn : s ≠ "__dict__" ∧ s ≠ "__class__") (v : Value) :
    ((∃ t, (Name.str s, t) ∈ l) → o.set W (.str s) v = .error .type) ∧
    ((¬ ∃ t, (Name.str s, t) ∈ l) → ∃ o', o.set W (.str s) v = .ok o' ∧ o'.get (.str s) = some v) := by
  have h1 : o.shadow "_validate_type" = none := by simp [Obj.shadow, hd, hv]
  have h2 : o.shadow "slots_types" = some (.map l) := by simp [Obj.shadow, hd, hl]
  have h3 : o.shadow "_RESTRICTED_ATTRIBUTES" = none := by simp [Obj.shadow, hd, hr]
  constructor
  · rintro ⟨t, ht⟩
    have ha : l.any (fun e => decide (e.1 = Name.str s)) = true := List.any_eq_true.2 ⟨_, ht, by simp⟩
    simp only [Obj.set, hk, Obj.validate, h1, h2, ha, raiseIf]
    rfl
  · intro ht
    have ha : l.any (fun e => decide (e.1 = Name.str s)) = false := by
      rw [List.any_eq_false]
      intro e he h
      have : e.1 = Name.str s := by simpa using h
      exact ht ⟨e.2, by rw [← this]; exact he⟩
    refine ⟨{ o with slot := assign o.slot s (some v) }, ?_, ?_⟩
    · simp only [Obj.set, hk, Obj.validate, h1, h2, ha, raiseIf]
      exact baseSet_slot h3 hrs hn hs
    · simp [Obj.get, hs, assign]

example : ∃ c : Cls, c.kind = .typed ∧ c.hasDict = true ∧
    ((Obj.new c).run settingsWorld [.set (.str "slots_types") (.map []), .set (.str "a") (.val 7)]).get (.str "a") = some (.val 7) ∧
    ((Obj.new c).run settingsWorld [.set (.str "a") (.val 7)]).get (.str "a") = none :=
  ⟨⟨.typed, ["a", "__dict__"], true, [], [("a", 1)], []⟩, rfl, rfl, by rfl, by rfl⟩

end Aiootp.Slots
