import Verif.Spec.Views

/-
C75: the views of containers agree, and their `repr` shows no values.
-/

namespace Aiootp.Views

open Slots (Name)

variable {V : Type}

/-! ### dictionaries -/

private theorem find_put (d : List (Name × V)) (n m : Name) (v : V) : find (put d n v) m = if m = n then some v else find d m := by
  induction d with
  | nil =>
    by_cases h : n = m
    · subst h; simp [put, find]
    · simp [put, find, h, Ne.symm h]
  | cons x d ih =>
    obtain ⟨k, w⟩ := x
    simp only [put]
    by_cases hk : k = n
    · subst hk
      by_cases h : k = m
      · subst h; simp [find]
      · simp [find, h, Ne.symm h]
    · rw [if_neg hk]
      by_cases h : k = m
      · subst h
        simp [find, hk]
      · have h1 : find ((k, w) :: put d n v) m = find (put d n v) m := by simp [find, h]
        have h2 : find ((k, w) :: d) m = find d m := by simp [find, h]
        rw [h1, h2, ih]

private theorem keys_put (d : List (Name × V)) (n : Name) (v : V) :
    (put d n v).map (·.1) = if n ∈ d.map (·.1) then d.map (·.1) else d.map (·.1) ++ [n] := by
  induction d with
  | nil => simp [put]
  | cons x d ih =>
    obtain ⟨k, w⟩ := x
    simp only [put]
    by_cases hk : k = n
    · subst hk; simp
    · rw [if_neg hk]
      simp only [List.map_cons, ih, List.mem_cons]
      by_cases h : n ∈ d.map (·.1)
      · simp [h]
      · simp [h, Ne.symm hk]

private theorem find_drop (d : List (Name × V)) (n m : Name) : find (drop d n) m = if m = n then none else find d m := by
  induction d with
  | nil => simp [drop, find]
  | cons x d ih =>
    obtain ⟨k, w⟩ := x
    by_cases hk : k = n
    · subst hk
      have h1 : drop ((k, w) :: d) k = drop d k := by simp [drop]
      rw [h1, ih]
      by_cases h : m = k
      · simp [h]
      · simp [h, find, Ne.symm h]
    · have h1 : drop ((k, w) :: d) n = (k, w) :: drop d n := by simp [drop, hk]
      rw [h1]
      by_cases h : k = m
      · subst h; simp [find, hk]
      · have h2 : find ((k, w) :: drop d n) m = find (drop d n) m := by simp [find, h]
        have h3 : find ((k, w) :: d) m = find d m := by simp [find, h]
        rw [h2, h3, ih]

private theorem find_isSome (d : List (Name × V)) (n : Name) : (find d n).isSome = true ↔ n ∈ d.map (·.1) := by
  simp [find, List.find?_isSome]

/-! ### the invariant -/

/-- The value under a name. -/
private def value (o : Obj V) (n : Name) : Option V :=
  match n with
  | .str s => if s ∈ o.cls.slots then o.slot s else find o.dict n
  | .other _ => find o.dict n

private structure Inv (c : Cls) (o : Obj V) (m : Map V) : Prop where
  cls : o.cls = c
  value : ∀ n, value o n = m n
  nodup : (o.dict.map (·.1)).Nodup
  notSlot : ∀ n ∈ o.dict.map (·.1), c.isSlot n = false
  hasDict : c.hasDict = false → o.dict = []
  plain : o.slot "__dict__" = none
  plain' : ∀ n, (m n).isSome = true → Plain n
  admits : ∀ n, (m n).isSome = true → c.admits n = true

private theorem slot_value {o : Obj V} {s : String} (h : s ∈ o.cls.slots) : value o (.str s) = o.slot s := by simp [value, h]

private theorem dict_value {o : Obj V} {n : Name} (h : o.cls.isSlot n = false) : value o n = find o.dict n := by
  cases n with
  | str s => simp [Cls.isSlot] at h; simp [value, h]
  | other k => rfl

private theorem contains_value {c : Cls} {o : Obj V} {m : Map V} (h : Inv c o m) {n : Name} (hn : Plain n) : o.contains n = (m n).isSome := by
  rw [← h.value n]
  cases n with
  | other k => simp [Obj.contains, value]
  | str s =>
    by_cases hs : s ∈ o.cls.slots
    · have hnone : (find o.dict (.str s)).isSome = false := by
        cases hf : (find o.dict (.str s)).isSome with
        | false => rfl
        | true =>
          have := h.notSlot _ ((find_isSome _ _).1 hf)
          rw [h.cls] at hs
          simp [Cls.isSlot, hs] at this
      have hd : s ≠ "__dict__" := hn.2.1
      simp [Obj.contains, value, hs, hnone, Obj.hasSlot, hd]
    · simp [Obj.contains, value, hs]

private theorem inv_new (c : Cls) : Inv c (Obj.new c : Obj V) (fun _ => none) :=
  ⟨rfl, (fun n => by
    cases n with
    | str s => by_cases hs : s ∈ c.slots <;> simp [value, Obj.new, find, hs]
    | other k => rfl), by simp [Obj.new], by simp [Obj.new], fun _ => rfl, rfl, by simp, by simp⟩

private theorem with_same (m : Map V) (n : Name) (v : Option V) : m.with n v n = v := by simp [Map.with]

private theorem with_other (m : Map V) {n k : Name} (v : Option V) (h : k ≠ n) : m.with n v k = m k := by simp [Map.with, h]

/-- An assignment to a slot. -/
private theorem inv_slot {c : Cls} {o : Obj V} {m : Map V} (h : Inv c o m) {s : String} {v : V} (hs : s ∈ c.slots) (hp : Plain (.str s))
    (ha : c.admits (.str s) = true) : Inv c { o with slot := fun t => if t = s then some v else o.slot t } (m.with (.str s) (some v)) := by
  refine ⟨h.cls, ?_, h.nodup, h.notSlot, h.hasDict, ?_, ?_, ?_⟩
  · intro n
    by_cases hn : n = .str s
    · subst hn
      rw [with_same]
      have : s ∈ o.cls.slots := by rw [h.cls]; exact hs
      simp [value, this]
    · rw [with_other _ _ hn, ← h.value n]
      cases n with
      | other k => rfl
      | str t =>
        have : t ≠ s := fun e => hn (by rw [e])
        simp [value, this]
  · have : "__dict__" ≠ s := fun e => hp.2.1 e.symm
    simp [this, h.plain]
  · intro n hn
    by_cases hns : n = .str s
    · subst hns; exact hp
    · rw [with_other _ _ hns] at hn; exact h.plain' n hn
  · intro n hn
    by_cases hns : n = .str s
    · subst hns; exact ha
    · rw [with_other _ _ hns] at hn; exact h.admits n hn

/-- An assignment to the dictionary. -/
private theorem inv_dict {c : Cls} {o : Obj V} {m : Map V} (h : Inv c o m) {n : Name} {v : V} (hs : c.isSlot n = false) (hp : Plain n)
    (ha : c.admits n = true) : Inv c { o with dict := put o.dict n v } (m.with n (some v)) := by
  have hd : c.hasDict = true := by
    simp [Cls.admits, hs] at ha; exact ha.1
  refine ⟨h.cls, ?_, ?_, ?_, ?_, h.plain, ?_, ?_⟩
  · intro k
    by_cases hk : k = n
    · subst hk
      rw [with_same]
      have hs' : ({ o with dict := put o.dict k v } : Obj V).cls.isSlot k = false := by rw [← h.cls] at hs; exact hs
      rw [dict_value hs']
      simp [find_put]
    · rw [with_other _ _ hk, ← h.value k]
      cases k with
      | other j => simp [value, find_put, hk]
      | str t => simp [value, find_put, hk]
  · rw [keys_put]
    split
    · exact h.nodup
    · rename_i hn
      rw [List.nodup_append]
      refine ⟨h.nodup, by simp, ?_⟩
      intro a hmem b hb hab
      simp at hb
      subst hb hab
      exact hn hmem
  · intro k hk
    rw [keys_put] at hk
    split at hk
    · exact h.notSlot k hk
    · rcases List.mem_append.1 hk with hk | hk
      · exact h.notSlot k hk
      · simp at hk; subst hk; exact hs
  · intro hf; rw [hf] at hd; cases hd
  · intro k hk
    by_cases hkn : k = n
    · subst hkn; exact hp
    · rw [with_other _ _ hkn] at hk; exact h.plain' k hk
  · intro k hk
    by_cases hkn : k = n
    · subst hkn; exact ha
    · rw [with_other _ _ hkn] at hk; exact h.admits k hk

/-- Assignments are accepted exactly if the map accepts them. -/
private theorem inv_set {c : Cls} {o : Obj V} {m : Map V} (h : Inv c o m) {n : Name} (v : V) (hp : Plain n) :
    (m.accepts c n = true → ∃ o', o.set n v = .ok o' ∧ Inv c o' (m.with n (some v))) ∧ (m.accepts c n = false → ∃ e, o.set n v = .error e) := by
  have hc := contains_value h hp
  have hcls := h.cls
  constructor
  · intro ha
    simp only [Map.accepts, Bool.and_eq_true, Bool.or_eq_true, Bool.not_eq_true', Option.isNone_iff_eq_none] at ha
    obtain ⟨hadm, hfr⟩ := ha
    have hguard : (o.cls.frozen && o.contains n) = false := by
      rw [hc, hcls]
      rcases hfr with hfr | hfr
      · simp [hfr]
      · simp [hfr]
    unfold Obj.set
    rw [hguard]
    simp only [Bool.false_eq_true, if_false]
    have hadm' := hadm
    cases n with
    | other k =>
      have hd : c.hasDict = true := by simpa [Cls.admits, Cls.isSlot] using hadm
      refine ⟨_, by rw [hcls, hd]; rfl, inv_dict h rfl hp hadm⟩
    | str s =>
      simp only [Cls.admits, Bool.and_eq_true, Bool.or_eq_true, Bool.not_eq_true', decide_eq_false_iff_not, Cls.isSlot, decide_eq_true_eq] at hadm
      have hr : s ∉ o.cls.restricted := by rw [hcls]; exact hadm.2
      by_cases hs : s ∈ c.slots
      · refine ⟨_, by simp only [hr, if_false]; rw [if_pos (by rw [hcls]; exact hs)], inv_slot h hs hp hadm'⟩
      · have hd : c.hasDict = true := by rcases hadm.1 with h1 | h1; exact absurd h1 hs; exact h1
        refine ⟨_, by simp only [hr, if_false]; rw [if_neg (by rw [hcls]; exact hs), if_pos (by rw [hcls]; exact hd)], inv_dict h (by simp [Cls.isSlot, hs]) hp hadm'⟩
  · intro ha
    by_cases hguard : (o.cls.frozen && o.contains n) = true
    · exact ⟨.permission, by unfold Obj.set; rw [if_pos hguard]⟩
    · have hnot : c.admits n = false := by
        cases hadm : c.admits n with
        | false => rfl
        | true =>
          simp only [Map.accepts, hadm, Bool.true_and, Bool.or_eq_false_iff, Bool.not_eq_false', Option.isNone_eq_false_iff] at ha
          rw [hc, hcls, ha.1, ha.2] at hguard
          simp at hguard
      unfold Obj.set
      rw [if_neg hguard]
      cases n with
      | other k =>
        have hd : c.hasDict = false := by simpa [Cls.admits, Cls.isSlot] using hnot
        exact ⟨.attribute, by rw [hcls, hd]; rfl⟩
      | str s =>
        by_cases hr : s ∈ o.cls.restricted
        · exact ⟨.permission, by simp [hr]⟩
        · have hr' : s ∉ c.restricted := by rw [← hcls]; exact hr
          simp only [Cls.admits, Cls.isSlot, hr', decide_false, Bool.not_false, Bool.and_true, Bool.or_eq_false_iff, decide_eq_false_iff_not] at hnot
          refine ⟨.attribute, ?_⟩
          simp only [hr, if_false]
          rw [if_neg (by rw [hcls]; exact hnot.1), if_neg (by rw [hcls, hnot.2]; simp)]

private theorem with_none {m : Map V} {n : Name} (h : m n = none) : m.with n none = m := by
  funext k
  by_cases hk : k = n
  · subst hk; rw [with_same, h]
  · rw [with_other _ _ hk]

private theorem inv_forget {c : Cls} {o o' : Obj V} {m : Map V} {n : Name} (h : Inv c o m) (hcls : o'.cls = c) (hv : ∀ k, k ≠ n → value o' k = value o k)
    (hn : value o' n = none) (hnd : (o'.dict.map (·.1)).Nodup) (hsub : ∀ k ∈ o'.dict.map (·.1), k ∈ o.dict.map (·.1)) (hs : o'.slot "__dict__" = none) :
    Inv c o' (m.with n none) := by
  refine ⟨hcls, ?_, hnd, fun k hk => h.notSlot k (hsub k hk), ?_, hs, ?_, ?_⟩
  · intro k
    by_cases hk : k = n
    · subst hk; rw [with_same, hn]
    · rw [with_other _ _ hk, hv k hk, h.value]
  · intro hd
    have := h.hasDict hd
    cases hx : o'.dict with
    | nil => rfl
    | cons x l => have := hsub x.1 (by rw [hx]; simp); rw [h.hasDict hd] at this; simp at this
  · intro k hk
    by_cases hkn : k = n
    · subst hkn; rw [with_same] at hk; cases hk
    · rw [with_other _ _ hkn] at hk; exact h.plain' k hk
  · intro k hk
    by_cases hkn : k = n
    · subst hkn; rw [with_same] at hk; cases hk
    · rw [with_other _ _ hkn] at hk; exact h.admits k hk

private theorem drop_sub (d : List (Name × V)) (n k : Name) (h : k ∈ (drop d n).map (·.1)) : k ∈ d.map (·.1) := by
  simp only [drop, List.mem_map, List.mem_filter] at h ⊢
  obtain ⟨x, ⟨hx, _⟩, rfl⟩ := h
  exact ⟨x, hx, rfl⟩

private theorem drop_nodup {d : List (Name × V)} (n : Name) (h : (d.map (·.1)).Nodup) : ((drop d n).map (·.1)).Nodup :=
  h.sublist (List.filter_sublist.map _)

/-- Deletions. -/
private theorem inv_del {c : Cls} {o : Obj V} {m : Map V} (h : Inv c o m) (n : Name) (hf : c.frozen = false) :
    (∃ o', o.del n = .ok o' ∧ (m n).isSome = true ∧ Inv c o' (m.with n none)) ∨ (∃ e, o.del n = .error e ∧ m n = none) := by
  have hcls := h.cls
  have hfr : o.cls.frozen = false := by rw [hcls]; exact hf
  unfold Obj.del
  rw [hfr]
  simp only [Bool.false_eq_true, if_false]
  have dict : o.cls.isSlot n = false → (find o.dict n).isSome = true → (m n).isSome = true ∧ Inv c { o with dict := drop o.dict n } (m.with n none) := by
    intro hs hd
    refine ⟨by rw [← h.value n, dict_value hs]; exact hd, ?_⟩
    refine inv_forget h hcls ?_ ?_ (drop_nodup n h.nodup) (drop_sub _ _) h.plain
    · intro k hk
      cases k with
      | other j => simp [value, find_drop, hk]
      | str t => simp [value, find_drop, hk]
    · have hs' : ({ o with dict := drop o.dict n } : Obj V).cls.isSlot n = false := hs
      rw [dict_value hs']; simp [find_drop]
  have none' : o.cls.isSlot n = false → ¬ (find o.dict n).isSome = true → m n = none := by
    intro hs hd
    rw [← h.value n, dict_value hs]
    simpa using hd
  cases n with
  | other k =>
    by_cases hd : (find o.dict (.other k)).isSome = true
    · left; simp only [hd, if_true]
      exact ⟨_, rfl, (dict rfl hd).1, (dict rfl hd).2⟩
    · right; simp only [hd]
      by_cases hh : o.cls.hasDict = true
      · exact ⟨.key, by simp [hh], none' rfl hd⟩
      · exact ⟨.attribute, by simp [hh], none' rfl hd⟩
  | str s =>
    by_cases hs : s ∈ o.cls.slots
    · by_cases hd : (o.slot s).isSome = true
      · left; simp only [hs, hd, if_true]
        refine ⟨_, rfl, by rw [← h.value, slot_value hs]; exact hd, ?_⟩
        refine inv_forget h hcls ?_ ?_ h.nodup (fun _ hk => hk) ?_
        · intro k hk
          cases k with
          | other j => rfl
          | str t =>
            have : t ≠ s := fun e => hk (by rw [e])
            simp [value, this]
        · simp [value, hs]
        · simp only []
          split
          · rfl
          · exact h.plain
      · right; simp only [hs, hd, if_true]
        exact ⟨.attribute, by simp, by rw [← h.value, slot_value hs]; simpa using hd⟩
    · have hs' : o.cls.isSlot (.str s) = false := by simp [Cls.isSlot, hs]
      by_cases hd : (find o.dict (.str s)).isSome = true
      · left; simp only [hs, hd, if_true, if_false]
        exact ⟨_, rfl, (dict hs' hd).1, (dict hs' hd).2⟩
      · right; simp only [hs, hd, if_false]
        exact ⟨.attribute, by simp, none' hs' hd⟩

private theorem inv_update {c : Cls} (l : List (Name × V)) (hl : ∀ x ∈ l, Plain x.1) :
    ∀ {o : Obj V} {m : Map V}, Inv c o m → Inv c (o.update l).1 (m.update c l) := by
  induction l with
  | nil => intro o m h; exact h
  | cons x l ih =>
    intro o m h
    obtain ⟨n, v⟩ := x
    have hp : Plain n := hl (n, v) (by simp)
    simp only [Obj.update, Map.update]
    cases ha : m.accepts c n with
    | true =>
      obtain ⟨o', ho, h'⟩ := (inv_set h v hp).1 ha
      rw [ho]
      exact ih (fun x hx => hl x (by simp [hx])) h'
    | false =>
      obtain ⟨e, he⟩ := (inv_set h v hp).2 ha
      rw [he]
      exact h

private theorem clearSlots_frozen (l : List String) {o : Obj V} (hf : o.cls.frozen = true) : (o.clearSlots l).1 = o := by
  induction l with
  | nil => rfl
  | cons s l ih =>
    simp only [Obj.clearSlots]
    split
    · split
      · simp [hf]
      · exact ih
    · split
      · have : o.del (.str s) = .error .permission := by simp [Obj.del, hf]
        rw [this]
      · exact ih

private theorem clearSlots_mutable (l : List String) :
    ∀ {o : Obj V}, o.cls.frozen = false → o.dict = [] → (∀ s ∈ l, s ∈ o.cls.slots) → o.slot "__dict__" = none →
      o.clearSlots l = (⟨o.cls, fun t => if t ∈ l then none else o.slot t, []⟩, .ok ()) := by
  induction l with
  | nil => intro o hf hd hl hn; simp [Obj.clearSlots]; cases o; simp_all
  | cons s l ih =>
    intro o hf hd hl hn
    have hl' : ∀ t ∈ l, t ∈ o.cls.slots := fun t ht => hl t (by simp [ht])
    simp only [Obj.clearSlots]
    have same : o.slot s = none → (⟨o.cls, fun t => if t ∈ l then none else o.slot t, []⟩ : Obj V) = ⟨o.cls, fun t => if t ∈ s :: l then none else o.slot t, []⟩ := by
      intro hs
      congr 1
      funext t
      by_cases ht : t ∈ l
      · simp [ht]
      · by_cases hts : t = s
        · subst hts; simp [hs]
        · simp [ht, hts]
    by_cases hs : s = "__dict__"
    · have hns : o.slot s = none := by rw [hs]; exact hn
      have heq : ({ o with dict := [] } : Obj V) = o := by cases o; simp_all
      simp only [hs, if_true, hf, heq]
      rw [hs] at same hns
      split
      · simp only [Bool.false_eq_true, if_false]
        rw [ih hf hd hl' hn, same hns]
      · rw [ih hf hd hl' hn, same hns]
    · simp only [hs, if_false]
      by_cases hsome : (o.slot s).isSome = true
      · simp only [hsome, if_true]
        have hdel : o.del (.str s) = .ok { o with slot := fun t => if t = s then none else o.slot t } := by
          simp [Obj.del, hf, hl s (by simp), hsome]
        rw [hdel]
        simp only []
        rw [ih (o := { o with slot := fun t => if t = s then none else o.slot t }) hf hd hl' (by simp [hn])]
        simp only []
        congr 2
        funext t
        by_cases ht : t ∈ l
        · simp [ht]
        · simp [ht]
      · simp only [hsome]
        simp only [Bool.false_eq_true, if_false]
        rw [ih hf hd hl' hn, same (by simpa using hsome)]

private theorem inv_clear {c : Cls} {o : Obj V} {m : Map V} (h : Inv c o m) : Inv c o.clear.1 (m.step c .clear) := by
  have hcls := h.cls
  cases hf : c.frozen with
  | true =>
    have : o.clear.1 = { o with dict := [] } := clearSlots_frozen _ (by rw [hcls]; exact hf)
    rw [this]
    simp only [Map.step, hf, if_true]
    have hv : ∀ n, value ({ o with dict := [] } : Obj V) n = if c.isSlot n then m n else none := by
      intro n
      cases hs : c.isSlot n with
      | true =>
        rw [← h.value n]
        cases n with
        | other k => simp [Cls.isSlot] at hs
        | str s => simp [Cls.isSlot] at hs; simp [value, hcls, hs]
      | false =>
        have : ({ o with dict := [] } : Obj V).cls.isSlot n = false := by rw [← hcls] at hs; exact hs
        rw [dict_value this]; simp [find]
    refine ⟨hcls, hv, by simp, by simp, fun _ => rfl, h.plain, ?_, ?_⟩
    · intro n hn
      split at hn
      · exact h.plain' n hn
      · cases hn
    · intro n hn
      split at hn
      · exact h.admits n hn
      · cases hn
  | false =>
    have : o.clear = (⟨o.cls, fun t => if t ∈ o.cls.slots then none else o.slot t, []⟩, .ok ()) := by
      have := clearSlots_mutable o.cls.slots (o := { o with dict := [] }) (by rw [← hcls] at hf; exact hf) rfl (fun _ hs => hs) h.plain
      exact this
    rw [this]
    simp only [Map.step, hf, Bool.false_eq_true, if_false]
    refine ⟨hcls, ?_, by simp, by simp, fun _ => rfl, ?_, by simp, by simp⟩
    · intro n
      cases n with
      | other k => simp [value, find]
      | str s =>
        by_cases hs : s ∈ o.cls.slots
        · simp [value, hs]
        · simp [value, hs, find]
    · simp only []
      split
      · rfl
      · exact h.plain

private theorem inv_step {c : Cls} {o : Obj V} {m : Map V} (h : Inv c o m) (op : Op V) (hp : op.Plain) : Inv c (o.step op) (m.step c op) := by
  cases op with
  | set n v =>
    simp only [Obj.step, Map.step]
    cases ha : m.accepts c n with
    | true => obtain ⟨o', ho, h'⟩ := (inv_set h v hp).1 ha; rw [ho]; exact h'
    | false => obtain ⟨e, he⟩ := (inv_set h v hp).2 ha; rw [he]; exact h
  | del n =>
    simp only [Obj.step, Map.step]
    cases hf : c.frozen with
    | true =>
      have : o.del n = .error .permission := by simp [Obj.del, h.cls, hf]
      rw [this]; exact h
    | false =>
      rcases inv_del h n hf with ⟨o', ho, -, h'⟩ | ⟨e, he, hm⟩
      · rw [ho]; exact h'
      · rw [he]
        simp only [Bool.false_eq_true, if_false]
        rw [with_none hm]; exact h
  | update l => exact inv_update l hp h
  | clear => exact inv_clear h

private theorem inv_run {c : Cls} (ops : List (Op V)) (hp : ∀ op ∈ ops, op.Plain) : ∀ {o : Obj V} {m : Map V}, Inv c o m → Inv c (o.run ops) (m.run c ops) := by
  induction ops with
  | nil => intro o m h; exact h
  | cons op ops ih => intro o m h; exact ih (fun x hx => hp x (by simp [hx])) (inv_step h op (hp op (by simp)))

/-! ### the views -/

private theorem get_value {o : Obj V} (n : Name) (v : V) : o.get n = .ok v ↔ value o n = some v := by
  cases n with
  | str s =>
    simp only [Obj.get, value]
    cases (if s ∈ o.cls.slots then o.slot s else find o.dict (.str s)) <;> simp
  | other k =>
    simp only [Obj.get, value]
    cases find o.dict (.other k) <;> simp

private theorem nodup_keys {c : Cls} {o : Obj V} {m : Map V} (hc : c.Sound) (h : Inv c o m) : o.keys.Nodup := by
  refine List.Pairwise.filter _ ?_
  change List.Nodup _
  rw [List.nodup_append]
  refine ⟨?_, h.nodup, ?_⟩
  · rw [h.cls]
    refine List.Pairwise.map _ ?_ hc.nodup
    intro a b hab e
    exact hab (by injection e)
  · intro a ha b hb hab
    subst hab
    have := h.notSlot a hb
    obtain ⟨s, hs, rfl⟩ := List.mem_map.1 ha
    rw [h.cls] at hs
    simp [Cls.isSlot, hs] at this

private theorem mem_keys {c : Cls} {o : Obj V} {m : Map V} (hc : c.Sound) (h : Inv c o m) (n : Name) : n ∈ o.keys ↔ (m n).isSome = true ∧ c.shows n = true := by
  have shows : ∀ n : Name, c.shows n = true ↔ (match n with
      | .str s => decide (s ∈ o.cls.unmapped)
      | .other _ => false) = false := by
    intro n
    cases n with
    | other k => simp [Cls.shows]
    | str s => simp [Cls.shows, h.cls]
  simp only [Obj.keys, List.mem_filter, Bool.and_eq_true, Bool.not_eq_true']
  constructor
  · rintro ⟨-, hcon, hun⟩
    have hs := (shows n).2 hun
    refine ⟨?_, hs⟩
    have hp : n = .str "__dict__" ∨ o.contains n = (m n).isSome := by
      by_cases hd : n = .str "__dict__"
      · exact .inl hd
      · right
        -- names that are not plain have no value
        rw [← h.value n]
        cases n with
        | other k => simp [Obj.contains, value]
        | str s =>
          have hd' : s ≠ "__dict__" := fun e => hd (by rw [e])
          by_cases hsl : s ∈ o.cls.slots
          · have hnone : (find o.dict (.str s)).isSome = false := by
              cases hf : (find o.dict (.str s)).isSome with
              | false => rfl
              | true =>
                have := h.notSlot _ ((find_isSome _ _).1 hf)
                rw [h.cls] at hsl
                simp [Cls.isSlot, hsl] at this
            simp [Obj.contains, value, hsl, hnone, Obj.hasSlot, hd']
          · simp [Obj.contains, value, hsl]
    rcases hp with hp | hp
    · rw [hp] at hs; simp [Cls.shows, hc.unmapped] at hs
    · rw [← hp]; exact hcon
  · rintro ⟨hv, hs⟩
    refine ⟨?_, ?_, (shows n).1 hs⟩
    · rw [← h.value n] at hv
      rw [List.mem_append]
      cases n with
      | other k => right; exact (find_isSome _ _).1 hv
      | str s =>
        by_cases hsl : s ∈ o.cls.slots
        · left; simp [hsl]
        · right
          have : value o (.str s) = find o.dict (.str s) := by simp [value, hsl]
          rw [this] at hv
          exact (find_isSome _ _).1 hv
    · rw [contains_value h (h.plain' n hv)]; exact hv

private theorem items_of (o : Obj V) : ∀ (l : List Name) (m : Map V), (∀ n ∈ l, ∃ v, m n = some v ∧ o.get n = .ok v) →
    ∃ items, (l.mapM fun n => do let v ← o.get n; Except.ok (n, v) : Except Err (List (Name × V))) = .ok items ∧ items.map (·.1) = l ∧
      (∀ x ∈ items, m x.1 = some x.2) ∧ l.mapM o.get = .ok (items.map (·.2)) := by
  intro l m
  induction l with
  | nil => intro _; exact ⟨[], rfl, rfl, by simp, rfl⟩
  | cons n l ih =>
    intro h
    obtain ⟨v, hm, hg⟩ := h n (by simp)
    obtain ⟨items, h1, h2, h3, h4⟩ := ih (fun k hk => h k (by simp [hk]))
    refine ⟨(n, v) :: items, ?_, by simp [h2], ?_, ?_⟩
    · rw [List.mapM_cons, hg, h1]; rfl
    · intro x hx
      rcases List.mem_cons.1 hx with rfl | hx
      · exact hm
      · exact h3 x hx
    · rw [List.mapM_cons, hg, h4]; rfl

private theorem items_run {c : Cls} {o : Obj V} {m : Map V} (hc : c.Sound) (h : Inv c o m) :
    ∃ items, o.items = .ok items ∧ items.map (·.1) = o.keys ∧ (∀ x ∈ items, m x.1 = some x.2) ∧ o.values = .ok (items.map (·.2)) := by
  refine items_of o o.keys m ?_
  intro n hn
  obtain ⟨v, hv⟩ := Option.isSome_iff_exists.1 ((mem_keys hc h n).1 hn).1
  exact ⟨v, hv, (get_value n v).2 (by rw [h.value]; exact hv)⟩

/-- C75: after any history of assignments, deletions, updates and clearings (also those that raise), a container is the map that the history makes: `in` and `[]`
tell which names have which values, iteration gives each name that has a value and is not unmapped once, and `items`, `values`, `len` and `bool` agree with it. -/
theorem C75_views (c : Cls) (hc : c.Sound) (ops : List (Op V)) (hp : ∀ op ∈ ops, op.Plain) :
    let o := (Obj.new c : Obj V).run ops
    let m := Map.run c (fun _ => none) ops
    (∀ n, Plain n → (o.contains n = true ↔ ∃ v, m n = some v)) ∧
    (∀ n v, o.get n = .ok v ↔ m n = some v) ∧
    o.keys.Nodup ∧ (∀ n, n ∈ o.keys ↔ (∃ v, m n = some v) ∧ c.shows n = true) ∧
    (∃ items, o.items = .ok items ∧ items.map (·.1) = o.keys ∧ (∀ x ∈ items, m x.1 = some x.2) ∧ o.values = .ok (items.map (·.2))) ∧
    o.len = o.keys.length ∧ (o.truth = true ↔ o.keys ≠ []) := by
  intro o m
  have h : Inv c o m := inv_run ops hp (inv_new c)
  refine ⟨?_, ?_, nodup_keys hc h, ?_, items_run hc h, rfl, ?_⟩
  · intro n hn
    rw [contains_value h hn, Option.isSome_iff_exists]
  · intro n v
    rw [get_value, h.value]
  · intro n
    rw [mem_keys hc h, Option.isSome_iff_exists]
  · cases hk : o.keys with
    | nil => simp [Obj.truth, hk]
    | cons a l => simp [Obj.truth, hk]

/-- C75: after any history, an assignment is accepted exactly if the name is a slot or there is a dictionary, the name is not restricted, and, in frozen
containers, the name has no value; a deletion is accepted exactly if the container is not frozen and the name has a value. -/
theorem C75_accepts (c : Cls) (ops : List (Op V)) (hp : ∀ op ∈ ops, op.Plain) (n : Name) (v : V) (hn : Plain n) :
    let o := (Obj.new c : Obj V).run ops
    let m := Map.run c (fun _ => none) ops
    ((∃ o', o.set n v = .ok o') ↔ c.admits n = true ∧ (c.frozen = true → m n = none)) ∧
    ((∃ o', o.del n = .ok o') ↔ c.frozen = false ∧ m n ≠ none) := by
  intro o m
  have h : Inv c o m := inv_run ops hp (inv_new c)
  constructor
  · have hiff : m.accepts c n = true ↔ c.admits n = true ∧ (c.frozen = true → m n = none) := by
      cases hf : c.frozen <;> simp [Map.accepts, hf]
    rw [← hiff]
    constructor
    · rintro ⟨o', ho⟩
      cases ha : m.accepts c n with
      | true => rfl
      | false => obtain ⟨e, he⟩ := (inv_set h v hn).2 ha; rw [he] at ho; cases ho
    · intro ha
      obtain ⟨o', ho, -⟩ := (inv_set h v hn).1 ha
      exact ⟨o', ho⟩
  · cases hf : c.frozen with
    | true =>
      have : o.del n = .error .permission := by simp [Obj.del, h.cls, hf]
      simp [this]
    | false =>
      rcases inv_del h n hf with ⟨o', ho, hs, -⟩ | ⟨e, he, hm⟩
      · simp only [ho, true_and]
        refine ⟨fun _ e => ?_, fun _ => ⟨o', rfl⟩⟩
        rw [e] at hs; cases hs
      · simp [he, hm]

/-! ### order and copies -/

private theorem dict_part {c : Cls} {o : Obj V} {m : Map V} (hc : c.Sound) (h : Inv c o m) :
    o.keys = (c.slots.map Name.str).filter (fun n => (m n).isSome && c.shows n) ++ (o.dict.map (·.1)).filter (fun n => c.shows n) := by
  have hmem := mem_keys hc h
  simp only [Obj.keys] at hmem ⊢
  rw [List.filter_append, h.cls]
  congr 1
  · refine List.filter_congr ?_
    intro n hn
    have := hmem n
    rw [List.mem_filter, List.mem_append, h.cls] at this
    simp only [hn, true_or, true_and] at this
    rw [Bool.eq_iff_iff, this, Bool.and_eq_true]
  · refine List.filter_congr ?_
    intro n hn
    have := hmem n
    rw [List.mem_filter, List.mem_append, h.cls] at this
    simp only [hn, or_true, true_and] at this
    rw [Bool.eq_iff_iff, this]
    have hs : (m n).isSome = true := by
      rw [← h.value n, dict_value (by rw [h.cls]; exact h.notSlot n hn)]
      exact (find_isSome _ _).2 hn
    simp [hs]

private theorem filter_keys {c : Cls} {o : Obj V} {m : Map V} (hc : c.Sound) (h : Inv c o m) :
    o.keys.filter (fun n => !c.isSlot n) = (o.dict.map (·.1)).filter (fun n => c.shows n) := by
  rw [dict_part hc h, List.filter_append, List.filter_filter, List.filter_filter]
  have h1 : (c.slots.map Name.str).filter (fun a => !c.isSlot a && ((m a).isSome && c.shows a)) = [] := by
    rw [List.filter_eq_nil_iff]
    intro n hn
    obtain ⟨s, hs, rfl⟩ := List.mem_map.1 hn
    simp [Cls.isSlot, hs]
  rw [h1, List.nil_append]
  refine List.filter_congr ?_
  intro n hn
  simp [h.notSlot n hn]

/-- C75: iteration gives the slots first, in the order of their declaration, then the other names. Of these, a name that is set for the first time comes last, and
a name that is set again keeps its place. -/
theorem C75_order (c : Cls) (hc : c.Sound) (ops : List (Op V)) (hp : ∀ op ∈ ops, op.Plain) :
    let o := (Obj.new c : Obj V).run ops
    let m := Map.run c (fun _ => none) ops
    o.keys = (c.slots.map Name.str).filter (fun n => (m n).isSome && c.shows n) ++ o.keys.filter (fun n => !c.isSlot n) ∧
    ∀ n v, Plain n → c.isSlot n = false → c.shows n = true → m.accepts c n = true →
      (o.step (.set n v)).keys.filter (fun n => !c.isSlot n) =
        if n ∈ o.keys then o.keys.filter (fun n => !c.isSlot n) else o.keys.filter (fun n => !c.isSlot n) ++ [n] := by
  intro o m
  have h : Inv c o m := inv_run ops hp (inv_new c)
  refine ⟨?_, ?_⟩
  · rw [filter_keys hc h]; exact dict_part hc h
  · intro n v hn hs hsh ha
    have h' := inv_step h (.set n v) hn
    rw [filter_keys hc h', filter_keys hc h]
    have hset : (o.step (.set n v)).dict = put o.dict n v := by
      obtain ⟨o', ho, hi⟩ := (inv_set h v hn).1 ha
      have hguard : ¬ (o.cls.frozen && o.contains n) = true := by
        intro hg; simp [Obj.set, hg] at ho
      simp only [Obj.step]
      unfold Obj.set
      rw [if_neg hguard]
      unfold Obj.set at ho
      rw [if_neg hguard] at ho
      cases n with
      | other k =>
        by_cases hd : o.cls.hasDict = true
        · simp [hd]
        · simp [hd] at ho
      | str s =>
        have hs' : s ∉ o.cls.slots := by rw [h.cls]; simpa [Cls.isSlot] using hs
        by_cases hr : s ∈ o.cls.restricted
        · simp [hr] at ho
        · by_cases hd : o.cls.hasDict = true
          · simp [hr, hs', hd]
          · simp [hr, hs', hd] at ho
    rw [hset, keys_put]
    have hin : n ∈ o.keys ↔ n ∈ o.dict.map (·.1) := by
      rw [mem_keys hc h, ← h.value n, dict_value (by rw [h.cls]; exact hs), find_isSome]
      simp [hsh]
    by_cases hd : n ∈ o.dict.map (·.1)
    · rw [if_pos hd, if_pos (hin.2 hd)]
    · rw [if_neg hd, if_neg (fun hk => hd (hin.1 hk)), List.filter_append]
      simp [hsh]

private theorem update_fresh {c : Cls} (l : List (Name × V)) : ∀ {o : Obj V} {m : Map V}, Inv c o m → (l.map (·.1)).Nodup →
    (∀ x ∈ l, Plain x.1 ∧ m x.1 = none ∧ c.admits x.1 = true) →
    ∃ o' m', o.update l = (o', .ok ()) ∧ Inv c o' m' ∧ (∀ n, m' n = match l.find? (·.1 = n) with
      | some x => some x.2
      | none => m n) ∧ o'.dict.map (·.1) = o.dict.map (·.1) ++ (l.map (·.1)).filter (fun n => !c.isSlot n) := by
  induction l with
  | nil => intro o m h _ _; exact ⟨o, m, rfl, h, by simp, by simp⟩
  | cons x l ih =>
    intro o m h hnd hx
    obtain ⟨n, v⟩ := x
    obtain ⟨hp, hm, ha⟩ := hx (n, v) (by simp)
    simp only at hp hm ha
    have hacc : m.accepts c n = true := by simp [Map.accepts, ha, hm]
    obtain ⟨o₁, ho, h₁⟩ := (inv_set h v hp).1 hacc
    rw [List.map_cons, List.nodup_cons] at hnd
    obtain ⟨o', m', hu, h', hm', hk⟩ := ih h₁ hnd.2 (by
      intro y hy
      obtain ⟨h1, h2, h3⟩ := hx y (by simp [hy])
      refine ⟨h1, ?_, h3⟩
      have : y.1 ≠ n := fun e => hnd.1 (List.mem_map.2 ⟨y, hy, e⟩)
      rw [with_other _ _ this]; exact h2)
    refine ⟨o', m', by simp only [Obj.update, ho]; exact hu, h', ?_, ?_⟩
    · intro k
      rw [hm' k]
      by_cases hkn : n = k
      · subst hkn
        have : l.find? (fun x => decide (x.1 = n)) = none := by
          rw [List.find?_eq_none]
          intro y hy hyn
          exact hnd.1 (List.mem_map.2 ⟨y, hy, of_decide_eq_true hyn⟩)
        simp [this, with_same]
      · have hnk : k ≠ n := fun e => hkn e.symm
        simp only [List.find?_cons, hkn, decide_false]
        rw [with_other _ _ hnk]
    · rw [hk]
      -- what the assignment has done to the dictionary
      have hnone : n ∉ o.dict.map (·.1) := by
        intro hin
        have := (find_isSome _ _).2 hin
        rw [← dict_value (by rw [h.cls]; exact h.notSlot n hin), h.value, hm] at this
        cases this
      have hguard : (o.cls.frozen && o.contains n) = false := by rw [contains_value h hp, hm]; simp
      have hdict : o₁.dict.map (·.1) = o.dict.map (·.1) ++ if c.isSlot n then [] else [n] := by
        unfold Obj.set at ho
        rw [hguard] at ho
        simp only [Bool.false_eq_true, if_false] at ho
        cases n with
        | other k =>
          by_cases hd : o.cls.hasDict = true
          · simp only [hd, if_true] at ho
            cases ho
            rw [keys_put, if_neg hnone]; simp [Cls.isSlot]
          · simp [hd] at ho
        | str s =>
          by_cases hr : s ∈ o.cls.restricted
          · simp [hr] at ho
          · simp only [hr, if_false] at ho
            by_cases hs : s ∈ o.cls.slots
            · simp only [hs, if_true] at ho
              cases ho
              rw [h.cls] at hs
              simp [Cls.isSlot, hs]
            · simp only [hs, if_false] at ho
              by_cases hd : o.cls.hasDict = true
              · simp only [hd, if_true] at ho
                cases ho
                rw [h.cls] at hs
                rw [keys_put, if_neg hnone]; simp [Cls.isSlot, hs]
              · simp [hd] at ho
      rw [hdict]
      cases hs : c.isSlot n <;> simp [hs]

/-- C75: a new container that is made of the items of another one (`type(obj)(obj)`, `type(obj)(**obj)`) has the same items in the same order. -/
theorem C75_copy (c : Cls) (hc : c.Sound) (ops : List (Op V)) (hp : ∀ op ∈ ops, op.Plain) :
    let o := (Obj.new c : Obj V).run ops
    ∃ items o₂, o.items = .ok items ∧ (Obj.new c).update items = (o₂, .ok ()) ∧ o₂.keys = o.keys ∧ o₂.items = .ok items := by
  intro o
  have h : Inv c o _ := inv_run ops hp (inv_new c)
  generalize Map.run c (fun _ => none) ops = m at h
  obtain ⟨items, hi, hk, hv, -⟩ := items_run hc h
  have hnd := nodup_keys hc h
  rw [← hk] at hnd
  have hin : ∀ x ∈ items, x.1 ∈ o.keys := fun x hx => by rw [← hk]; exact List.mem_map_of_mem hx
  obtain ⟨o₂, m₂, hu, h₂, hm₂, hd⟩ := update_fresh items (inv_new c) hnd (by
    intro x hx
    have hs := ((mem_keys hc h x.1).1 (hin x hx)).1
    exact ⟨h.plain' _ hs, rfl, h.admits _ hs⟩)
  refine ⟨items, o₂, hi, hu, ?_, ?_⟩
  · rw [dict_part hc h₂, dict_part hc h, hd]
    have hval : ∀ n, c.shows n = true → m₂ n = m n := by
      intro n hs
      rw [hm₂ n]
      cases hf : items.find? (·.1 = n) with
      | some x =>
        have := List.find?_some hf
        simp at this
        rw [← this, hv x (List.mem_of_find?_eq_some hf)]
      | none =>
        cases hmn : m n with
        | none => rfl
        | some v =>
          have : n ∈ o.keys := (mem_keys hc h n).2 ⟨by rw [hmn]; rfl, hs⟩
          rw [← hk] at this
          obtain ⟨x, hx, hxn⟩ := List.mem_map.1 this
          have := List.find?_eq_none.1 hf x hx
          simp [hxn] at this
    congr 1
    · refine List.filter_congr ?_
      intro n _
      cases hs : c.shows n with
      | false => simp
      | true => rw [hval n hs]
    · have hdn : (Obj.new c : Obj V).dict = [] := rfl
      rw [hdn, List.map_nil, List.nil_append, hk, filter_keys hc h, List.filter_filter]
      simp
  · obtain ⟨items₂, hi₂, hk₂, hv₂, -⟩ := items_run hc h₂
    have hkeys : items₂.map (·.1) = items.map (·.1) := by
      rw [hk₂, hk, dict_part hc h₂, dict_part hc h, hd]
      have hval : ∀ n, c.shows n = true → m₂ n = m n := by
        intro n hs
        rw [hm₂ n]
        cases hf : items.find? (·.1 = n) with
        | some x =>
          have := List.find?_some hf
          simp at this
          rw [← this, hv x (List.mem_of_find?_eq_some hf)]
        | none =>
          cases hmn : m n with
          | none => rfl
          | some v =>
            have : n ∈ o.keys := (mem_keys hc h n).2 ⟨by rw [hmn]; rfl, hs⟩
            rw [← hk] at this
            obtain ⟨x, hx, hxn⟩ := List.mem_map.1 this
            have := List.find?_eq_none.1 hf x hx
            simp [hxn] at this
      congr 1
      · refine List.filter_congr ?_
        intro n _
        cases hs : c.shows n with
        | false => simp
        | true => rw [hval n hs]
      · have hdn : (Obj.new c : Obj V).dict = [] := rfl
        rw [hdn, List.map_nil, List.nil_append, hk, filter_keys hc h, List.filter_filter]
        simp
    rw [hi₂]
    congr 1
    refine List.ext_getElem (by simpa using congrArg List.length hkeys) ?_
    intro i h1 h2
    have e1 : (items₂[i]).1 = (items[i]).1 := by
      have := congrArg (fun l => l[i]?) hkeys
      simp only [List.getElem?_map, List.getElem?_eq_getElem h1, List.getElem?_eq_getElem h2, Option.map_some, Option.some.injEq] at this
      exact this
    have e2 := hv₂ _ (List.getElem_mem h1)
    rw [hm₂] at e2
    have hx := List.getElem_mem h2
    have hfind : items.find? (fun x => decide (x.1 = (items₂[i]).1)) = some items[i] := by
      rw [e1]
      have : ∀ (l : List (Name × V)) (x : Name × V), (l.map (·.1)).Nodup → x ∈ l → l.find? (fun y => decide (y.1 = x.1)) = some x := by
        intro l x
        induction l with
        | nil => intro _ hx; cases hx
        | cons y l ih =>
          intro hnd hx
          rw [List.map_cons, List.nodup_cons] at hnd
          rcases List.mem_cons.1 hx with rfl | hx
          · simp
          · have : y.1 ≠ x.1 := fun e => hnd.1 (by rw [e]; exact List.mem_map_of_mem hx)
            simp only [List.find?_cons, this, decide_false]
            exact ih hnd.2 hx
      exact this items _ hnd hx
    rw [hfind] at e2
    simp only [Option.some.injEq] at e2
    exact Prod.ext e1 e2.symm

/-! ### `repr` -/

private theorem body_congr (S : Show V) : ∀ (l₁ l₂ : List (Name × V)), l₁.map (·.1) = l₂.map (·.1) →
    (∀ (i : Nat) (x y : Name × V), l₁[i]? = some x → l₂[i]? = some y → (S.str x.1).toList.head? ≠ some '_' → S.type x.2 = S.type y.2) →
    body S true l₁ = body S true l₂ := by
  intro l₁
  induction l₁ with
  | nil => intro l₂ h _; cases l₂ with
    | nil => rfl
    | cons y l => cases h
  | cons x l₁ ih =>
    intro l₂ h ht
    cases l₂ with
    | nil => cases h
    | cons y l₂ =>
      obtain ⟨n, v⟩ := x
      obtain ⟨k, w⟩ := y
      simp only [List.map_cons, List.cons.injEq] at h
      obtain ⟨rfl, h⟩ := h
      have ih' := ih l₂ h (fun i x y h1 h2 => ht (i + 1) x y (by simpa using h1) (by simpa using h2))
      simp only [body]
      cases hs : (S.str n).toList with
      | nil => rfl
      | cons a t =>
        simp only [ih']
        by_cases ha : a = '_'
        · simp [ha]
        · have := ht 0 (n, v) (n, w) rfl rfl (by simp [hs, ha])
          simp only at this
          simp [ha, this]

/-- C75: the `repr` of masked containers, without debugging, shows no values: two containers of a class whose names are the same, with values of the same types
for the names that do not begin with an underscore, have the same `repr`. -/
theorem C75_masked (S : Show V) (c : Cls) (hc : c.Sound) (ops₁ ops₂ : List (Op V)) (hp₁ : ∀ op ∈ ops₁, op.Plain) (hp₂ : ∀ op ∈ ops₂, op.Plain)
    (hk : ((Obj.new c : Obj V).run ops₁).keys = ((Obj.new c : Obj V).run ops₂).keys)
    (ht : ∀ n ∈ ((Obj.new c : Obj V).run ops₁).keys, (S.str n).toList.head? ≠ some '_' → ∀ v w, ((Obj.new c : Obj V).run ops₁).get n = .ok v →
      ((Obj.new c : Obj V).run ops₂).get n = .ok w → S.type v = S.type w) :
    ((Obj.new c : Obj V).run ops₁).repr S true false = ((Obj.new c : Obj V).run ops₂).repr S true false := by
  have h₁ : Inv c ((Obj.new c : Obj V).run ops₁) _ := inv_run ops₁ hp₁ (inv_new c)
  have h₂ : Inv c ((Obj.new c : Obj V).run ops₂) _ := inv_run ops₂ hp₂ (inv_new c)
  generalize (Obj.new c : Obj V).run ops₁ = o₁ at *
  generalize (Obj.new c : Obj V).run ops₂ = o₂ at *
  obtain ⟨i₁, hi₁, hk₁, hv₁, -⟩ := items_run hc h₁
  obtain ⟨i₂, hi₂, hk₂, hv₂, -⟩ := items_run hc h₂
  have htr : o₁.truth = o₂.truth := by simp only [Obj.truth, hk]
  have hb : body S true i₁ = body S true i₂ := by
    refine body_congr S i₁ i₂ (by rw [hk₁, hk₂, hk]) ?_
    intro i x y hx hy hu
    have hxm := List.mem_of_getElem? hx
    have hym := List.mem_of_getElem? hy
    have hxy : x.1 = y.1 := by
      have : i₁.map (·.1) = i₂.map (·.1) := by rw [hk₁, hk₂, hk]
      have := congrArg (fun l => l[i]?) this
      simpa [hx, hy] using this
    refine ht x.1 (by rw [← hk₁]; exact List.mem_map_of_mem hxm) hu x.2 y.2 ?_ ?_
    · rw [get_value, h₁.value]; exact hv₁ x hxm
    · rw [get_value, h₂.value, hxy]; exact hv₂ y hym
  simp only [Obj.repr, hi₁, hi₂, htr, Bool.not_false, Bool.and_true]
  show (do let parts ← body S true i₁; _ : Except Err String) = do let parts ← body S true i₂; _
  rw [hb]

private theorem body_ok (S : Show V) (masked : Bool) : ∀ (l : List (Name × V)), (∀ x ∈ l, S.str x.1 ≠ "") → ∃ parts, body S masked l = .ok parts := by
  intro l
  induction l with
  | nil => intro _; exact ⟨[], rfl⟩
  | cons x l ih =>
    intro h
    obtain ⟨parts, hp⟩ := ih (fun y hy => h y (by simp [hy]))
    obtain ⟨n, v⟩ := x
    have hne := h (n, v) (by simp)
    simp only [body]
    cases hs : (S.str n).toList with
    | nil => exact absurd (String.toList_eq_nil_iff.1 hs) hne
    | cons a t =>
      simp only [hp]
      by_cases ha : a = '_'
      · exact ⟨parts, by simp [ha]; rfl⟩
      · refine ⟨_, by simp only [ha, if_false]; rfl⟩

private theorem body_index (S : Show V) (masked : Bool) : ∀ (l : List (Name × V)), (∃ x ∈ l, S.str x.1 = "") → body S masked l = .error .index := by
  intro l
  induction l with
  | nil => rintro ⟨x, hx, _⟩; cases hx
  | cons y l ih =>
    rintro ⟨x, hx, he⟩
    obtain ⟨n, v⟩ := y
    simp only [body]
    cases hs : (S.str n).toList with
    | nil => rfl
    | cons a t =>
      have : x ∈ l := by
        rcases List.mem_cons.1 hx with rfl | hx
        · simp [he] at hs
        · exact hx
      rw [ih ⟨x, this, he⟩]
      rfl

/-- C75: `repr` of a container returns if no name is shown as an empty string. -/
theorem C75_repr_partial (S : Show V) (c : Cls) (hc : c.Sound) (ops : List (Op V)) (hp : ∀ op ∈ ops, op.Plain) (mask debugging : Bool)
    (hn : ∀ n ∈ ((Obj.new c : Obj V).run ops).keys, S.str n ≠ "") : ∃ s, ((Obj.new c : Obj V).run ops).repr S mask debugging = .ok s := by
  have h : Inv c ((Obj.new c : Obj V).run ops) _ := inv_run ops hp (inv_new c)
  generalize (Obj.new c : Obj V).run ops = o at *
  obtain ⟨items, hi, hk, -, -⟩ := items_run hc h
  obtain ⟨parts, hb⟩ := body_ok S (mask && !debugging) items (fun x hx => hn x.1 (by rw [← hk]; exact List.mem_map_of_mem hx))
  simp only [Obj.repr, hi]
  show ∃ s, (do let parts ← body S (mask && !debugging) items; _ : Except Err String) = .ok s
  rw [hb]; exact ⟨_, rfl⟩

/-- C75: `repr` of a container with an empty name raises `IndexError`, whatever else is in it. -/
theorem C75_repr_raises (S : Show V) (c : Cls) (hc : c.Sound) (ops : List (Op V)) (hp : ∀ op ∈ ops, op.Plain) (mask debugging : Bool) (n : Name)
    (hn : n ∈ ((Obj.new c : Obj V).run ops).keys) (he : S.str n = "") : ((Obj.new c : Obj V).run ops).repr S mask debugging = .error .index := by
  have h : Inv c ((Obj.new c : Obj V).run ops) _ := inv_run ops hp (inv_new c)
  generalize (Obj.new c : Obj V).run ops = o at *
  obtain ⟨items, hi, hk, -, -⟩ := items_run hc h
  rw [← hk] at hn
  obtain ⟨x, hx, rfl⟩ := List.mem_map.1 hn
  simp only [Obj.repr, hi]
  show (do let parts ← body S (mask && !debugging) items; _ : Except Err String) = _
  rw [body_index S _ items ⟨x, hx, he⟩]; rfl

/-- The items that are shown: those whose names do not begin with an underscore. -/
def shown (S : Show V) (items : List (Name × V)) : List (Name × V) := items.filter fun x => (S.str x.1).toList.head? ≠ some '_'

/-- How an item is shown. -/
def line (S : Show V) (masked : Bool) (x : Name × V) : String := S.str x.1 ++ "=" ++ (if masked then S.omitted ++ S.type x.2 else S.repr x.2)

private theorem body_shown (S : Show V) (masked : Bool) : ∀ (l : List (Name × V)), (∀ x ∈ l, S.str x.1 ≠ "") → body S masked l = .ok ((shown S l).map (line S masked)) := by
  intro l
  induction l with
  | nil => intro _; rfl
  | cons y l ih =>
    intro h
    obtain ⟨n, v⟩ := y
    have hl := ih (fun x hx => h x (List.mem_cons_of_mem _ hx))
    simp only [body]
    cases hs : (S.str n).toList with
    | nil =>
      have := h (n, v) (by simp)
      exact absurd (String.toList_eq_nil_iff.1 hs) this
    | cons a t =>
      simp only [hl]
      by_cases ha : a = '_'
      · have : shown S ((n, v) :: l) = shown S l := by simp [shown, hs, ha]
        rw [this]; simp [bind, Except.bind, ha]
      · have : shown S ((n, v) :: l) = (n, v) :: shown S l := by simp [shown, hs, ha]
        rw [this]; simp [bind, Except.bind, ha, line]

private theorem intercalate_lines (a : String) (x : String) (l : List String) :
    a ++ ("," ++ a).intercalate (x :: l) ++ "," = String.join ((x :: l).map fun p => a ++ p ++ ",") := by
  induction l generalizing x with
  | nil => simp [String.join]
  | cons y l ih =>
    rw [String.intercalate_cons_cons, List.map_cons, String.join_cons, ← ih y]
    simp only [String.append_assoc]

/-- C75: the text of `repr`. An empty container is shown on one line; otherwise each item that is shown has its own line, and ends with a comma. Values are shown
only if the container is not masked, or debugging is on. -/
theorem C75_repr_text (S : Show V) (c : Cls) (hc : c.Sound) (ops : List (Op V)) (hp : ∀ op ∈ ops, op.Plain) (mask debugging : Bool)
    (hn : ∀ n ∈ ((Obj.new c : Obj V).run ops).keys, S.str n ≠ "") :
    let o := (Obj.new c : Obj V).run ops
    ∃ items, o.items = .ok items ∧
      (items = [] → o.repr S mask debugging = .ok (S.qualname ++ "()")) ∧
      (shown S items ≠ [] → o.repr S mask debugging = .ok (S.qualname ++ "(" ++
        String.join ((shown S items).map fun x => S.sep ++ "    " ++ line S (mask && !debugging) x ++ ",") ++ S.sep ++ ")")) := by
  intro o
  have h : Inv c o _ := inv_run ops hp (inv_new c)
  have hn' : ∀ n ∈ o.keys, S.str n ≠ "" := hn
  generalize o = o at *
  obtain ⟨items, hi, hk, -, -⟩ := items_run hc h
  have hb := body_shown S (mask && !debugging) items (fun x hx => hn' x.1 (by rw [← hk]; exact List.mem_map_of_mem hx))
  refine ⟨items, hi, ?_, ?_⟩
  · rintro rfl
    have htr : o.truth = false := by
      have : o.keys = [] := by rw [← hk]; rfl
      simp [Obj.truth, this]
    simp only [Obj.repr, hi, htr, Bool.false_eq_true, if_false]
    show Except.ok _ = _
    simp [String.append_assoc]
  · intro hne
    have htr : o.truth = true := by
      have : o.keys ≠ [] := by
        rw [← hk]
        intro he
        rw [List.map_eq_nil_iff] at he
        subst he
        exact hne rfl
      obtain ⟨a, l, e⟩ := List.exists_cons_of_ne_nil this
      simp [Obj.truth, e]
    obtain ⟨y, l, e⟩ := List.exists_cons_of_ne_nil hne
    simp only [Obj.repr, hi, htr, if_true]
    show (do let parts ← body S (mask && !debugging) items; _ : Except Err String) = _
    rw [hb, e]
    have hj := intercalate_lines (S.sep ++ "    ") (line S (mask && !debugging) y) (l.map (line S (mask && !debugging)))
    simp only [List.map_cons, List.map_map, Function.comp_def] at hj ⊢
    show Except.ok _ = _
    rw [← hj]
    simp only [String.append_assoc]

/-- C75: `clear` of a frozen container with a dictionary, or with a slot that is set, raises `PermissionError`, when the dictionary is empty already. -/
theorem C75_clear_frozen (o : Obj V) (hf : o.cls.frozen = true) (hs : ∃ s ∈ o.cls.slots, o.hasSlot s = true) :
    o.clear = ({ o with dict := [] }, .error .permission) := by
  unfold Obj.clear
  have key : ∀ (l : List String), (∃ s ∈ l, o.hasSlot s = true) → Obj.clearSlots { o with dict := [] } l = ({ o with dict := [] }, .error .permission) := by
    intro l
    induction l with
    | nil => rintro ⟨s, hs, _⟩; cases hs
    | cons t l ih =>
      rintro ⟨s, hs, ht⟩
      by_cases e : o.hasSlot t = true
      · simp only [Obj.clearSlots]
        by_cases ed : t = "__dict__"
        · simp only [Obj.hasSlot, if_pos ed] at e
          rw [if_pos ed, if_pos e, if_pos hf]
        · simp only [Obj.hasSlot, if_neg ed] at e
          rw [if_neg ed, if_pos e]
          simp only [Obj.del, hf, if_true]
      · have hl := ih (by
          rcases List.mem_cons.1 hs with rfl | hs
          · exact absurd ht e
          · exact ⟨s, hs, ht⟩)
        simp only [Obj.clearSlots]
        by_cases ed : t = "__dict__"
        · simp only [Obj.hasSlot, if_pos ed] at e
          rw [if_pos ed, if_neg e]; exact hl
        · simp only [Obj.hasSlot, if_neg ed] at e
          rw [if_neg ed, if_neg e]; exact hl
  exact key _ hs

/-! ### examples -/

section
/-- A class with two slots, a dictionary and an unmapped name. -/
private def c₀ (frozen : Bool) : Cls := ⟨["a", "b", "__dict__"], true, ["__dict__", "b"], ["keys"], frozen⟩

private theorem sound₀ (f : Bool) : (c₀ f).Sound := ⟨by simp [c₀], by simp [c₀], fun _ => rfl⟩

private def ops₀ : List (Op Nat) := [.set (.str "z") 1, .set (.other 7) 2, .set (.str "a") 3, .set (.str "b") 4, .set (.str "z") 5, .set (.str "keys") 6]

private theorem plain₀ : ∀ op ∈ ops₀, op.Plain := by
  intro op hop
  simp only [ops₀, List.mem_cons, List.not_mem_nil, or_false] at hop
  rcases hop with rfl | rfl | rfl | rfl | rfl | rfl <;> simp [Op.Plain, Plain]

example : ((Obj.new (c₀ false) : Obj Nat).run ops₀).items = .ok [(.str "a", 3), (.str "z", 5), (.other 7, 2)] := by rfl
example : ((Obj.new (c₀ true) : Obj Nat).run ops₀).items = .ok [(.str "a", 3), (.str "z", 1), (.other 7, 2)] := by rfl
example : ((Obj.new (c₀ true) : Obj Nat).run ops₀).contains (.str "b") = true := by rfl

private def S₀ : Show Nat where
  str := fun n => match n with
    | .str s => s
    | .other _ => "7"
  repr := fun v => toString v
  type := fun _ => "<class 'int'>"
  omitted := "<omitted>"
  qualname := "C"
  sep := "\n"

-- the hypotheses of `C75_masked` are met by different values
example : ((Obj.new (c₀ false) : Obj Nat).run ops₀).repr S₀ true false =
    ((Obj.new (c₀ false) : Obj Nat).run (.set (.str "z") 8 :: ops₀ ++ [.set (.str "a") 9])).repr S₀ true false :=
  C75_masked S₀ _ (sound₀ false) _ _ plain₀
    (by
      intro op hop
      simp only [List.cons_append, List.mem_cons, List.mem_append, List.not_mem_nil, or_false] at hop
      rcases hop with rfl | hop | rfl
      · simp [Op.Plain, Plain]
      · exact plain₀ op hop
      · simp [Op.Plain, Plain]) rfl (fun _ _ _ _ _ _ _ => rfl)

-- an empty name
example : ((Obj.new (c₀ false) : Obj Nat).run [.set (.str "") 1]).repr S₀ true false = .error .index :=
  C75_repr_raises S₀ _ (sound₀ false) _ (by simp [Op.Plain, Plain]) _ _ (.str "") (by decide +kernel) rfl
end

end Aiootp.Views
