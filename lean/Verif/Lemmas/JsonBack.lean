import Verif.Lemmas.JsonScan

namespace Aiootp.Json

variable {F : Type}

/-! ### surrogates -/

theorem joined_length (s : List Code) : (joined s).length ≤ s.length := by
  induction s using joined.induct with
  | case1 a b tail h ih => rw [joined, if_pos h]; simp only [List.length_cons]; omega
  | case2 a b tail h ih => rw [joined, if_neg h]; simp only [List.length_cons] at ih ⊢; omega
  | case3 s h =>
    match s, h with
    | [], _ => exact Nat.le_refl _
    | [a], _ => exact Nat.le_refl _
    | a :: b :: tail, h => exact absurd rfl (h a b tail)

theorem NoPair.tail {a : Code} {s : List Code} (h : NoPair (a :: s)) : NoPair s :=
  fun pre x y post e => h (a :: pre) x y post (by rw [e]; rfl)

theorem noPair_cons {a b : Code} {s : List Code} (h : ¬ ((0xd800 ≤ a.val ∧ a.val ≤ 0xdbff) ∧ 0xdc00 ≤ b.val ∧ b.val ≤ 0xdfff))
    (hs : NoPair (b :: s)) : NoPair (a :: b :: s) := by
  intro pre x y post e
  cases pre with
  | nil =>
    injection e with e1 e2
    injection e2 with e2 e3
    subst e1; subst e2
    exact h
  | cons z pre =>
    injection e with e1 e2
    exact hs pre x y post e2

theorem noPair_short {s : List Code} (h : ∀ a b tail, ¬ s = a :: b :: tail) : NoPair s := by
  intro pre x y post e
  cases pre with
  | nil => exact absurd e (h _ _ _)
  | cons z pre =>
    cases pre with
    | nil => exact absurd e (h _ _ _)
    | cons w pre => exact absurd e (h _ _ _)

/-- A string comes back as it was if and only if no two surrogates in it could be one character. -/
theorem joined_eq_iff (s : List Code) : joined s = s ↔ NoPair s := by
  induction s using joined.induct with
  | case1 a b tail h ih =>
    rw [joined, if_pos h]
    constructor
    · intro e
      have h1 := congrArg List.length e
      have h2 := joined_length tail
      simp only [List.length_cons] at h1
      omega
    · intro hn
      exact absurd h (hn [] a b tail rfl)
  | case2 a b tail h ih =>
    rw [joined, if_neg h]
    constructor
    · intro e
      injection e with _ e
      exact noPair_cons h (ih.1 e)
    · intro hn
      rw [ih.2 hn.tail]
  | case3 s h =>
    refine ⟨fun _ => noPair_short h, fun _ => ?_⟩
    match s, h with
    | [], _ => rfl
    | [a], _ => rfl
    | a :: b :: tail, h => exact absurd rfl (h a b tail)

theorem joined_head (s : List Code) : ∀ b, (joined s).head? = some b → s.head? = some b ∨ 0x10000 ≤ b.val := by
  induction s using joined.induct with
  | case1 a b tail h ih =>
    intro c hc
    rw [joined, if_pos h] at hc
    simp only [List.head?_cons, Option.some.injEq] at hc
    right
    rw [← hc, chr_val_of (by omega)]
    omega
  | case2 a b tail h ih =>
    intro c hc
    rw [joined, if_neg h] at hc
    exact .inl hc
  | case3 s h =>
    intro c hc
    match s, h with
    | [], _ => cases hc
    | [a], _ => exact .inl hc
    | a :: b :: tail, h => exact absurd rfl (h a b tail)

theorem noPair_any {a : Code} {s : List Code} (hs : NoPair s)
    (h : ∀ b, s.head? = some b → ¬ ((0xd800 ≤ a.val ∧ a.val ≤ 0xdbff) ∧ 0xdc00 ≤ b.val ∧ b.val ≤ 0xdfff)) : NoPair (a :: s) := by
  cases s with
  | nil => exact noPair_short (fun a b tail e => by injection e with _ e; cases e)
  | cons b s => exact noPair_cons (h b rfl) hs

theorem noPair_joined (s : List Code) : NoPair (joined s) := by
  induction s using joined.induct with
  | case1 a b tail h ih =>
    rw [joined, if_pos h]
    refine noPair_any ih (fun c _ => ?_)
    rw [chr_val_of (by omega)]
    omega
  | case2 a b tail h ih =>
    rw [joined, if_neg h]
    refine noPair_any ih (fun c hc hp => ?_)
    rcases joined_head _ c hc with he | he
    · simp only [List.head?_cons, Option.some.injEq] at he
      rw [he] at h
      exact h hp
    · omega
  | case3 s h =>
    match s, h with
    | [], _ => exact noPair_short (fun a b tail e => by cases e)
    | [a], _ => exact noPair_short (fun a b tail e => by injection e with _ e; cases e)
    | a :: b :: tail, h => exact absurd rfl (h a b tail)

theorem noPair_plain {t : Text} (h : Plain t) : NoPair (t.map chr) := by
  intro pre x y post e hp
  have hx : x ∈ t.map chr := by rw [e]; simp
  obtain ⟨c, hc, rfl⟩ := List.mem_map.1 hx
  have := h c hc
  rw [chr_val_of (by omega)] at hp
  omega

theorem noPair_keyString {E : Env F} (hE : E.Law) (k : Key F) : NoPair (keyString E k) := by
  cases k with
  | str s => exact noPair_joined s
  | int n =>
    refine noPair_plain ?_
    split
    · exact Plain.append (a := [45]) (fun c hc => by simp at hc; omega) (natText_digits _).plain
    · exact (natText_digits _).plain
  | float f => exact noPair_plain (scan_float hE f).2.1
  | bool b => exact noPair_plain (by cases b <;> (unfold Plain; decide))
  | none => exact noPair_plain (by unfold Plain; decide)
  | other => exact noPair_short (fun a b tail e => by cases e)

/-! ### which values come back -/

theorem ofPairs_keys (ps : List (List Code × Val F)) : (Items.ofPairs ps).keys = ps.map fun p => .str p.1 := by
  induction ps with
  | nil => rfl
  | cons p ps ih => simp only [Items.ofPairs, Items.keys, ih, List.map_cons]

theorem faithful_ofPairs (ps : List (List Code × Val F)) (h : ∀ p ∈ ps, NoPair p.1 ∧ Faithful p.2) : FaithfulItems (.ofPairs ps) := by
  induction ps with
  | nil => trivial
  | cons p ps ih => exact ⟨⟨p.1, rfl, (h p (by simp)).1⟩, (h p (by simp)).2, ih (fun q hq => h q (by simp [hq]))⟩

theorem nodup_str {ks : List (List Code)} : (ks.map (Key.str (F := F))).Nodup ↔ ks.Nodup := by
  constructor
  · exact List.Nodup.of_map _
  · exact fun h => h.map (fun a b e => by injection e)

def Items.length : Items F → Nat
  | .nil => 0
  | .cons _ _ items => items.length + 1

theorem ofPairs_length (ps : List (List Code × Val F)) : (Items.ofPairs ps).length = ps.length := by
  induction ps with
  | nil => rfl
  | cons p ps ih => simp only [Items.ofPairs, Items.length, ih, List.length_cons]

theorem backItems_length (E : Env F) : (items : Items F) → (backItems E items).length = items.length
  | .nil => rfl
  | .cons k v items => by rw [backItems, List.length_cons, backItems_length E items, Items.length]

mutual
theorem writable_of_dumps {E : Env F} : (v : Val F) → ∀ t, dumpsVal E v = .ok t → Writable E.limit v
  | .none, _, _ => trivial
  | .bool _, _, _ => trivial
  | .int n, t, h => by
    simp only [dumpsVal, intText] at h
    split at h
    · cases h
    · rw [Writable]; omega
  | .float _, _, _ => trivial
  | .str _, _, _ => trivial
  | .list xs, t, h => writableAll_of_dumps xs t (.inl h)
  | .tuple xs, t, h => writableAll_of_dumps xs t (.inl h)
  | .dict items, t, h => writableItems_of_dumps items t (.inl h)
  | .other, _, h => by cases h
theorem writableAll_of_dumps {E : Env F} : (xs : Vals F) → ∀ t, dumpsList E xs = .ok t ∨ dumpsTail E xs = .ok t → WritableAll E.limit xs
  | .nil, _, _ => trivial
  | .cons x xs, t, h => by
    simp only [dumpsList, dumpsTail, bind_eq_ok] at h
    rcases h with ⟨tx, hx, tt, htt, -⟩ | ⟨tx, hx, tt, htt, -⟩
    · exact ⟨writable_of_dumps x tx hx, writableAll_of_dumps xs tt (.inr htt)⟩
    · exact ⟨writable_of_dumps x tx hx, writableAll_of_dumps xs tt (.inr htt)⟩
theorem writableItems_of_dumps {E : Env F} : (items : Items F) → ∀ t, dumpsVal E (.dict items) = .ok t ∨ dumpsItems E items = .ok t →
    WritableItems E.limit items
  | .nil, _, _ => trivial
  | .cons k v items, t, h => by
    have hk : ∀ kt, keyText E k = .ok kt → k ≠ .other ∧ ∀ n, k = .int n → (natText n.natAbs).length ≤ E.limit := by
      intro kt hk
      refine ⟨fun e => (by rw [e] at hk; cases hk), fun n e => ?_⟩
      rw [e] at hk
      simp only [keyText, bind_eq_ok, intText] at hk
      obtain ⟨t', ht, -⟩ := hk
      split at ht
      · cases ht
      · omega
    simp only [dumpsVal, dumpsItems, bind_eq_ok] at h
    rcases h with ⟨kt, hkt, vt, hv, tt, htt, -⟩ | ⟨kt, hkt, vt, hv, tt, htt, -⟩
    · exact ⟨(hk kt hkt).1, (hk kt hkt).2, writable_of_dumps v vt hv, writableItems_of_dumps items tt (.inr htt)⟩
    · exact ⟨(hk kt hkt).1, (hk kt hkt).2, writable_of_dumps v vt hv, writableItems_of_dumps items tt (.inr htt)⟩
end

theorem keyText_ok {E : Env F} {k : Key F} (h1 : k ≠ .other) (h2 : ∀ n, k = .int n → (natText n.natAbs).length ≤ E.limit) :
    ∃ t, keyText E k = .ok t := by
  cases k with
  | other => exact absurd rfl h1
  | int n => exact ⟨_, by rw [keyText, intText, if_neg (by have := h2 n rfl; omega)]; rfl⟩
  | str s => exact ⟨_, rfl⟩
  | float f => exact ⟨_, rfl⟩
  | bool b => exact ⟨_, rfl⟩
  | none => exact ⟨_, rfl⟩

mutual
theorem dumps_of_writable {E : Env F} : (v : Val F) → Writable E.limit v → ∃ t, dumpsVal E v = .ok t
  | .none, _ => ⟨_, rfl⟩
  | .bool _, _ => ⟨_, rfl⟩
  | .int n, h => ⟨_, by rw [dumpsVal, intText, if_neg (by rw [Writable] at h; omega)]⟩
  | .float _, _ => ⟨_, rfl⟩
  | .str _, _ => ⟨_, rfl⟩
  | .list xs, h => (dumpsAll_of_writable xs h).1
  | .tuple xs, h => (dumpsAll_of_writable xs h).1
  | .dict items, h => (dumpsItems_of_writable items h).1
  | .other, h => h.elim
theorem dumpsAll_of_writable {E : Env F} : (xs : Vals F) → WritableAll E.limit xs → (∃ t, dumpsList E xs = .ok t) ∧ ∃ t, dumpsTail E xs = .ok t
  | .nil, _ => ⟨⟨_, rfl⟩, ⟨_, rfl⟩⟩
  | .cons x xs, h => by
    obtain ⟨tx, hx⟩ := dumps_of_writable x h.1
    obtain ⟨-, tt, htt⟩ := dumpsAll_of_writable xs h.2
    exact ⟨⟨_, by rw [dumpsList, hx, htt]; rfl⟩, ⟨_, by rw [dumpsTail, hx, htt]; rfl⟩⟩
theorem dumpsItems_of_writable {E : Env F} : (items : Items F) → WritableItems E.limit items →
    (∃ t, dumpsVal E (.dict items) = .ok t) ∧ ∃ t, dumpsItems E items = .ok t
  | .nil, _ => ⟨⟨_, rfl⟩, ⟨_, rfl⟩⟩
  | .cons k v items, h => by
    obtain ⟨kt, hk⟩ := keyText_ok h.1 h.2.1
    obtain ⟨tv, hv⟩ := dumps_of_writable v h.2.2.1
    obtain ⟨-, tt, htt⟩ := dumpsItems_of_writable items h.2.2.2
    exact ⟨⟨_, by rw [dumpsVal, hk, hv, htt]; rfl⟩, ⟨_, by rw [dumpsItems, hk, hv, htt]; rfl⟩⟩
end

mutual
theorem faithful_of_back {E : Env F} {limit : Nat} : (v : Val F) → Writable limit v → back E v = v → Faithful v
  | .none, _, _ => trivial
  | .bool _, _, _ => trivial
  | .int _, _, _ => trivial
  | .float _, _, _ => trivial
  | .str s, _, h => by
    rw [back] at h
    injection h with h
    exact (joined_eq_iff s).1 h
  | .list xs, hw, h => by
    rw [back] at h
    injection h with h
    exact faithfulAll_of_back xs hw h
  | .tuple xs, _, h => by rw [back] at h; cases h
  | .dict items, hw, h => by
    rw [back] at h
    injection h with h
    have hl := congrArg Items.length h
    rw [ofPairs_length, ← backItems_length E] at hl
    have hm := merged_keys (backItems E items)
    have hn : ((backItems E items).map (·.1)).Nodup := by
      refine firsts_length ?_
      rw [← hm, List.length_map, List.length_map, hl]
    rw [merged_nodup hn] at h
    refine ⟨faithfulItems_of_back items hw h, ?_⟩
    have hk := congrArg Items.keys h
    rw [ofPairs_keys] at hk
    rw [← hk]
    have := (nodup_str (F := F)).2 hn
    rwa [List.map_map] at this
  | .other, h, _ => h.elim
theorem faithfulAll_of_back {E : Env F} {limit : Nat} : (xs : Vals F) → WritableAll limit xs → backs E xs = xs → FaithfulAll xs
  | .nil, _, _ => trivial
  | .cons x xs, hw, h => by
    rw [backs] at h
    injection h with h1 h2
    exact ⟨faithful_of_back x hw.1 h1, faithfulAll_of_back xs hw.2 h2⟩
theorem faithfulItems_of_back {E : Env F} {limit : Nat} : (items : Items F) → WritableItems limit items →
    Items.ofPairs (backItems E items) = items → FaithfulItems items
  | .nil, _, _ => trivial
  | .cons k v items, hw, h => by
    rw [backItems, Items.ofPairs] at h
    injection h with h1 h2 h3
    refine ⟨⟨keyString E k, h1.symm, ?_⟩, faithful_of_back v hw.2.2.1 h2, faithfulItems_of_back items hw.2.2.2 h3⟩
    cases k with
    | str s => exact noPair_joined s
    | int n => cases h1
    | float f => cases h1
    | bool b => cases h1
    | none => cases h1
    | other => cases h1
end

mutual
theorem back_of_faithful {E : Env F} : (v : Val F) → Faithful v → back E v = v
  | .none, _ => rfl
  | .bool _, _ => rfl
  | .int _, _ => rfl
  | .float _, _ => rfl
  | .str s, h => by rw [back, (joined_eq_iff s).2 h]
  | .list xs, h => by rw [back, backs_of_faithful xs h]
  | .tuple _, h => h.elim
  | .dict items, h => by
    have e := backItems_of_faithful (E := E) items h.1
    have hn : ((backItems E items).map (·.1)).Nodup := by
      have hk := congrArg Items.keys e
      rw [ofPairs_keys] at hk
      have h2 := h.2
      rw [← hk, show (fun p : List Code × Val F => Key.str (F := F) p.1) = Key.str ∘ (·.1) from rfl, ← List.map_map] at h2
      exact (nodup_str (F := F)).1 h2
    rw [back, merged_nodup hn, e]
  | .other, h => h.elim
theorem backs_of_faithful {E : Env F} : (xs : Vals F) → FaithfulAll xs → backs E xs = xs
  | .nil, _ => rfl
  | .cons x xs, h => by rw [backs, back_of_faithful x h.1, backs_of_faithful xs h.2]
theorem backItems_of_faithful {E : Env F} : (items : Items F) → FaithfulItems items → Items.ofPairs (backItems E items) = items
  | .nil, _ => rfl
  | .cons k v items, h => by
    obtain ⟨⟨s, rfl, hs⟩, hv, hi⟩ := h
    rw [backItems, Items.ofPairs, back_of_faithful v hv, backItems_of_faithful items hi, keyString, (joined_eq_iff s).2 hs]
end

mutual
/-- What came back once comes back the next time. -/
theorem faithful_back {E : Env F} (hE : E.Law) {limit : Nat} : (v : Val F) → Writable limit v → Faithful (back E v) ∧ Writable limit (back E v)
  | .none, _ => ⟨trivial, trivial⟩
  | .bool _, _ => ⟨trivial, trivial⟩
  | .int _, h => ⟨trivial, h⟩
  | .float _, _ => ⟨trivial, trivial⟩
  | .str s, _ => ⟨noPair_joined s, trivial⟩
  | .list xs, h => faithful_backs hE xs h
  | .tuple xs, h => faithful_backs hE xs h
  | .dict items, h => by
    have hi := faithful_backItems hE items h
    refine ⟨⟨faithful_ofPairs _ (fun p hp => ?_), ?_⟩, ?_⟩
    · exact ⟨(hi p (merged_mem hp)).1, (hi p (merged_mem hp)).2.1⟩
    · rw [ofPairs_keys, show (fun p : List Code × Val F => Key.str (F := F) p.1) = Key.str ∘ (·.1) from rfl, ← List.map_map, merged_keys]
      exact nodup_str.2 (nodup_firsts _)
    · have : ∀ ps : List (List Code × Val F), (∀ p ∈ ps, Writable limit p.2) → WritableItems limit (.ofPairs ps) := by
        intro ps
        induction ps with
        | nil => exact fun _ => trivial
        | cons p ps ih =>
          exact fun h => ⟨fun e => (by cases e), fun n e => (by cases e), h p (by simp), ih (fun q hq => h q (by simp [hq]))⟩
      exact this _ (fun p hp => (hi p (merged_mem hp)).2.2)
  | .other, h => h.elim
theorem faithful_backs {E : Env F} (hE : E.Law) {limit : Nat} : (xs : Vals F) → WritableAll limit xs →
    FaithfulAll (backs E xs) ∧ WritableAll limit (backs E xs)
  | .nil, _ => ⟨trivial, trivial⟩
  | .cons x xs, h => by
    have h1 := faithful_back hE x h.1
    have h2 := faithful_backs hE xs h.2
    exact ⟨⟨h1.1, h2.1⟩, ⟨h1.2, h2.2⟩⟩
theorem faithful_backItems {E : Env F} (hE : E.Law) {limit : Nat} : (items : Items F) → WritableItems limit items →
    ∀ p ∈ backItems E items, NoPair p.1 ∧ Faithful p.2 ∧ Writable limit p.2
  | .nil, _ => fun p hp => by cases hp
  | .cons k v items, h => by
    intro p hp
    have h1 := faithful_back hE v h.2.2.1
    rcases List.mem_cons.1 hp with rfl | hp
    · exact ⟨noPair_keyString hE k, h1.1, h1.2⟩
    · exact faithful_backItems hE items h.2.2.2 p hp
end

end Aiootp.Json
