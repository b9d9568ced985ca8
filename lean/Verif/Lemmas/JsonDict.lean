import Verif.Lemmas.Json

namespace Aiootp.Json

variable {F : Type}

/-- `Items.set` on pairs. -/
def setPair : List (List Code × Val F) → List Code → Val F → List (List Code × Val F)
  | [], k, v => [(k, v)]
  | (k', v') :: ps, k, v => if k' = k then (k', v) :: ps else (k', v') :: setPair ps k v

theorem set_ofPairs (ps : List (List Code × Val F)) (k : List Code) (v : Val F) : (Items.ofPairs ps).set k v = .ofPairs (setPair ps k v) := by
  induction ps with
  | nil => rfl
  | cons p ps ih =>
    obtain ⟨k', v'⟩ := p
    simp only [Items.ofPairs, Items.set, setPair]
    split
    · rfl
    · rw [ih]; rfl

theorem dictOf_ofPairs (l ps : List (List Code × Val F)) : dictOf (.ofPairs l) ps = .ofPairs (ps.foldl (fun d p => setPair d p.1 p.2) l) := by
  induction ps generalizing l with
  | nil => rfl
  | cons p ps ih =>
    obtain ⟨k, v⟩ := p
    rw [dictOf, set_ofPairs, ih]
    rfl

theorem mem_firsts {k : List Code} (ks : List (List Code)) : k ∈ firsts ks ↔ k ∈ ks := by
  induction ks with
  | nil => exact Iff.rfl
  | cons k' ks ih =>
    simp only [firsts, List.mem_cons, List.mem_filter, ih, decide_eq_true_eq, ne_eq]
    by_cases h : k = k' <;> simp [h]

theorem nodup_firsts (ks : List (List Code)) : (firsts ks).Nodup := by
  induction ks with
  | nil => exact List.nodup_nil
  | cons k ks ih =>
    rw [firsts, List.nodup_cons]
    exact ⟨by simp, ih.filter _⟩

theorem firsts_append (ks : List (List Code)) (k : List Code) : firsts (ks ++ [k]) = if k ∈ ks then firsts ks else firsts ks ++ [k] := by
  induction ks with
  | nil => simp [firsts]
  | cons k' ks ih =>
    rw [List.cons_append, firsts, ih, firsts]
    by_cases hk : k = k'
    · subst hk
      rw [if_pos (List.mem_cons_self ..)]
      split
      · rfl
      · simp
    · simp only [List.mem_cons, hk, false_or]
      split
      · rfl
      · simp [hk]

theorem lastValue_append (k' : List Code) (ps : List (List Code × Val F)) (k : List Code) (v : Val F) :
    lastValue k' (ps ++ [(k, v)]) = if k = k' then some v else lastValue k' ps := by
  induction ps with
  | nil =>
    simp only [List.nil_append, lastValue, Option.none_or]
  | cons p ps ih =>
    obtain ⟨k1, v1⟩ := p
    rw [List.cons_append, lastValue, ih, lastValue]
    split <;> rfl

theorem lastValue_some {k : List Code} {ps : List (List Code × Val F)} (h : k ∈ ps.map (·.1)) : ∃ v, lastValue k ps = some v := by
  induction ps with
  | nil => cases h
  | cons p ps ih =>
    obtain ⟨k1, v1⟩ := p
    rw [lastValue]
    rcases List.mem_cons.1 h with h | h
    · cases lastValue k ps with
      | none => exact ⟨v1, by rw [if_pos h.symm]; rfl⟩
      | some v => exact ⟨v, rfl⟩
    · obtain ⟨v, hv⟩ := ih h
      exact ⟨v, by rw [hv]; rfl⟩

theorem setPair_new (f : List Code → Option (Val F)) (k : List Code) (v : Val F) (ls : List (List Code)) (hk : k ∉ ls) :
    setPair (ls.filterMap fun x => (f x).map fun y => (x, y)) k v = (ls.filterMap fun x => (f x).map fun y => (x, y)) ++ [(k, v)] := by
  induction ls with
  | nil => rfl
  | cons a ls ih =>
    have ha : ¬ a = k := fun e => hk (by simp [e])
    have ih' := ih (fun h => hk (by simp [h]))
    cases hf : f a with
    | none => simpa [hf] using ih'
    | some y => simpa [hf, setPair, ha] using ih'

theorem filterMap_other (f : List Code → Option (Val F)) (k : List Code) (v : Val F) (ls : List (List Code)) (hk : k ∉ ls) :
    (ls.filterMap fun x => (if k = x then some v else f x).map fun y => (x, y)) = ls.filterMap fun x => (f x).map fun y => (x, y) := by
  refine List.filterMap_congr fun x hx => ?_
  rw [if_neg (fun e : k = x => hk (e ▸ hx))]

theorem setPair_old (f : List Code → Option (Val F)) (k : List Code) (v : Val F) (ls : List (List Code)) (hk : k ∈ ls) (hn : ls.Nodup)
    (hf : ∀ x ∈ ls, ∃ y, f x = some y) :
    setPair (ls.filterMap fun x => (f x).map fun y => (x, y)) k v = ls.filterMap fun x => (if k = x then some v else f x).map fun y => (x, y) := by
  induction ls with
  | nil => cases hk
  | cons a ls ih =>
    obtain ⟨hna, hn'⟩ := List.nodup_cons.1 hn
    obtain ⟨y, hy⟩ := hf a (by simp)
    simp only [List.filterMap_cons, hy, Option.map_some, setPair]
    by_cases ha : a = k
    · subst ha
      rw [if_pos rfl, if_pos rfl, filterMap_other f a v ls hna]
      rfl
    · rw [if_neg ha, if_neg (fun e => ha e.symm)]
      have hk' : k ∈ ls := by
        rcases List.mem_cons.1 hk with h | h
        · exact absurd h.symm ha
        · exact h
      rw [ih hk' hn' (fun x hx => hf x (by simp [hx]))]
      rfl

theorem merged_append (ps : List (List Code × Val F)) (k : List Code) (v : Val F) : merged (ps ++ [(k, v)]) = setPair (merged ps) k v := by
  unfold merged
  rw [List.map_append, List.map_cons, List.map_nil, firsts_append]
  simp only [lastValue_append]
  split
  · rename_i h
    rw [setPair_old _ k v _ ((mem_firsts _).2 h) (nodup_firsts _) (fun x hx => lastValue_some ((mem_firsts _).1 hx))]
  · rename_i h
    have h' : k ∉ firsts (ps.map (·.1)) := fun hh => h ((mem_firsts _).1 hh)
    rw [setPair_new _ k v _ h', List.filterMap_append, filterMap_other _ k v _ h']
    simp

/-- The pairs of a text make the `dict` in which of equal names the last value is at the place of the first. -/
theorem dictOf_nil (ps : List (List Code × Val F)) : dictOf .nil ps = .ofPairs (merged ps) := by
  have h : ∀ ps : List (List Code × Val F), ps.foldl (fun d p => setPair d p.1 p.2) [] = merged ps := by
    intro ps
    induction ps using List.reverseRecOn with
    | nil => rfl
    | append_singleton ps p ih =>
      obtain ⟨k, v⟩ := p
      rw [List.foldl_append, ih, merged_append]
      rfl
  rw [← h]
  exact dictOf_ofPairs [] ps

theorem firsts_nodup {ks : List (List Code)} (h : ks.Nodup) : firsts ks = ks := by
  induction ks with
  | nil => rfl
  | cons k ks ih =>
    obtain ⟨h1, h2⟩ := List.nodup_cons.1 h
    rw [firsts, ih h2, List.filter_eq_self.2]
    intro a ha
    simp only [decide_eq_true_eq, ne_eq]
    rintro rfl
    exact h1 ha

theorem lastValue_nodup {ps : List (List Code × Val F)} (h : (ps.map (·.1)).Nodup) {p : List Code × Val F} (hp : p ∈ ps) : lastValue p.1 ps = some p.2 := by
  induction ps with
  | nil => cases hp
  | cons q ps ih =>
    obtain ⟨k, v⟩ := q
    rw [List.map_cons, List.nodup_cons] at h
    rw [lastValue]
    rcases List.mem_cons.1 hp with rfl | hp
    · have : lastValue k ps = none := by
        cases hl : lastValue k ps with
        | none => rfl
        | some w =>
          refine absurd ?_ h.1
          clear ih h hp
          induction ps with
          | nil => cases hl
          | cons q ps ih =>
            obtain ⟨k', v'⟩ := q
            rw [lastValue] at hl
            by_cases hk : k' = k
            · simp [hk]
            · rw [if_neg hk, Option.or_none] at hl
              simp only [List.map_cons, List.mem_cons]
              exact .inr (ih hl)
      rw [this, if_pos rfl]
      rfl
    · rw [ih h.2 hp]
      rfl

/-- Pairs with different names stay as they are. -/
theorem merged_nodup {ps : List (List Code × Val F)} (h : (ps.map (·.1)).Nodup) : merged ps = ps := by
  unfold merged
  rw [firsts_nodup h, List.filterMap_map]
  have : ∀ qs : List (List Code × Val F), (∀ q ∈ qs, q ∈ ps) → qs.filterMap ((fun k => (lastValue k ps).map fun v => (k, v)) ∘ fun x => x.1) = qs := by
    intro qs hq
    induction qs with
    | nil => rfl
    | cons q qs ih =>
      simp only [List.filterMap_cons, Function.comp, lastValue_nodup h (hq q (by simp)), Option.map_some]
      rw [show (q.1, q.2) = q from rfl]
      exact congrArg _ (ih (fun x hx => hq x (by simp [hx])))
  exact this ps (fun _ h => h)

theorem merged_keys (ps : List (List Code × Val F)) : (merged ps).map (·.1) = firsts (ps.map (·.1)) := by
  unfold merged
  have : ∀ ls : List (List Code), (∀ x ∈ ls, ∃ y, lastValue x ps = some y) →
      (ls.filterMap fun k => (lastValue k ps).map fun v => (k, v)).map (·.1) = ls := by
    intro ls h
    induction ls with
    | nil => rfl
    | cons a ls ih =>
      obtain ⟨y, hy⟩ := h a (by simp)
      simp only [List.filterMap_cons, hy, Option.map_some, List.map_cons]
      exact congrArg _ (ih (fun x hx => h x (by simp [hx])))
  exact this _ (fun x hx => lastValue_some ((mem_firsts _).1 hx))

theorem firsts_length {ks : List (List Code)} (h : (firsts ks).length = ks.length) : ks.Nodup := by
  have hle : ∀ ks : List (List Code), (firsts ks).length ≤ ks.length := by
    intro ks
    induction ks with
    | nil => exact Nat.le_refl _
    | cons k ks ih =>
      rw [firsts, List.length_cons, List.length_cons]
      have := List.length_filter_le (fun x => decide (x ≠ k)) (firsts ks)
      omega
  induction ks with
  | nil => exact List.nodup_nil
  | cons k ks ih =>
    rw [firsts, List.length_cons, List.length_cons] at h
    have h1 := List.length_filter_le (fun x => decide (x ≠ k)) (firsts ks)
    have h2 := hle ks
    have h3 : (firsts ks).filter (fun x => decide (x ≠ k)) = firsts ks := List.filter_eq_self.2 (by
      rw [← List.length_filter_eq_length_iff]; omega)
    refine List.nodup_cons.2 ⟨fun hk => ?_, ih (by omega)⟩
    have := (mem_firsts (k := k) ks).2 hk
    rw [← h3] at this
    simp at this

theorem merged_mem {ps : List (List Code × Val F)} {p : List Code × Val F} (h : p ∈ merged ps) : p ∈ ps := by
  unfold merged at h
  rw [List.mem_filterMap] at h
  obtain ⟨k, -, hv⟩ := h
  rw [Option.map_eq_some_iff] at hv
  obtain ⟨v, hv, rfl⟩ := hv
  induction ps with
  | nil => cases hv
  | cons q ps ih =>
    obtain ⟨k', v'⟩ := q
    rw [lastValue, Option.or_eq_some_iff] at hv
    rcases hv with hv | ⟨-, hv⟩
    · exact List.mem_cons_of_mem _ (ih hv)
    · split at hv
      · rename_i hk
        cases hv
        rw [hk]
        exact List.mem_cons_self ..
      · cases hv

end Aiootp.Json
