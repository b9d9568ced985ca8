import Verif.Lemmas.CipherShared

/-
Calls that run at the same time: each keeps its own objects, so each ends as if it were alone.
-/

namespace Aiootp.Cipher

open Prog

/-! ### interleaving -/

/-- The objects that call `i` has made are its own, nobody changes those of `base`, and each call will end as `res` says. -/
structure Calls.Inv (base : View) (res : Nat → Except Err Bytes) (w : Calls) (owns : Nat → View) : Prop where
  base_heap : ∀ a h, base a = some h → w.heap[a]? = some h
  own_heap : ∀ i a h, owns i a = some h → w.heap[a]? = some h
  base_own : ∀ i a, owns i a ≠ none → base a = none
  own_own : ∀ i j a, i ≠ j → owns i a = none ∨ owns j a = none
  ends : ∀ i (p : Prog Bytes), w.calls[i]? = some p → p.Ends base (owns i) fun r _ => r = res i

theorem sees_heap {base own : View} {heap : List Hasher} (h1 : ∀ a h, base a = some h → heap[a]? = some h) (h2 : ∀ a h, own a = some h → heap[a]? = some h)
    {a : Ref} {h : Hasher} (hs : sees base own a h) : heap[a]? = some h := by
  rcases hs with hs | ⟨_, hs⟩
  · exact h2 a h hs
  · exact h1 a h hs

theorem lt_of_heap {heap : List Hasher} {a : Ref} {h : Hasher} (hh : heap[a]? = some h) : a < heap.length := (List.getElem?_eq_some_iff.1 hh).1

theorem view_fresh {v : View} {heap : List Hasher} (hv : ∀ a h, v a = some h → heap[a]? = some h) : v heap.length = none := by
  cases hc : v heap.length with
  | none => rfl
  | some h => exact absurd (lt_of_heap (hv _ _ hc)) (Nat.lt_irrefl _)

theorem heap_grow {v : View} {heap : List Hasher} {c : Hasher} (hv : ∀ a h, v a = some h → heap[a]? = some h) : ∀ a h, v a = some h → (heap ++ [c])[a]? = some h := by
  intro a h ha
  have := hv a h ha
  rw [List.getElem?_append_left (lt_of_heap this), this]

theorem Calls.Inv.step {base : View} {res : Nat → Except Err Bytes} {w : Calls} {owns : Nat → View} (hw : Calls.Inv base res w owns) (i : Nat) :
    ∃ owns', Calls.Inv base res (w.step i) owns' := by
  unfold Calls.step
  cases hp : w.calls[i]? with
  | none => exact ⟨owns, hw⟩
  | some p =>
    have hlt : i < w.calls.length := (List.getElem?_eq_some_iff.1 hp).1
    have hi := hw.ends i p hp
    have others : ∀ (q : Prog Bytes) (own : View), q.Ends base own (fun r _ => r = res i) → ∀ j (p' : Prog Bytes), (w.calls.set i q)[j]? = some p' →
        p'.Ends base ((fun j => if j = i then own else owns j) j) fun r _ => r = res j := by
      intro q own hq j p' hj
      by_cases hji : j = i
      · subst hji
        rw [List.getElem?_set_self hlt] at hj
        cases hj
        simp only [if_true]
        exact hq
      · rw [List.getElem?_set_ne (Ne.symm hji)] at hj
        simp only [if_neg hji]
        exact hw.ends j p' hj
    cases p with
    | done r =>
      refine ⟨owns, hw.base_heap, hw.own_heap, hw.base_own, hw.own_own, ?_⟩
      intro j p' hj
      simp only [Prog.step] at hj
      by_cases hji : j = i
      · subst hji
        rw [List.getElem?_set_self hlt] at hj
        cases hj
        exact hi
      · rw [List.getElem?_set_ne (Ne.symm hji)] at hj
        exact hw.ends j p' hj
    | copy a next =>
      obtain ⟨c, hs, hn⟩ := hi
      have hh := sees_heap hw.base_heap (hw.own_heap i) hs
      have fi := view_fresh (hw.own_heap i)
      have fb := view_fresh hw.base_heap
      refine ⟨fun j => if j = i then (owns i).put w.heap.length c else owns j, ?_, ?_, ?_, ?_, ?_⟩
      · simp only [Prog.step, hh]
        exact heap_grow hw.base_heap
      · intro j b h hb
        simp only [Prog.step, hh]
        by_cases hji : j = i
        · subst hji
          simp only [if_true] at hb
          by_cases hbl : b = w.heap.length
          · subst hbl
            rw [View.put_self] at hb
            cases hb
            simp
          · rw [View.put_other hbl] at hb
            exact heap_grow (hw.own_heap j) b h hb
        · simp only [if_neg hji] at hb
          exact heap_grow (hw.own_heap j) b h hb
      · intro j b hb
        by_cases hji : j = i
        · subst hji
          simp only [if_true] at hb
          by_cases hbl : b = w.heap.length
          · subst hbl; exact fb
          · rw [View.put_other hbl] at hb
            exact hw.base_own j b hb
        · simp only [if_neg hji] at hb
          exact hw.base_own j b hb
      · intro j k b hjk
        have key : ∀ j, j ≠ i → (owns i).put w.heap.length c b = none ∨ owns j b = none := by
          intro j hj
          by_cases hbl : b = w.heap.length
          · subst hbl; exact .inr (view_fresh (hw.own_heap j))
          · rw [View.put_other hbl]; exact hw.own_own i j b (Ne.symm hj)
        by_cases hji : j = i
        · have hki : k ≠ i := fun h => hjk (hji.trans h.symm)
          simp only [if_pos hji, if_neg hki]
          exact key k hki
        · by_cases hki : k = i
          · simp only [if_neg hji, if_pos hki]
            exact (key j hji).symm
          · simp only [if_neg hji, if_neg hki]
            exact hw.own_own j k b hjk
      · simp only [Prog.step, hh]
        exact others _ _ (hn _ fi fb)
    | update a data next =>
      obtain ⟨c, hs, hn⟩ := hi
      have hh := hw.own_heap i a c hs
      have hal := lt_of_heap hh
      have hne : owns i a ≠ none := by rw [hs]; exact fun h => nomatch h
      refine ⟨fun j => if j = i then (owns i).put a { c with absorbed := c.absorbed ++ data } else owns j, ?_, ?_, ?_, ?_, ?_⟩
      · simp only [Prog.step, hh]
        intro b h hb
        have hba : b ≠ a := by
          rintro rfl
          rw [hw.base_own i b hne] at hb
          cases hb
        rw [List.getElem?_set_ne (Ne.symm hba)]
        exact hw.base_heap b h hb
      · intro j b h hb
        simp only [Prog.step, hh]
        by_cases hji : j = i
        · subst hji
          simp only [if_true] at hb
          by_cases hba : b = a
          · subst hba
            rw [View.put_self] at hb
            rw [List.getElem?_set_self hal]
            exact hb
          · rw [View.put_other hba] at hb
            rw [List.getElem?_set_ne (Ne.symm hba)]
            exact hw.own_heap j b h hb
        · simp only [if_neg hji] at hb
          have hba : b ≠ a := by
            rintro rfl
            rcases hw.own_own i j b (Ne.symm hji) with h' | h'
            · exact hne h'
            · rw [h'] at hb; cases hb
          rw [List.getElem?_set_ne (Ne.symm hba)]
          exact hw.own_heap j b h hb
      · intro j b hb
        by_cases hji : j = i
        · subst hji
          simp only [if_true] at hb
          by_cases hba : b = a
          · subst hba; exact hw.base_own j b hne
          · rw [View.put_other hba] at hb
            exact hw.base_own j b hb
        · simp only [if_neg hji] at hb
          exact hw.base_own j b hb
      · intro j k b hjk
        have key : ∀ j, j ≠ i → (owns i).put a { c with absorbed := c.absorbed ++ data } b = none ∨ owns j b = none := by
          intro j hj
          by_cases hba : b = a
          · subst hba
            exact .inr ((hw.own_own i j b (Ne.symm hj)).resolve_left hne)
          · rw [View.put_other hba]; exact hw.own_own i j b (Ne.symm hj)
        by_cases hji : j = i
        · have hki : k ≠ i := fun h => hjk (hji.trans h.symm)
          simp only [if_pos hji, if_neg hki]
          exact key k hki
        · by_cases hki : k = i
          · simp only [if_neg hji, if_pos hki]
            exact (key j hji).symm
          · simp only [if_neg hji, if_neg hki]
            exact hw.own_own j k b hjk
      · simp only [Prog.step, hh]
        exact others _ _ hn
    | digest a size next =>
      obtain ⟨c, hs, hn⟩ := hi
      have hh := sees_heap hw.base_heap (hw.own_heap i) hs
      have heq : (fun j => if j = i then owns i else owns j) = owns := by
        funext j
        by_cases hji : j = i <;> simp [hji]
      refine ⟨owns, ?_, ?_, hw.base_own, hw.own_own, ?_⟩
      · simp only [Prog.step, hh]; exact hw.base_heap
      · simp only [Prog.step, hh]; exact hw.own_heap
      · simp only [Prog.step, hh]
        have := others _ _ hn
        rw [heq] at this
        exact this

theorem Calls.Inv.run {base : View} {res : Nat → Except Err Bytes} (schedule : List Nat) : ∀ {w : Calls} {owns : Nat → View}, Calls.Inv base res w owns →
    ∃ owns', Calls.Inv base res (w.run schedule) owns' := by
  induction schedule with
  | nil => intro w owns h; exact ⟨owns, h⟩
  | cons i schedule ih =>
    intro w owns h
    obtain ⟨owns', h'⟩ := h.step i
    exact ih h'

theorem Calls.Inv.result {base : View} {res : Nat → Except Err Bytes} {w : Calls} {owns : Nat → View} (h : Calls.Inv base res w owns) {i : Nat} {r : Except Err Bytes}
    (hr : w.result i = some r) : r = res i := by
  unfold Calls.result at hr
  cases hp : w.calls[i]? with
  | none => rw [hp] at hr; simp at hr
  | some p =>
    rw [hp] at hr
    cases p with
    | done r' =>
      simp only [Option.some.injEq] at hr
      subst hr
      exact h.ends i _ hp
    | copy a next => simp at hr
    | update a data next => simp at hr
    | digest a size next => simp at hr

/-! ### endless schedules -/

theorem Calls.run_turns (w : Calls) (schedule : Nat → Nat) (n : Nat) :
    w.run ((List.range (n + 1)).map schedule) = (w.run ((List.range n).map schedule)).step (schedule n) := by
  simp [Calls.run, List.range_succ, List.foldl_append]

theorem Calls.step_other {w : Calls} {i j : Nat} (h : j ≠ i) : (w.step j).calls[i]? = w.calls[i]? := by
  unfold Calls.step
  cases w.calls[j]? with
  | none => rfl
  | some p => exact List.getElem?_set_ne h

theorem Calls.step_self {w : Calls} {i : Nat} {p : Prog Bytes} (h : w.calls[i]? = some p) : (w.step i).calls[i]? = some (p.step w.heap).2 := by
  have hlt : i < w.calls.length := (List.getElem?_eq_some_iff.1 h).1
  unfold Calls.step
  rw [h]
  exact List.getElem?_set_self hlt

/-- A call that gets a turn again and again ends. -/
theorem Calls.ends_fair (w : Calls) (schedule : Nat → Nat) (i : Nat) (hf : ∀ n, ∃ m, n ≤ m ∧ schedule m = i) (p : Prog Bytes) :
    ∀ n, (w.run ((List.range n).map schedule)).calls[i]? = some p → ∃ m r, n ≤ m ∧ (w.run ((List.range m).map schedule)).calls[i]? = some (.done r) := by
  have next : ∀ (q : Prog Bytes) n, (w.run ((List.range n).map schedule)).calls[i]? = some q →
      ∃ m, n ≤ m ∧ ∃ heap, (w.run ((List.range m).map schedule)).calls[i]? = some (q.step heap).2 := by
    intro q n hq
    obtain ⟨m, hm, hs⟩ := hf n
    obtain ⟨d, rfl⟩ := Nat.exists_eq_add_of_le hm
    clear hm
    induction d generalizing n with
    | zero => exact ⟨n + 1, Nat.le_succ n, _, by rw [Calls.run_turns, show schedule n = i from hs]; exact Calls.step_self hq⟩
    | succ d ih =>
      by_cases hn : schedule n = i
      · exact ⟨n + 1, Nat.le_succ n, _, by rw [Calls.run_turns, hn]; exact Calls.step_self hq⟩
      · obtain ⟨m, hm, heap, h⟩ := ih (n + 1) (by rw [Calls.run_turns, Calls.step_other hn]; exact hq) (by rw [← hs]; congr 1; omega)
        exact ⟨m, by omega, heap, h⟩
  induction p with
  | done r => intro n h; exact ⟨n, r, Nat.le_refl n, h⟩
  | copy a k ih =>
    intro n h
    obtain ⟨m, hm, heap, h'⟩ := next _ n h
    simp only [Prog.step] at h'
    cases hh : heap[a]? with
    | none => rw [hh] at h'; exact ⟨m, _, hm, h'⟩
    | some c =>
      rw [hh] at h'
      obtain ⟨m', r, hm', h''⟩ := ih _ m h'
      exact ⟨m', r, Nat.le_trans hm hm', h''⟩
  | update a data k ih =>
    intro n h
    obtain ⟨m, hm, heap, h'⟩ := next _ n h
    simp only [Prog.step] at h'
    cases hh : heap[a]? with
    | none => rw [hh] at h'; exact ⟨m, _, hm, h'⟩
    | some c =>
      rw [hh] at h'
      obtain ⟨m', r, hm', h''⟩ := ih m h'
      exact ⟨m', r, Nat.le_trans hm hm', h''⟩
  | digest a size k ih =>
    intro n h
    obtain ⟨m, hm, heap, h'⟩ := next _ n h
    simp only [Prog.step] at h'
    cases hh : heap[a]? with
    | none => rw [hh] at h'; exact ⟨m, _, hm, h'⟩
    | some c =>
      rw [hh] at h'
      obtain ⟨m', r, hm', h''⟩ := ih _ m h'
      exact ⟨m', r, Nat.le_trans hm hm', h''⟩

/-! ### one call alone -/

/-- The heap has the objects of both views, which have different references. -/
structure Covers (heap : List Hasher) (base own : View) : Prop where
  base_heap : ∀ a h, base a = some h → heap[a]? = some h
  own_heap : ∀ a h, own a = some h → heap[a]? = some h
  apart : ∀ a, own a ≠ none → base a = none

theorem Covers.alone {α : Type} {base : View} {Q : Except Err α → View → Prop} (p : Prog α) : ∀ {heap : List Hasher} {own : View}, Covers heap base own → p.Ends base own Q →
    ∃ v, Q (p.alone heap).1 v ∧ Covers (p.alone heap).2 base v := by
  induction p with
  | done r => intro heap own hc h; exact ⟨own, h, hc⟩
  | copy a k ih =>
    intro heap own hc h
    obtain ⟨c, hs, h⟩ := h
    have hh := sees_heap hc.base_heap hc.own_heap hs
    have fo := view_fresh hc.own_heap
    have fb := view_fresh hc.base_heap
    have := ih heap.length (heap := heap ++ [c]) (own := own.put heap.length c) ⟨heap_grow hc.base_heap, ?_, ?_⟩ (h _ fo fb)
    · simp only [Prog.alone, hh]; exact this
    · intro b h' hb
      by_cases hbl : b = heap.length
      · subst hbl
        rw [View.put_self] at hb
        cases hb
        simp
      · rw [View.put_other hbl] at hb
        exact heap_grow hc.own_heap b h' hb
    · intro b hb
      by_cases hbl : b = heap.length
      · subst hbl; exact fb
      · rw [View.put_other hbl] at hb
        exact hc.apart b hb
  | update a data k ih =>
    intro heap own hc h
    obtain ⟨c, hs, h⟩ := h
    have hh := hc.own_heap a c hs
    have hal := lt_of_heap hh
    have hne : own a ≠ none := by rw [hs]; exact fun h => nomatch h
    have := ih (heap := heap.set a { c with absorbed := c.absorbed ++ data }) ⟨?_, ?_, ?_⟩ h
    · simp only [Prog.alone, hh]; exact this
    · intro b h' hb
      have hba : b ≠ a := by
        rintro rfl
        rw [hc.apart b hne] at hb
        cases hb
      rw [List.getElem?_set_ne (Ne.symm hba)]
      exact hc.base_heap b h' hb
    · intro b h' hb
      by_cases hba : b = a
      · subst hba
        rw [View.put_self] at hb
        rw [List.getElem?_set_self hal]
        exact hb
      · rw [View.put_other hba] at hb
        rw [List.getElem?_set_ne (Ne.symm hba)]
        exact hc.own_heap b h' hb
    · intro b hb
      by_cases hba : b = a
      · subst hba; exact hc.apart b hne
      · rw [View.put_other hba] at hb
        exact hc.apart b hb
  | digest a size k ih =>
    intro heap own hc h
    obtain ⟨c, hs, h⟩ := h
    have hh := sees_heap hc.base_heap hc.own_heap hs
    have := ih _ hc h
    simp only [Prog.alone, hh]
    exact this

end Aiootp.Cipher
