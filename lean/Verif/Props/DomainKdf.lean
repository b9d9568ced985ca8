import Verif.Model.DomainKdf
import Verif.Props.Canon

/-
Properties C04 (update histories) and C56 (copies are independent).
-/

namespace Aiootp.Kdf

open Canon

/-! ### Specification -/

/-- Specification: what a user thinks of kdf objects, each one is its own list of updates. A copy
starts with the updates of the object it was copied from. Updates without data, updates that cannot be
encoded and calls on objects that do not exist have no effect. -/
def specStep (blockSize : Nat) (s : List (List (List Bytes))) : Call → List (List (List Bytes))
  | .update i data =>
    if data ≠ [] ∧ (canonicalPack data blockSize [0] 8).toOption.isSome then
      s.modify i (fun updates => updates ++ [data])
    else s
  | .copy i =>
    match s[i]? with
    | none => s
    | some updates => s ++ [updates]

/-- The specification of a whole program, from a single object without updates. -/
def specRun (blockSize : Nat) (calls : List Call) : List (List (List Bytes)) :=
  calls.foldl (specStep blockSize) [[]]

/-- The bytes a payload has absorbed after a list of updates. -/
def absorbAll (blockSize : Nat) (payload : Bytes) : List (List Bytes) → Except Err Bytes
  | [] => .ok payload
  | u :: us => do
    let p ← absorbUpdate blockSize payload u
    absorbAll blockSize p us

/-! ### C04 -/

theorem absorbUpdate_ok {bs : Nat} {p : Bytes} {d : List Bytes} {q : Bytes} :
    absorbUpdate bs p d = .ok q ↔
      d ≠ [] ∧ ∃ packed, canonicalPack d bs [0] 8 = .ok packed ∧ q = p ++ packed := by
  unfold absorbUpdate
  cases d with
  | nil => simp
  | cons x xs =>
    simp only [List.isEmpty_cons, Bool.false_eq_true, if_false, bind_eq_ok, ne_eq, reduceCtorEq,
      not_false_eq_true, true_and]
    constructor
    · rintro ⟨a, ha, h⟩; cases h; exact ⟨a, ha, rfl⟩
    · rintro ⟨a, ha, rfl⟩; exact ⟨a, ha, rfl⟩

theorem absorbAll_grows {bs : Nat} {p x : Bytes} {us : List (List Bytes)}
    (h : absorbAll bs p us = .ok x) : ∃ t, x = p ++ t ∧ (us ≠ [] → t ≠ []) := by
  induction us generalizing p with
  | nil => cases h; exact ⟨[], by simp, by simp⟩
  | cons u us ih =>
    simp only [absorbAll, bind_eq_ok] at h
    obtain ⟨q, hq, h⟩ := h
    obtain ⟨_, packed, hp, rfl⟩ := absorbUpdate_ok.1 hq
    obtain ⟨t, rfl, _⟩ := ih h
    refine ⟨packed ++ t, by simp, ?_⟩
    intro _ h0
    have := (C06_pack_aligned hp).2.1
    simp only [List.append_eq_nil_iff] at h0
    rw [h0.1] at this
    simp at this

/-- C04. Two histories of `update` calls on kdfs that started from the same payload make them absorb
the same bytes only if they are the same history: the same number of calls with the same items. -/
theorem C04_update_history_injective {blockSize : Nat} {payload absorbed : Bytes}
    {history history' : List (List Bytes)}
    (h : absorbAll blockSize payload history = .ok absorbed)
    (h' : absorbAll blockSize payload history' = .ok absorbed) :
    history = history' := by
  suffices ∀ (us vs : List (List Bytes)) (p q x y : Bytes), absorbAll blockSize p us = .ok x →
      absorbAll blockSize q vs = .ok y → x = y → p = q → us = vs from
    this _ _ _ _ _ _ h h' rfl rfl
  intro us
  induction us with
  | nil =>
    intro vs p q x y hx hy hxy hpq
    cases vs with
    | nil => rfl
    | cons v vs =>
      exfalso
      cases hx
      obtain ⟨t, ht, hne⟩ := absorbAll_grows hy
      subst hpq
      rw [hxy] at ht
      have : t = [] := by simpa using (List.append_cancel_left (as := y) (bs := []) (cs := t) (by simpa using ht)).symm
      exact hne (by simp) this
  | cons u us ih =>
    intro vs p q x y hx hy hxy hpq
    subst hpq hxy
    cases vs with
    | nil =>
      exfalso
      cases hy
      obtain ⟨t, ht, hne⟩ := absorbAll_grows hx
      have : t = [] := by simpa using (List.append_cancel_left (as := p) (bs := []) (cs := t) (by simpa using ht)).symm
      exact hne (by simp) this
    | cons v vs =>
      have hx' := hx
      have hy' := hy
      simp only [absorbAll, bind_eq_ok] at hx hy
      obtain ⟨a, ha, hx⟩ := hx
      obtain ⟨b, hb, hy⟩ := hy
      obtain ⟨_, pa, hpa, rfl⟩ := absorbUpdate_ok.1 ha
      obtain ⟨_, pb, hpb, rfl⟩ := absorbUpdate_ok.1 hb
      obtain ⟨t, ht, _⟩ := absorbAll_grows hx
      obtain ⟨t', ht', _⟩ := absorbAll_grows hy
      have hcat : pa ++ t = pb ++ t' := by
        rw [ht] at ht'
        simp only [List.append_assoc] at ht'
        exact List.append_cancel_left ht'
      obtain ⟨e1, e2, _⟩ := C04_prefix_free hpa hpb hcat
      subst e1 e2
      rw [ih vs _ _ _ _ hx hy rfl rfl]

example : ∃ x, absorbAll 168 [9, 9] [[[1], [2, 3]], [[]]] = .ok x ∧ x ≠ [9, 9] := by
  have : (absorbAll 168 [9, 9] [[[1], [2, 3]], [[]]]).toOption.isSome = true ∧
      absorbAll 168 [9, 9] [[[1], [2, 3]], [[]]] ≠ .ok [9, 9] := by decide +kernel
  generalize absorbAll 168 [9, 9] [[[1], [2, 3]], [[]]] = z at this
  cases z with
  | ok x => exact ⟨x, rfl, fun e => this.2 (e ▸ rfl)⟩
  | error e => exact absurd this.1 (by simp [Except.toOption])

/-! ### C56 -/

theorem absorbAll_append {bs : Nat} {p : Bytes} {us : List (List Bytes)} {d : List Bytes} {q : Bytes}
    (h : absorbAll bs p us = .ok q) : absorbAll bs p (us ++ [d]) = absorbUpdate bs q d := by
  induction us generalizing p with
  | nil =>
    cases h
    simp only [List.nil_append, absorbAll]
    cases absorbUpdate bs q d <;> rfl
  | cons u us ih =>
    simp only [absorbAll, bind_eq_ok] at h
    obtain ⟨a, ha, h⟩ := h
    simp only [List.cons_append, absorbAll, ha, bind, Except.bind]
    exact ih h

/-- The invariant tying the heap to the specification. -/
structure Rel (bs : Nat) (payload : Bytes) (h : Heap) (s : List (List (List Bytes))) : Prop where
  length : h.kdfs.length = s.length
  nodup : h.kdfs.Nodup
  inb : ∀ r ∈ h.kdfs, r < h.payloads.length
  agree : ∀ i us, s[i]? = some us → ∃ x, h.absorbed i = some x ∧ absorbAll bs payload us = .ok x

theorem rel_start (bs : Nat) (payload : Bytes) : Rel bs payload (Heap.start payload) [[]] := by
  refine ⟨rfl, by simp [Heap.start], by simp [Heap.start], ?_⟩
  intro i us hi
  cases i with
  | zero => simp at hi; subst hi; exact ⟨payload, rfl, rfl⟩
  | succ i => simp at hi

theorem absorbed_eq {h : Heap} {i r : Nat} (hk : h.kdfs[i]? = some r) : h.absorbed i = h.payloads[r]? := by
  simp [Heap.absorbed, hk]

theorem rel_step {bs : Nat} {payload : Bytes} {h : Heap} {s : List (List (List Bytes))} (c : Call)
    (hr : Rel bs payload h s) :
    Rel bs payload (match step bs h c with | .ok h' => h' | .error _ => h) (specStep bs s c) := by
  cases c with
  | update i data =>
    simp only [step, specStep]
    cases hk : h.kdfs[i]? with
    | none =>
      have hi : s.length ≤ i := by
        have := List.getElem?_eq_none_iff.1 hk
        rw [hr.length] at this; exact this
      have : s.modify i (fun updates => updates ++ [data]) = s := List.modify_eq_self hi
      rw [this]
      simpa using hr
    | some r =>
      have hrb : r < h.payloads.length := hr.inb r (List.mem_of_getElem? hk)
      have hp : h.payloads[r]? = some h.payloads[r] := by simp [hrb]
      simp only [hp]
      by_cases hc : data ≠ [] ∧ (canonicalPack data bs [0] 8).toOption.isSome
      · obtain ⟨packed, hpk⟩ : ∃ x, canonicalPack data bs [0] 8 = .ok x := by
          have := hc.2
          cases hz : canonicalPack data bs [0] 8 with
          | ok x => exact ⟨x, rfl⟩
          | error e => simp [hz, Except.toOption] at this
        have hab : absorbUpdate bs h.payloads[r] data = .ok (h.payloads[r] ++ packed) :=
          absorbUpdate_ok.2 ⟨hc.1, packed, hpk, rfl⟩
        rw [if_pos hc]
        simp only [hab, bind, Except.bind]
        refine ⟨by simp [hr.length], hr.nodup, by simpa using hr.inb, ?_⟩
        intro j us hj
        by_cases hij : i = j
        · subst hij
          rw [List.getElem?_modify_eq] at hj
          obtain ⟨us0, hus0, rfl⟩ := Option.map_eq_some_iff.1 hj
          obtain ⟨x, hx1, hx2⟩ := hr.agree i us0 hus0
          rw [absorbed_eq hk, hp] at hx1
          cases hx1
          refine ⟨h.payloads[r] ++ packed, ?_, ?_⟩
          · simp [Heap.absorbed, hk, hrb]
          · rw [absorbAll_append hx2, hab]
        · rw [List.getElem?_modify] at hj
          simp only [if_neg hij, id_map'] at hj
          obtain ⟨x, hx1, hx2⟩ := hr.agree j us hj
          refine ⟨x, ?_, hx2⟩
          cases hkj : h.kdfs[j]? with
          | none => simp [Heap.absorbed, hkj] at hx1
          | some r' =>
            have hne : r ≠ r' := by
              intro he
              subst he
              have h1 := (List.getElem?_eq_some_iff.1 hk)
              have h2 := (List.getElem?_eq_some_iff.1 hkj)
              obtain ⟨l1, e1⟩ := h1
              obtain ⟨l2, e2⟩ := h2
              exact hij (nodup_getElem_inj hr.nodup l1 l2 (e1.trans e2.symm))
            rw [absorbed_eq hkj] at hx1
            simp only [Heap.absorbed, hkj]
            rw [List.getElem?_set_ne hne]
            exact hx1
      · rw [if_neg hc]
        have hab : ∃ e, absorbUpdate bs h.payloads[r] data = .error e := by
          cases hz : absorbUpdate bs h.payloads[r] data with
          | error e => exact ⟨e, rfl⟩
          | ok q =>
            exfalso
            obtain ⟨h1, packed, h2, _⟩ := absorbUpdate_ok.1 hz
            exact hc ⟨h1, by simp [h2, Except.toOption]⟩
        obtain ⟨e, he⟩ := hab
        simp only [he, bind, Except.bind]
        exact hr
  | copy i =>
    simp only [step, specStep]
    cases hk : h.kdfs[i]? with
    | none =>
      have hi : s.length ≤ i := by
        have := List.getElem?_eq_none_iff.1 hk
        rw [hr.length] at this; exact this
      rw [List.getElem?_eq_none_iff.2 hi]
      exact hr
    | some r =>
      have hrb : r < h.payloads.length := hr.inb r (List.mem_of_getElem? hk)
      have hp : h.payloads[r]? = some h.payloads[r] := by simp [hrb]
      simp only [hp]
      have hi : i < s.length := by
        have := (List.getElem?_eq_some_iff.1 hk).1
        rw [hr.length] at this; exact this
      have hs : s[i]? = some s[i] := by simp [hi]
      simp only [hs]
      refine ⟨by simp [hr.length], ?_, ?_, ?_⟩
      · rw [List.nodup_append]
        refine ⟨hr.nodup, by simp, ?_⟩
        intro a ha b hb
        have := hr.inb a ha
        simp at hb
        omega
      · intro x hx
        simp only [List.mem_append, List.mem_singleton] at hx
        rcases hx with hx | hx
        · have := hr.inb x hx; simp; omega
        · simp; omega
      · intro j us hj
        by_cases hjl : j < s.length
        · rw [List.getElem?_append_left hjl] at hj
          obtain ⟨x, hx1, hx2⟩ := hr.agree j us hj
          refine ⟨x, ?_, hx2⟩
          have hjk : j < h.kdfs.length := by rw [hr.length]; exact hjl
          have hkj : h.kdfs[j]? = some h.kdfs[j] := by simp [hjk]
          have hb := hr.inb _ (List.getElem_mem hjk)
          rw [absorbed_eq hkj] at hx1
          simp only [Heap.absorbed]
          rw [List.getElem?_append_left hjk, hkj]
          simp only
          rw [List.getElem?_append_left hb, hx1]
        · have hje : j = s.length := by
            rcases Nat.lt_or_ge s.length j with h1 | h1
            · rw [List.getElem?_eq_none_iff.2 (by simp; omega)] at hj; cases hj
            · omega
          subst hje
          simp at hj
          subst hj
          obtain ⟨x, hx1, hx2⟩ := hr.agree i _ hs
          rw [absorbed_eq hk, hp] at hx1
          cases hx1
          refine ⟨h.payloads[r], ?_, hx2⟩
          simp only [Heap.absorbed]
          rw [← hr.length]
          simp

theorem rel_run {bs : Nat} {payload : Bytes} (calls : List Call) {h : Heap} {s : List (List (List Bytes))}
    (hr : Rel bs payload h s) : Rel bs payload (run bs h calls) (calls.foldl (specStep bs) s) := by
  induction calls generalizing h s with
  | nil => exact hr
  | cons c cs ih =>
    have := rel_step c hr
    simp only [run, List.foldl_cons]
    cases hs : step bs h c with
    | ok h' => rw [hs] at this; exact ih this
    | error e => rw [hs] at this; exact ih this

/-- C56. After any program of `update` and `copy` calls, every kdf object has absorbed exactly its own
updates (those made before it was copied, on the object it was copied from, and those made
on it afterwards): no update of another object shows. -/
theorem C56_copies_independent (blockSize : Nat) (payload : Bytes) (calls : List Call) (i : Nat)
    (updates : List (List Bytes)) (h : (specRun blockSize calls)[i]? = some updates) :
    ∃ absorbed, (run blockSize (Heap.start payload) calls).absorbed i = some absorbed ∧
      absorbAll blockSize payload updates = .ok absorbed :=
  (rel_run calls (rel_start blockSize payload)).agree i updates h

/-- C56, second half: two objects (in any two programs) with the same updates give the same outputs. -/
theorem C56_same_updates_same_output (xof obj : Hasher) (payload : Bytes) (calls calls' : List Call)
    (i j : Nat) (updates : List (List Bytes))
    (h : (specRun xof.blockSize calls)[i]? = some updates)
    (h' : (specRun xof.blockSize calls')[j]? = some updates)
    (data : List Bytes) (size : Option Nat) (aad : Bytes) :
    ((run xof.blockSize (Heap.start payload) calls).absorbed i).map
        (fun p => runKdf xof obj p data size aad)
      = ((run xof.blockSize (Heap.start payload) calls').absorbed j).map
        (fun p => runKdf xof obj p data size aad) := by
  obtain ⟨x, hx, hx'⟩ := C56_copies_independent xof.blockSize payload calls i updates h
  obtain ⟨y, hy, hy'⟩ := C56_copies_independent xof.blockSize payload calls' j updates h'
  rw [hx] at *
  rw [hy]
  rw [hx'] at hy'
  cases hy'
  rfl

/-- Non-trivial instance: update, copy, then different updates of original and copy. -/
example : specRun 168 [.update 0 [[1]], .copy 0, .update 0 [[2]], .update 1 [[3], []], .update 7 [[4]]]
    = [[[[1]], [[2]]], [[[1]], [[3], []]]] := by decide +kernel

end Aiootp.Kdf
