import Verif.Spec.ChainShared
import Verif.Lemmas.Perm

/-
Lemmas for C115: the calls on a shared chain in the order in which they take effect.
-/

namespace Aiootp.ChainShared

open Perm

/-- When a call took effect, and what it will give. -/
structure Log where
  i : Nat
  t : Nat
  call : Call
  r : Option Outcome

/-- The calls of the log, one after another. -/
def LogRun (c : Chain) : List Log → Chain → Prop
  | [], c' => c = c'
  | x :: rest, c' => result c x.call = x.r ∧ LogRun (after c x.call) rest c'

theorem logRun_snoc {c c' : Chain} {log : List Log} (h : LogRun c log c') (i t : Nat) (call : Call) :
    LogRun c (log ++ [⟨i, t, call, result c' call⟩]) (after c' call) := by
  induction log generalizing c with
  | nil => simp only [LogRun] at h; subst h; exact ⟨rfl, rfl⟩
  | cons x rest ih => exact ⟨h.1, ih h.2⟩

theorem after_pure {c : Chain} {call : Call} (h : call.changes = false) : after c call = c := by
  cases call <;> simp_all [Call.changes, after]

theorem logRun_filter {c c' : Chain} {log : List Log} (p : Log → Bool) (h : LogRun c log c')
    (hp : ∀ x ∈ log, p x = false → x.call.changes = false) : LogRun c (log.filter p) c' := by
  induction log generalizing c with
  | nil => exact h
  | cons x rest ih =>
    have ih' := ih h.2 (fun y hy => hp y (List.mem_cons_of_mem _ hy))
    cases hx : p x with
    | true => rw [List.filter_cons_of_pos hx]; exact ⟨h.1, ih'⟩
    | false =>
      rw [List.filter_cons_of_neg (by simp [hx])]
      rw [after_pure (hp x List.mem_cons_self hx)] at ih'
      exact ih'

/-- The same constants. -/
def Alike (c c' : Chain) : Prop :=
  c.size = c'.size ∧ c.affIn = c'.affIn ∧ c.affMid = c'.affMid ∧ c.affOut = c'.affOut ∧ c.inMidKey = c'.inMidKey ∧
    c.outMidKey = c'.outMidKey ∧ c.outKey = c'.outKey

/-- What `permute` gives from each place. -/
def fromOuter (c : Chain) (v : Nat) : Option Outcome := (c.affOut.permute v).map fun r => .number (r ^^^ c.outKey)
def fromMiddle (c : Chain) (v : Nat) : Option Outcome := (c.affMid.permute v).bind fun r => fromOuter c (r ^^^ c.outMidKey)
def fromInner (c : Chain) (v : Nat) : Option Outcome := (c.affIn.permute v).bind fun r => fromMiddle c (r ^^^ c.inMidKey)

theorem result_permute (c : Chain) (x : Nat) : result c (.permute x) = fromInner c (x ^^^ c.inKey) := by
  simp only [result, Chain.permute, fromInner, fromMiddle, fromOuter]
  cases c.affIn.permute (x ^^^ c.inKey) with
  | none => rfl
  | some r =>
    simp only [Option.bind_eq_bind, Option.bind_some]
    cases c.affMid.permute (r ^^^ c.inMidKey) with
    | none => rfl
    | some r' =>
      simp only [Option.bind_some]
      cases c.affOut.permute (r' ^^^ c.outMidKey) <;> rfl

/-- Where a call may be, given what the log says of it. -/
def Stage (c : Chain) : Call → Phase → Option (Option Outcome) → Prop
  | _, .begun, l => l = none
  | .step, .read k, l => l = none ∧ k = c.inKey
  | .step, .ready n, l => l = none ∧ n = (c.inKey + c.increment) % domain c.size
  | .update v, .ready n, l =>
    l = none ∧ ((domain c.size : Int) > v ∧ v > 0) ∧ n = (c.increment ^^^ v.toNat) ||| 1
  | .permute _, .inner v, l => l = some (fromInner c v)
  | .permute _, .middle v, l => l = some (fromMiddle c v)
  | .permute _, .outer v, l => l = some (fromOuter c v)
  | .invert y, .outer v, l => l = none ∧ v = y ^^^ c.outKey
  | .invert y, .middle v, l => l = none ∧ ∃ x, c.affOut.invert (y ^^^ c.outKey) = some x ∧ v = x ^^^ c.outMidKey
  | .invert y, .inner v, l => l = none ∧ ∃ x, c.affOut.invert (y ^^^ c.outKey) = some x ∧
      ∃ z, c.affMid.invert (x ^^^ c.outMidKey) = some z ∧ v = z ^^^ c.inMidKey
  | call, .done o, l => (o ≠ .cancelled ∧ l = some (some o)) ∨
      (o = .cancelled ∧ (l = none ∨ call.changes = false))
  | _, _, _ => False

theorem Stage.alike {c c' : Chain} {call : Call} {phase : Phase} {l : Option (Option Outcome)} (h : Stage c call phase l)
    (hc : Alike c c') (hs : phase.storing = false) : Stage c' call phase l := by
  obtain ⟨h1, h2, h3, h4, h5, h6, h7⟩ := hc
  cases call <;> cases phase <;> simp_all [Stage, Phase.storing, fromInner, fromMiddle, fromOuter]

/-- What the log says of a call. -/
def look (log : List Log) (i : Nat) : Option (Option Outcome) := (log.find? (fun x => x.i == i)).map (·.r)

theorem look_none {log : List Log} {i : Nat} : look log i = none ↔ ∀ x ∈ log, x.i ≠ i := by
  simp [look]

theorem look_snoc {log : List Log} {x : Log} (hx : look log x.i = none) (j : Nat) :
    look (log ++ [x]) j = if j = x.i then some x.r else look log j := by
  unfold look at *
  rw [List.find?_append]
  split
  · rename_i h; subst h
    simp only [Option.map_eq_none_iff] at hx
    simp [hx]
  · rename_i h
    have : (x.i == j) = false := by simp; exact fun h' => h h'.symm
    simp [this]

theorem look_mem {log : List Log} (hn : (log.map (·.i)).Nodup) {x : Log} (hx : x ∈ log) : look log x.i = some x.r := by
  induction log with
  | nil => cases hx
  | cons y rest ih =>
    simp only [List.map_cons, List.nodup_cons] at hn
    unfold look
    by_cases h : y.i = x.i
    · rcases List.mem_cons.1 hx with rfl | hr
      · simp
      · exact absurd (List.mem_map.2 ⟨x, hr, h.symm⟩) hn.1
    · rcases List.mem_cons.1 hx with rfl | hr
      · exact absurd rfl h
      · have : (y.i == x.i) = false := by simpa using h
        rw [List.find?_cons, this]
        exact ih hn.2 hr

/-- What holds at all times. -/
structure Held (c : Chain) (s : Sys) (log : List Log) : Prop where
  run : LogRun c log s.chain
  alike : Alike c s.chain
  nodup : (log.map (·.i)).Nodup
  times : log.Pairwise (fun a b => a.t < b.t)
  past : ∀ x ∈ log, x.t < s.time
  entry : ∀ x ∈ log, ∃ e : Entry, s.calls[x.i]? = some e ∧ e.call = x.call ∧ e.began ≤ x.t ∧ ∀ n, e.ended = some n → x.t ≤ n
  stage : ∀ (i : Nat) (e : Entry), s.calls[i]? = some e → Stage s.chain e.call e.phase (look log i)
  clock : ∀ (i : Nat) (e : Entry), s.calls[i]? = some e → e.began < s.time ∧ (∀ n, e.ended = some n → n < s.time) ∧
    (e.ended = none ↔ ∀ o, e.phase ≠ .done o)

theorem alike_step (c : Chain) : Alike c c.step := ⟨rfl, rfl, rfl, rfl, rfl, rfl, rfl⟩

theorem alike_after (c : Chain) (call : Call) : Alike c (after c call) := by
  cases call with
  | step => exact alike_step c
  | update v =>
    by_cases hv : (domain c.size : Int) > v ∧ v > 0
    · simp only [after, Chain.apply, Chain.updateIncrement, if_pos hv]
      exact ⟨rfl, rfl, rfl, rfl, rfl, rfl, rfl⟩
    · simp only [after, Chain.apply, Chain.updateIncrement, if_neg hv]
      exact ⟨rfl, rfl, rfl, rfl, rfl, rfl, rfl⟩
  | _ => exact ⟨rfl, rfl, rfl, rfl, rfl, rfl, rfl⟩

theorem Alike.trans {a b c : Chain} (h : Alike a b) (h' : Alike b c) : Alike a c := by
  obtain ⟨h1, h2, h3, h4, h5, h6, h7⟩ := h
  obtain ⟨k1, k2, k3, k4, k5, k6, k7⟩ := h'
  exact ⟨h1.trans k1, h2.trans k2, h3.trans k3, h4.trans k4, h5.trans k5, h6.trans k6, h7.trans k7⟩

theorem endTime_none {t : Nat} {p : Phase} : endTime t p = none ↔ ∀ o, p ≠ .done o := by
  cases p <;> simp [endTime]

theorem endTime_some {t n : Nat} {p : Phase} (h : endTime t p = some n) : n = t := by
  cases p <;> simp_all [endTime]

theorem lt_of_getElem?_some {α : Type} {l : List α} {i : Nat} {a : α} (h : l[i]? = some a) : i < l.length := by
  rw [List.getElem?_eq_some_iff] at h; exact h.1

theorem getElem?_set_cases {α : Type} {l : List α} {i j : Nat} {a b : α} (h : (l.set i a)[j]? = some b) :
    (j = i ∧ b = a) ∨ (j ≠ i ∧ l[j]? = some b) := by
  rw [List.getElem?_set] at h
  split at h
  · rename_i hij
    split at h
    · cases h; exact Or.inl ⟨hij.symm, rfl⟩
    · cases h
  · rename_i hij
    exact Or.inr ⟨fun h' => hij h'.symm, h⟩

/-- A call moves on without taking effect, or after it has. -/
theorem Held.move {c : Chain} {s : Sys} {log : List Log} (h : Held c s log) {i : Nat} {style : Style} {call : Call} {phase phase' : Phase}
    {began : Nat} {ended : Option Nat} (hi : s.calls[i]? = some ⟨style, call, phase, began, none⟩)
    (he : ended = endTime s.time phase') (hst : Stage s.chain call phase' (look log i)) :
    Held c ⟨s.chain, s.calls.set i ⟨style, call, phase', began, ended⟩, s.time + 1⟩ log := by
  subst he
  refine ⟨h.run, h.alike, h.nodup, h.times, fun x hx => Nat.lt_succ_of_lt (h.past x hx), ?_, ?_, ?_⟩
  · intro x hx
    obtain ⟨e, he, h1, h2, h3⟩ := h.entry x hx
    by_cases hxi : x.i = i
    · rw [hxi, hi] at he; cases he
      refine ⟨⟨style, call, phase', began, endTime s.time phase'⟩, ?_, h1, h2, ?_⟩
      · show (s.calls.set i _)[x.i]? = _
        rw [hxi, List.getElem?_set_self (lt_of_getElem?_some hi)]
      · intro n hn
        have := h.past x hx
        have := endTime_some hn
        omega
    · refine ⟨e, ?_, h1, h2, h3⟩
      show (s.calls.set i _)[x.i]? = _
      rw [List.getElem?_set_ne (fun h' => hxi h'.symm)]; exact he
  · intro j e he
    rcases getElem?_set_cases he with ⟨rfl, rfl⟩ | ⟨-, he⟩
    · exact hst
    · exact h.stage j e he
  · intro j e he
    rcases getElem?_set_cases he with ⟨rfl, rfl⟩ | ⟨-, he⟩
    · obtain ⟨h1, -, -⟩ := h.clock j _ hi
      refine ⟨Nat.lt_succ_of_lt h1, fun n hn => ?_, endTime_none⟩
      have := endTime_some hn
      show n < s.time + 1
      omega
    · obtain ⟨h1, h2, h3⟩ := h.clock j e he
      exact ⟨Nat.lt_succ_of_lt h1, fun n hn => Nat.lt_succ_of_lt (h2 n hn), h3⟩

/-- A call takes effect. -/
theorem Held.effect {c : Chain} {s : Sys} {log : List Log} (h : Held c s log) {i : Nat} {style : Style} {call : Call} {phase phase' : Phase}
    {began : Nat} {chain' : Chain} (hi : s.calls[i]? = some ⟨style, call, phase, began, none⟩) (hl : look log i = none)
    (hc : chain' = after s.chain call)
    (hother : chain' ≠ s.chain → ∀ j e', j ≠ i → s.calls[j]? = some e' → e'.phase.storing = false)
    (hst : Stage chain' call phase' (some (result s.chain call))) :
    Held c ⟨chain', s.calls.set i ⟨style, call, phase', began, endTime s.time phase'⟩, s.time + 1⟩
      (log ++ [⟨i, s.time, call, result s.chain call⟩]) := by
  subst hc
  have hnew : ∀ x ∈ log, x.i ≠ i := look_none.1 hl
  refine ⟨logRun_snoc h.run _ _ _, h.alike.trans (alike_after _ _), ?_, ?_, ?_, ?_, ?_, ?_⟩
  · rw [List.map_append, List.nodup_append]
    refine ⟨h.nodup, by simp, ?_⟩
    intro a ha b hb
    obtain ⟨x, hx, rfl⟩ := List.mem_map.1 ha
    simp only [List.map_cons, List.map_nil, List.mem_singleton] at hb
    subst hb
    exact hnew x hx
  · rw [List.pairwise_append]
    refine ⟨h.times, List.pairwise_singleton _ _, ?_⟩
    intro a ha b hb
    rw [List.mem_singleton] at hb; subst hb
    exact h.past a ha
  · intro x hx
    rcases List.mem_append.1 hx with hx | hx
    · exact Nat.lt_succ_of_lt (h.past x hx)
    · rw [List.mem_singleton] at hx; subst hx; exact Nat.lt_succ_self _
  · intro x hx
    rcases List.mem_append.1 hx with hx | hx
    · obtain ⟨e, he, h1, h2, h3⟩ := h.entry x hx
      refine ⟨e, ?_, h1, h2, h3⟩
      show (s.calls.set i _)[x.i]? = _
      rw [List.getElem?_set_ne (fun h' => hnew x hx h'.symm)]; exact he
    · rw [List.mem_singleton] at hx; subst hx
      refine ⟨⟨style, call, phase', began, endTime s.time phase'⟩, ?_, rfl, ?_, ?_⟩
      · show (s.calls.set i _)[i]? = _
        rw [List.getElem?_set_self (lt_of_getElem?_some hi)]
      · exact Nat.le_of_lt (h.clock i _ hi).1
      · intro n hn
        exact Nat.le_of_eq (endTime_some hn).symm
  · intro j e he
    rw [look_snoc (x := ⟨i, s.time, call, result s.chain call⟩) hl]
    rcases getElem?_set_cases he with ⟨rfl, rfl⟩ | ⟨hj, he⟩
    · rw [if_pos rfl]; exact hst
    · rw [if_neg hj]
      by_cases hch : after s.chain call = s.chain
      · rw [hch]; exact h.stage j e he
      · exact (h.stage j e he).alike (alike_after _ _) (hother hch j e hj he)
  · intro j e he
    rcases getElem?_set_cases he with ⟨rfl, rfl⟩ | ⟨-, he⟩
    · obtain ⟨h1, -, -⟩ := h.clock j _ hi
      refine ⟨Nat.lt_succ_of_lt h1, fun n hn => ?_, endTime_none⟩
      have := endTime_some hn
      show n < s.time + 1
      omega
    · obtain ⟨h1, h2, h3⟩ := h.clock j e he
      exact ⟨Nat.lt_succ_of_lt h1, fun n hn => Nat.lt_succ_of_lt (h2 n hn), h3⟩

theorem Held.idle {c : Chain} {s : Sys} {log : List Log} (h : Held c s log) : Held c { s with time := s.time + 1 } log :=
  ⟨h.run, h.alike, h.nodup, h.times, fun x hx => Nat.lt_succ_of_lt (h.past x hx), h.entry, h.stage, fun i e he => by
    obtain ⟨h1, h2, h3⟩ := h.clock i e he
    exact ⟨Nat.lt_succ_of_lt h1, fun n hn => Nat.lt_succ_of_lt (h2 n hn), h3⟩⟩

theorem result_update_ok {c : Chain} {v : Int} (h : (domain c.size : Int) > v ∧ v > 0) :
    result c (.update v) = some .nothing ∧ after c (.update v) = { c with increment := (c.increment ^^^ v.toNat) ||| 1 } := by
  simp [result, after, Chain.apply, Chain.updateIncrement, h]

theorem result_update_refused {c : Chain} {v : Int} (h : ¬ ((domain c.size : Int) > v ∧ v > 0)) :
    result c (.update v) = some .refused ∧ after c (.update v) = c := by
  simp only [result, after, Chain.apply, Chain.updateIncrement, if_neg h, and_self]

theorem result_invert {c : Chain} {y x z w : Nat} (h1 : c.affOut.invert (y ^^^ c.outKey) = some x)
    (h2 : c.affMid.invert (x ^^^ c.outMidKey) = some z) (h3 : c.affIn.invert (z ^^^ c.inMidKey) = some w) :
    result c (.invert y) = some (.number (w ^^^ c.inKey)) := by
  simp [result, Chain.invert, h1, h2, h3]

/-- A call goes on. -/
theorem Held.resume {c : Chain} {s : Sys} {log : List Log} (h : Held c s log) {i : Nat} {style : Style} {call : Call} {phase phase' : Phase}
    {began : Nat} {chain' : Chain} (hi : s.calls[i]? = some ⟨style, call, phase, began, none⟩)
    (hr : ChainShared.resume s.chain style call phase = some (phase', chain')) (ht : TakesTurn s (.go i)) :
    ∃ log', Held c ⟨chain', s.calls.set i ⟨style, call, phase', began, endTime s.time phase'⟩, s.time + 1⟩ log' := by
  have hst := h.stage i _ hi
  have hend : ∀ o, phase ≠ .done o := (h.clock i _ hi).2.2.1 rfl
  have hturn : call.changes = true → ∀ j e', j ≠ i → s.calls[j]? = some e' → e'.phase.storing = false := ht _ hi
  simp only at hst
  cases call with
  | step =>
    cases phase with
    | begun =>
      cases style with
      | awaited =>
        simp only [ChainShared.resume, Option.some.injEq, Prod.mk.injEq] at hr
        obtain ⟨rfl, rfl⟩ := hr
        exact ⟨_, h.effect hi hst rfl (fun _ => hturn rfl) (Or.inl ⟨by simp, rfl⟩)⟩
      | plain =>
        simp only [ChainShared.resume, Option.some.injEq, Prod.mk.injEq] at hr
        obtain ⟨rfl, rfl⟩ := hr
        exact ⟨_, h.move hi rfl ⟨hst, rfl⟩⟩
    | read k =>
      simp only [ChainShared.resume, Option.some.injEq, Prod.mk.injEq] at hr
      obtain ⟨rfl, rfl⟩ := hr
      obtain ⟨hl, rfl⟩ := hst
      exact ⟨_, h.move hi rfl ⟨hl, rfl⟩⟩
    | ready n =>
      simp only [ChainShared.resume, Option.some.injEq, Prod.mk.injEq] at hr
      obtain ⟨rfl, rfl⟩ := hr
      obtain ⟨hl, rfl⟩ := hst
      exact ⟨_, h.effect hi hl rfl (fun _ => hturn rfl) (Or.inl ⟨by simp, rfl⟩)⟩
    | done o => exact absurd rfl (hend o)
    | _ => exact absurd hst (by simp [Stage])
  | update v =>
    cases phase with
    | begun =>
      cases style with
      | awaited =>
        by_cases hv : (domain s.chain.size : Int) > v ∧ v > 0
        · obtain ⟨hr1, hr2⟩ := result_update_ok hv
          simp only [ChainShared.resume, Chain.updateIncrement, if_pos hv, Option.some.injEq, Prod.mk.injEq] at hr
          obtain ⟨rfl, rfl⟩ := hr
          exact ⟨_, h.effect hi hst hr2.symm (fun _ => hturn rfl) (Or.inl ⟨by simp, by rw [hr1]⟩)⟩
        · obtain ⟨hr1, hr2⟩ := result_update_refused hv
          simp only [ChainShared.resume, Chain.updateIncrement, if_neg hv, Option.some.injEq, Prod.mk.injEq] at hr
          obtain ⟨rfl, rfl⟩ := hr
          exact ⟨_, h.effect hi hst hr2.symm (fun _ => hturn rfl) (Or.inl ⟨by simp, by rw [hr1]⟩)⟩
      | plain =>
        by_cases hv : (domain s.chain.size : Int) > v ∧ v > 0
        · simp only [ChainShared.resume, if_pos hv, Option.some.injEq, Prod.mk.injEq] at hr
          obtain ⟨rfl, rfl⟩ := hr
          exact ⟨_, h.move hi rfl ⟨hst, hv, rfl⟩⟩
        · obtain ⟨hr1, hr2⟩ := result_update_refused hv
          simp only [ChainShared.resume, if_neg hv, Option.some.injEq, Prod.mk.injEq] at hr
          obtain ⟨rfl, rfl⟩ := hr
          exact ⟨_, h.effect hi hst hr2.symm (fun _ => hturn rfl) (Or.inl ⟨by simp, by rw [hr1]⟩)⟩
    | ready n =>
      simp only [ChainShared.resume, Option.some.injEq, Prod.mk.injEq] at hr
      obtain ⟨rfl, rfl⟩ := hr
      obtain ⟨hl, hv, rfl⟩ := hst
      obtain ⟨hr1, hr2⟩ := result_update_ok hv
      exact ⟨_, h.effect hi hl hr2.symm (fun _ => hturn rfl) (Or.inl ⟨by simp, by rw [hr1]⟩)⟩
    | done o => exact absurd rfl (hend o)
    | _ => exact absurd hst (by simp [Stage])
  | permute x =>
    cases phase with
    | begun =>
      simp only [ChainShared.resume, Option.some.injEq, Prod.mk.injEq] at hr
      obtain ⟨rfl, rfl⟩ := hr
      refine ⟨_, h.effect hi hst rfl (fun hne => absurd rfl hne) ?_⟩
      show some (result s.chain _) = some _
      rw [result_permute]
    | inner v =>
      simp only [ChainShared.resume, Option.map_eq_some_iff, Prod.mk.injEq] at hr
      obtain ⟨r, hv, rfl, rfl⟩ := hr
      refine ⟨_, h.move hi rfl ?_⟩
      simp only [Stage, fromInner, hv, Option.bind_some] at hst ⊢
      exact hst
    | middle v =>
      simp only [ChainShared.resume, Option.map_eq_some_iff, Prod.mk.injEq] at hr
      obtain ⟨r, hv, rfl, rfl⟩ := hr
      refine ⟨_, h.move hi rfl ?_⟩
      simp only [Stage, fromMiddle, hv, Option.bind_some] at hst ⊢
      exact hst
    | outer v =>
      simp only [ChainShared.resume, Option.map_eq_some_iff, Prod.mk.injEq] at hr
      obtain ⟨r, hv, rfl, rfl⟩ := hr
      refine ⟨_, h.move hi rfl (Or.inl ⟨by simp, ?_⟩)⟩
      simp only [Stage, fromOuter, hv, Option.map_some] at hst
      exact hst
    | done o => exact absurd rfl (hend o)
    | _ => exact absurd hst (by simp [Stage])
  | invert y =>
    cases phase with
    | begun =>
      simp only [ChainShared.resume, Option.some.injEq, Prod.mk.injEq] at hr
      obtain ⟨rfl, rfl⟩ := hr
      exact ⟨_, h.move hi rfl ⟨hst, rfl⟩⟩
    | outer v =>
      simp only [ChainShared.resume, Option.map_eq_some_iff, Prod.mk.injEq] at hr
      obtain ⟨r, hv, rfl, rfl⟩ := hr
      obtain ⟨hl, rfl⟩ := hst
      exact ⟨_, h.move hi rfl ⟨hl, r, hv, rfl⟩⟩
    | middle v =>
      simp only [ChainShared.resume, Option.map_eq_some_iff, Prod.mk.injEq] at hr
      obtain ⟨r, hv, rfl, rfl⟩ := hr
      obtain ⟨hl, x, hx, rfl⟩ := hst
      exact ⟨_, h.move hi rfl ⟨hl, x, hx, r, hv, rfl⟩⟩
    | inner v =>
      simp only [ChainShared.resume, Option.map_eq_some_iff, Prod.mk.injEq] at hr
      obtain ⟨r, hv, rfl, rfl⟩ := hr
      obtain ⟨hl, x, hx, z, hz, rfl⟩ := hst
      refine ⟨_, h.effect hi hl rfl (fun hne => absurd rfl hne) (Or.inl ⟨by simp, ?_⟩)⟩
      rw [result_invert hx hz hv]
    | done o => exact absurd rfl (hend o)
    | _ => exact absurd hst (by simp [Stage])

/-- A call is begun and does not take effect yet. -/
theorem Held.enter {c : Chain} {s : Sys} {log : List Log} (h : Held c s log) (style : Style) (call : Call) :
    ∃ log', Held c { s with calls := s.calls ++ [⟨style, call, start s.chain style call, s.time, none⟩], time := s.time + 1 } log' := by
  have hlen : ∀ x ∈ log, x.i < s.calls.length := fun x hx => by
    obtain ⟨e, he, -⟩ := h.entry x hx
    exact lt_of_getElem?_some he
  have hl : look log s.calls.length = none := look_none.2 fun x hx => Nat.ne_of_lt (hlen x hx)
  have key : ∀ p : Phase, (∀ o, p ≠ .done o) → ∀ l', (l' = log ∧ Stage s.chain call p none) ∨
      (l' = log ++ [⟨s.calls.length, s.time, call, result s.chain call⟩] ∧ after s.chain call = s.chain ∧
        Stage s.chain call p (some (result s.chain call))) →
      Held c { s with calls := s.calls ++ [⟨style, call, p, s.time, none⟩], time := s.time + 1 } l' := by
    intro p hp l' hcase
    have hget : ∀ (j : Nat) (e : Entry), (s.calls ++ [⟨style, call, p, s.time, none⟩])[j]? = some e →
        (s.calls[j]? = some e ∧ j < s.calls.length) ∨ (j = s.calls.length ∧ e = ⟨style, call, p, s.time, none⟩) := by
      intro j e he
      rcases Nat.lt_or_ge j s.calls.length with hj | hj
      · rw [List.getElem?_append_left hj] at he; exact Or.inl ⟨he, hj⟩
      · rw [List.getElem?_append_right hj] at he
        have : j - s.calls.length = 0 := by
          have := lt_of_getElem?_some he
          simp at this; omega
        rw [this] at he
        simp at he
        exact Or.inr ⟨by omega, he.symm⟩
    have hold : ∀ x ∈ log, ∃ e : Entry, (s.calls ++ [⟨style, call, p, s.time, none⟩])[x.i]? = some e ∧ e.call = x.call ∧ e.began ≤ x.t ∧
        ∀ n, e.ended = some n → x.t ≤ n := by
      intro x hx
      obtain ⟨e, he, hrest⟩ := h.entry x hx
      exact ⟨e, by rw [List.getElem?_append_left (hlen x hx)]; exact he, hrest⟩
    have hclock : ∀ (i : Nat) (e : Entry), (s.calls ++ [⟨style, call, p, s.time, none⟩])[i]? = some e → e.began < s.time + 1 ∧
        (∀ n, e.ended = some n → n < s.time + 1) ∧ (e.ended = none ↔ ∀ o, e.phase ≠ .done o) := by
      intro i e he
      rcases hget i e he with ⟨he, -⟩ | ⟨-, rfl⟩
      · obtain ⟨h1, h2, h3⟩ := h.clock i e he
        exact ⟨Nat.lt_succ_of_lt h1, fun n hn => Nat.lt_succ_of_lt (h2 n hn), h3⟩
      · exact ⟨Nat.lt_succ_self _, (fun n hn => nomatch hn), (fun _ => hp), (fun _ => rfl)⟩
    rcases hcase with ⟨rfl, hst⟩ | ⟨rfl, hpure, hst⟩
    · refine ⟨h.run, h.alike, h.nodup, h.times, fun x hx => Nat.lt_succ_of_lt (h.past x hx), hold, ?_, hclock⟩
      intro i e he
      rcases hget i e he with ⟨he, -⟩ | ⟨rfl, rfl⟩
      · exact h.stage i e he
      · rw [hl]; exact hst
    · refine ⟨?_, h.alike, ?_, ?_, ?_, ?_, ?_, hclock⟩
      · have := logRun_snoc h.run s.calls.length s.time call
        rwa [hpure] at this
      · rw [List.map_append, List.nodup_append]
        refine ⟨h.nodup, by simp, ?_⟩
        intro a ha b hb
        obtain ⟨x, hx, rfl⟩ := List.mem_map.1 ha
        simp only [List.map_cons, List.map_nil, List.mem_singleton] at hb
        subst hb
        exact Nat.ne_of_lt (hlen x hx)
      · rw [List.pairwise_append]
        refine ⟨h.times, List.pairwise_singleton _ _, ?_⟩
        intro a ha b hb
        rw [List.mem_singleton] at hb; subst hb
        exact h.past a ha
      · intro x hx
        rcases List.mem_append.1 hx with hx | hx
        · exact Nat.lt_succ_of_lt (h.past x hx)
        · rw [List.mem_singleton] at hx; subst hx; exact Nat.lt_succ_self _
      · intro x hx
        rcases List.mem_append.1 hx with hx | hx
        · exact hold x hx
        · rw [List.mem_singleton] at hx; subst hx
          exact ⟨⟨style, call, p, s.time, none⟩, by simp, rfl, Nat.le_refl _, fun n hn => nomatch hn⟩
      · intro i e he
        rw [look_snoc (x := ⟨s.calls.length, s.time, call, result s.chain call⟩) hl]
        rcases hget i e he with ⟨he, hj⟩ | ⟨rfl, rfl⟩
        · rw [if_neg (Nat.ne_of_lt hj)]; exact h.stage i e he
        · rw [if_pos rfl]; exact hst
  cases style <;> cases call
  case awaited.permute x =>
    refine ⟨_, key (.inner (x ^^^ s.chain.inKey)) (fun o ho => nomatch ho) _ (Or.inr ⟨rfl, rfl, ?_⟩)⟩
    show some (result s.chain _) = some _
    rw [result_permute]
  case awaited.invert y => exact ⟨_, key (.outer (y ^^^ s.chain.outKey)) (fun o ho => nomatch ho) _ (Or.inl ⟨rfl, rfl, rfl⟩)⟩
  all_goals exact ⟨_, key .begun (fun o ho => nomatch ho) _ (Or.inl ⟨rfl, rfl⟩)⟩

theorem Held.act {c : Chain} {s s' : Sys} {log : List Log} (h : Held c s log) {a : Action} (ha : s.act a = some s')
    (ht : TakesTurn s a) : ∃ log', Held c s' log' := by
  cases a with
  | begin style call =>
    simp only [Sys.act, Option.some.injEq] at ha
    subst ha
    exact h.enter style call
  | go i =>
    simp only [Sys.act] at ha
    split at ha
    · rename_i style call phase began hi
      split at ha
      · cases ha
      · rename_i phase' chain' hr
        cases ha
        exact h.resume hi hr ht
    · cases ha; exact ⟨_, h.idle⟩
  | cancel i =>
    simp only [Sys.act] at ha
    split at ha
    · rename_i call phase began hi
      cases ha
      refine ⟨_, h.move hi rfl (Or.inr ⟨rfl, ?_⟩)⟩
      have hst := h.stage i _ hi
      have hend : ∀ o, phase ≠ .done o := (h.clock i _ hi).2.2.1 rfl
      cases call with
      | permute x => exact Or.inr rfl
      | invert y => exact Or.inr rfl
      | step =>
        left
        cases phase <;> first | exact hst | exact hst.1 | exact absurd rfl (hend _) | exact absurd hst (by simp [Stage])
      | update v =>
        left
        cases phase <;> first | exact hst | exact hst.1 | exact absurd rfl (hend _) | exact absurd hst (by simp [Stage])
    · cases ha; exact ⟨_, h.idle⟩

theorem run_append {s : Sys} {as bs : List Action} : s.run (as ++ bs) = (s.run as).bind fun s' => s'.run bs := by
  induction as generalizing s with
  | nil => rfl
  | cons a rest ih =>
    simp only [List.cons_append, Sys.run]
    cases s.act a with
    | none => rfl
    | some s' => exact ih

theorem inv_fresh (c : Chain) : Held c (fresh c) [] :=
  ⟨rfl, ⟨rfl, rfl, rfl, rfl, rfl, rfl, rfl⟩, List.nodup_nil, List.Pairwise.nil, by simp, by simp, by simp [fresh], by simp [fresh]⟩

theorem inv_run {c : Chain} {actions : List Action} {s : Sys} (h : (fresh c).run actions = some s)
    (ht : TurnsTaken c actions) : ∃ log, Held c s log := by
  induction actions using List.reverseRecOn generalizing s with
  | nil => simp only [Sys.run, Option.some.injEq] at h; subst h; exact ⟨_, inv_fresh c⟩
  | append_singleton rest a ih =>
    rw [run_append] at h
    cases hr : (fresh c).run rest with
    | none => rw [hr] at h; cases h
    | some s1 =>
      rw [hr] at h
      obtain ⟨log, hinv⟩ := ih hr (fun d n r s' e hs => ht d n (r ++ [a]) s' (by rw [e]; simp) hs)
      simp only [Option.bind_some, Sys.run] at h
      cases ha : s1.act a with
      | none => rw [ha] at h; cases h
      | some s2 =>
        rw [ha] at h
        cases h
        exact hinv.act ha (ht rest a [] s1 rfl hr)

theorem sequentially_of_logRun {c c' : Chain} {log : List Log} (f : Log → Outcome) (h : LogRun c log c')
    (hf : ∀ x ∈ log, x.r = some (f x)) : Sequentially c (log.map fun x => (x.call, f x)) c' := by
  induction log generalizing c with
  | nil => exact h
  | cons x rest ih =>
    exact ⟨h.1.trans (hf x List.mem_cons_self), ih h.2 fun y hy => hf y (List.mem_cons_of_mem _ hy)⟩

/-- The call has returned. -/
def over (s : Sys) (x : Log) : Bool :=
  match s.calls[x.i]? with
  | some ⟨_, _, .done o, _, _⟩ => decide (o ≠ .cancelled)
  | _ => false

theorem over_iff {s : Sys} {x : Log} : over s x = true ↔ ∃ e o, s.calls[x.i]? = some e ∧ e.phase = .done o ∧ o ≠ .cancelled := by
  unfold over
  constructor
  · intro h
    split at h
    · rename_i o _ _ he
      exact ⟨_, o, he, rfl, of_decide_eq_true h⟩
    · cases h
  · rintro ⟨⟨st, ca, ph, b, en⟩, o, he, hp, ho⟩
    simp only at hp
    subst hp
    rw [he]
    simpa using ho

theorem Held.inSomeOrder {c : Chain} {s : Sys} {log : List Log} (h : Held c s log) : InSomeOrder c s := by
  let f : Log → Outcome := fun x => x.r.getD .nothing
  have hret : ∀ x ∈ log, over s x = true → ∃ e o, s.calls[x.i]? = some e ∧ e.call = x.call ∧ e.phase = .done o ∧ o ≠ .cancelled ∧
      x.r = some o := by
    intro x hx ho
    obtain ⟨e, o, he, hp, hne⟩ := over_iff.1 ho
    obtain ⟨e', he', h1, -⟩ := h.entry x hx
    rw [he] at he'; cases he'
    have hst := h.stage x.i e he
    rw [look_mem h.nodup hx, hp] at hst
    have : (o ≠ .cancelled ∧ some x.r = some (some o)) ∨ (o = .cancelled ∧ (some x.r = none ∨ e.call.changes = false)) := by
      revert hst; cases e.call <;> exact id
    rcases this with ⟨-, h2⟩ | ⟨h2, -⟩
    · exact ⟨e, o, he, h1, hp, hne, Option.some.inj h2⟩
    · exact absurd h2 hne
  have hpure : ∀ x ∈ log, over s x = false → x.call.changes = false := by
    intro x hx ho
    obtain ⟨e, he, h1, -⟩ := h.entry x hx
    have hst := h.stage x.i e he
    rw [look_mem h.nodup hx] at hst
    have hno : ∀ o, e.phase = .done o → o = .cancelled := fun o hp => Classical.byContradiction fun hne => by
      rw [over_iff.2 ⟨e, o, he, hp, hne⟩] at ho; cases ho
    rw [← h1]
    obtain ⟨st, call, phase, b, en⟩ := e
    simp only at hst hno ⊢
    cases call <;> cases phase <;> simp_all [Stage, Call.changes]
  refine ⟨(log.filter (over s)).map fun x => (x.i, x.call, f x), ?_, ?_, ?_, ?_⟩
  · rw [List.map_map]
    exact (h.nodup.sublist ((List.filter_sublist (p := over s) (l := log)).map (·.i)))
  · intro i call outcome
    rw [List.mem_map]
    constructor
    · rintro ⟨x, hx, hxe⟩
      obtain ⟨hx, ho⟩ := List.mem_filter.1 hx
      cases hxe
      obtain ⟨e, o, he, h1, hp, hne, hr⟩ := hret x hx ho
      have : f x = o := by simp [f, hr]
      exact ⟨e, he, h1, by rw [this]; exact hp, by rw [this]; exact hne⟩
    · rintro ⟨e, he, hcall, hp, hne⟩
      have hst := h.stage i e he
      rw [hp] at hst
      have hl : look log i = some (some outcome) := by
        have : (outcome ≠ .cancelled ∧ look log i = some (some outcome)) ∨
            (outcome = .cancelled ∧ (look log i = none ∨ e.call.changes = false)) := by
          revert hst; cases e.call <;> exact id
        rcases this with ⟨-, h2⟩ | ⟨h2, -⟩
        · exact h2
        · exact absurd h2 hne
      unfold look at hl
      rw [Option.map_eq_some_iff] at hl
      obtain ⟨x, hx, hr⟩ := hl
      have hxi : x.i = i := by simpa using List.find?_some hx
      have hm := List.mem_of_find?_eq_some hx
      obtain ⟨e', he', h1, -⟩ := h.entry x hm
      rw [hxi, he] at he'; cases he'
      refine ⟨x, List.mem_filter.2 ⟨hm, over_iff.2 ⟨e, outcome, by rw [hxi]; exact he, hp, hne⟩⟩, ?_⟩
      have : f x = outcome := by simp [f, hr]
      rw [hxi, this, ← h1, hcall]
  · rw [List.pairwise_map]
    refine List.Pairwise.imp_of_mem ?_ (h.times.sublist List.filter_sublist)
    intro a b ha hb hab hbef
    obtain ⟨ea, hea, -, h2, -⟩ := h.entry a (List.mem_filter.1 ha).1
    obtain ⟨eb, heb, -, -, h3⟩ := h.entry b (List.mem_filter.1 hb).1
    obtain ⟨e, e', t, he, he', hen, hlt⟩ := hbef
    simp only at he he'
    rw [heb] at he; cases he
    rw [hea] at he'; cases he'
    have := h3 t hen
    omega
  · rw [List.map_map]
    refine sequentially_of_logRun f (logRun_filter (over s) h.run hpure) ?_
    intro x hx
    obtain ⟨hx, ho⟩ := List.mem_filter.1 hx
    obtain ⟨e, o, -, -, -, -, hr⟩ := hret x hx ho
    simp [f, hr]

end Aiootp.ChainShared
