import Verif.Model.Registry
import Verif.Props.Signer

/-
Property C119: the types that are added to `Typing` are never replaced.
-/

namespace Aiootp.Registry

open Package (Dict lookup_set)

/-! ### The specification -/

/-- A name that a type may have: an identifier without underscores that begins with a capital. -/
def Proper (ch : Chars) (name : String) : Prop :=
  ch.isIdentifier name = true ∧ '_' ∉ name.toList ∧ ∃ c rest, name.toList = c :: rest ∧ ch.isUpper c = true

/-- `add_type` may take the object. -/
def Addable (ch : Chars) (own : Dict Obj) (o : Obj) (name : String) : Prop :=
  o.qualname = some name ∧ o.isType = true ∧ Proper ch name ∧ own.lookup name = none

/-- Whatever was defined is defined as before. -/
def Extends (own own' : Dict Obj) : Prop := ∀ name o, own.lookup name = some o → own'.lookup name = some o

/-! ### One call after another -/

theorem check_ok {ch : Chars} {own : Dict Obj} {o : Obj} {name : String} : check ch own o = .ok name ↔ Addable ch own o name := by
  unfold check Addable Proper
  cases hq : o.qualname with
  | none => simp
  | some n =>
    simp only [Option.some.injEq]
    cases ht : o.isType with
    | false => simp
    | true =>
      cases hl : n.toList with
      | nil =>
        simp only [Bool.true_eq_false, if_false]
        constructor
        · intro h; cases h
        · rintro ⟨rfl, -, ⟨-, -, c, rest, h, -⟩, -⟩
          rw [hl] at h; cases h
      | cons c rest =>
        simp only [Bool.true_eq_false, if_false]
        constructor
        · intro h
          split at h
          · cases h
          · rename_i h1
            split at h
            · cases h
            · rename_i h2
              split at h
              · cases h
              · rename_i h3
                injection h with h
                subst h
                rw [not_or] at h3
                refine ⟨rfl, trivial, ⟨by simpa using h1, by rw [hl]; exact h3.1, c, rest, hl, by simpa using h3.2⟩, ?_⟩
                exact Option.not_isSome_iff_eq_none.1 h2
        · rintro ⟨rfl, -, ⟨h1, h2, c', rest', h3, h4⟩, h5⟩
          rw [hl] at h3
          cases h3
          rw [hl] at h2
          rw [if_neg (by simp [h1]), if_neg (by simp [h5]), if_neg (by simp [h2, h4])]

/-- C119. `add_type` returns exactly for classes with a proper name that is not yet defined; then the name stands for the class, and all other names
for what they stood for. -/
theorem C119_adds (ch : Chars) (own own' : Dict Obj) (o : Obj) : addType ch own o = .ok own' →
    ∃ name, Addable ch own o name ∧ ∀ n, own'.lookup n = if n = name then some o else own.lookup n := by
  intro h
  unfold addType at h
  cases hc : check ch own o with
  | error e => rw [hc] at h; cases h
  | ok name =>
    rw [hc] at h
    cases h
    exact ⟨name, check_ok.1 hc, fun n => lookup_set⟩

theorem C119_refuses (ch : Chars) (own : Dict Obj) (o : Obj) :
    (∃ e, addType ch own o = .error e) ↔ ¬ ∃ name, Addable ch own o name := by
  unfold addType
  cases hc : check ch own o with
  | error e =>
    simp only [Except.map]
    refine ⟨?_, fun _ => ⟨e, rfl⟩⟩
    rintro - ⟨name, h⟩
    rw [check_ok.2 h] at hc
    cases hc
  | ok name =>
    simp only [Except.map]
    refine ⟨?_, fun h => absurd ⟨name, check_ok.1 hc⟩ h⟩
    rintro ⟨e, h⟩
    cases h

/-- C119. Whatever is added, in one call after another, everything that was defined stays as it was. -/
theorem C119_kept (ch : Chars) (own : Dict Obj) (objs : List Obj) : Extends own (addAll ch own objs) := by
  induction objs generalizing own with
  | nil => exact fun _ _ h => h
  | cons o rest ih =>
    unfold addAll
    split
    · rename_i own' h
      obtain ⟨name, ⟨-, -, -, hn⟩, hl⟩ := C119_adds ch own own' o h
      intro n x hx
      refine ih own' n x ?_
      rw [hl, if_neg]
      · exact hx
      · rintro rfl
        rw [hn] at hx
        cases hx
    · exact ih own

/-! ### Threads -/

/-- The names that a thread may still define. -/
def Thread.names (t : Thread) : List String :=
  t.todo.filterMap Obj.qualname ++ (t.checked.map Prod.fst).toList

/-- No two threads add types of the same name. -/
def Apart (threads : List Thread) : Prop :=
  ∀ (i j : Nat) (t u : Thread), threads[i]? = some t → threads[j]? = some u → i ≠ j → ∀ n ∈ t.names, n ∉ u.names

/-- What holds between any two steps: what was checked is still not defined, and what was returned is defined. -/
def Right (s : State) : Prop :=
  Apart s.threads ∧ ∀ (i : Nat) (t : Thread), s.threads[i]? = some t →
    (∀ n o, t.checked = some (n, o) → s.own.lookup n = none ∧ o.qualname = some n) ∧
    ∀ o ∈ t.returned, ∃ n, o.qualname = some n ∧ s.own.lookup n = some o

theorem names_step {ch : Chars} {own : Dict Obj} {t : Thread} {n : String} (h : n ∈ (t.step ch own).2.names) : n ∈ t.names := by
  unfold Thread.step at h
  cases hc : t.checked with
  | some p =>
    obtain ⟨m, o⟩ := p
    simp only [hc, Thread.names, Option.map_none, Option.toList_none, List.append_nil] at h
    exact List.mem_append_left _ h
  | none =>
    simp only [hc] at h
    cases ht : t.todo with
    | nil => simp only [ht] at h; exact h
    | cons o rest =>
      simp only [ht] at h
      cases hk : check ch own o with
      | error e =>
        simp only [hk, Thread.names, hc, Option.map_none, Option.toList_none, List.append_nil] at h
        simp only [Thread.names, ht, hc, Option.map_none, Option.toList_none, List.append_nil, List.filterMap_cons]
        split
        · exact h
        · exact List.mem_cons_of_mem _ h
      | ok m =>
        have hq := (check_ok.1 hk).1
        simp only [hk, Thread.names, Option.map_some, Option.toList_some, List.mem_append, List.mem_singleton] at h
        simp only [Thread.names, ht, hc, Option.map_none, Option.toList_none, List.append_nil, List.filterMap_cons, hq, List.mem_cons]
        exact h.symm

theorem right_thread {ch : Chars} {s : State} (i : Nat) (h : Right s) : Right (s.step ch i) ∧ Extends s.own (s.step ch i).own := by
  obtain ⟨ha, hr⟩ := h
  unfold State.step
  cases hi : s.threads[i]? with
  | none => exact ⟨⟨ha, hr⟩, fun _ _ h => h⟩
  | some t =>
    have hlt : i < s.threads.length := by
      rcases Nat.lt_or_ge i s.threads.length with h | h
      · exact h
      · rw [List.getElem?_eq_none h] at hi; cases hi
    have hget : ∀ (j : Nat) (u : Thread), (s.threads.set i (t.step ch s.own).2)[j]? = some u →
        (j = i ∧ u = (t.step ch s.own).2) ∨ (j ≠ i ∧ s.threads[j]? = some u) := by
      intro j u hu
      by_cases e : j = i
      · subst e
        rw [List.getElem?_set_self hlt] at hu
        cases hu
        exact Or.inl ⟨rfl, rfl⟩
      · rw [List.getElem?_set_ne (fun h => e h.symm)] at hu
        exact Or.inr ⟨e, hu⟩
    have hext : Extends s.own (t.step ch s.own).1 ∧
        (∀ n, (t.step ch s.own).1.lookup n ≠ s.own.lookup n → ∃ o, t.checked = some (n, o)) := by
      unfold Thread.step
      cases hc : t.checked with
      | some p =>
        obtain ⟨m, o⟩ := p
        have hn := ((hr i t hi).1 m o hc).1
        simp only
        refine ⟨?_, ?_⟩
        · intro n x hx
          rw [lookup_set, if_neg]
          · exact hx
          · rintro rfl; rw [hn] at hx; cases hx
        · intro n hne
          rw [lookup_set] at hne
          by_cases e : n = m
          · subst e; exact ⟨o, rfl⟩
          · rw [if_neg e] at hne; exact absurd rfl hne
      | none =>
        simp only
        split
        · exact ⟨fun _ _ h => h, fun _ h => absurd rfl h⟩
        · split <;> exact ⟨fun _ _ h => h, fun _ h => absurd rfl h⟩
    refine ⟨⟨?_, ?_⟩, hext.1⟩
    · intro j k u v hj hk hne n hn hm
      rcases hget j u hj with ⟨rfl, rfl⟩ | ⟨hji, hj'⟩
      · rcases hget k v hk with ⟨rfl, rfl⟩ | ⟨hki, hk'⟩
        · exact hne rfl
        · exact ha j k t v hi hk' hne n (names_step hn) hm
      · rcases hget k v hk with ⟨rfl, rfl⟩ | ⟨hki, hk'⟩
        · exact ha j k u t hj' hi hne n hn (names_step hm)
        · exact ha j k u v hj' hk' hne n hn hm
    · intro j u hj
      rcases hget j u hj with ⟨rfl, rfl⟩ | ⟨hji, hj'⟩
      · obtain ⟨h1, h2⟩ := hr j t hi
        show (∀ n o, (t.step ch s.own).2.checked = some (n, o) → (t.step ch s.own).1.lookup n = none ∧ o.qualname = some n) ∧
          ∀ o ∈ (t.step ch s.own).2.returned, ∃ n, o.qualname = some n ∧ (t.step ch s.own).1.lookup n = some o
        cases hc : t.checked with
        | some p =>
          obtain ⟨m, o⟩ := p
          have hs : t.step ch s.own = (s.own.set m o, { t with checked := none, returned := t.returned ++ [o] }) := by
            unfold Thread.step; rw [hc]
          rw [hs]
          refine ⟨fun n o h => (by cases h), ?_⟩
          intro x hx
          rcases List.mem_append.1 hx with hx | hx
          · obtain ⟨n, hq, hl⟩ := h2 x hx
            refine ⟨n, hq, ?_⟩
            rw [lookup_set, if_neg]
            · exact hl
            · rintro rfl; rw [(h1 n o hc).1] at hl; cases hl
          · rw [List.mem_singleton] at hx
            subst hx
            exact ⟨m, (h1 m x hc).2, by rw [lookup_set, if_pos rfl]⟩
        | none =>
          cases ht : t.todo with
          | nil =>
            have hs : t.step ch s.own = (s.own, t) := by
              unfold Thread.step; rw [hc]; simp only [ht]
            rw [hs]
            exact ⟨h1, h2⟩
          | cons o rest =>
            cases hk : check ch s.own o with
            | error e =>
              have hs : t.step ch s.own = (s.own, { t with todo := rest }) := by
                unfold Thread.step; rw [hc]; simp only [ht, hk]
              rw [hs]
              exact ⟨fun n o h => (by simp only [hc] at h; cases h), h2⟩
            | ok m =>
              have hs : t.step ch s.own = (s.own, { t with todo := rest, checked := some (m, o) }) := by
                unfold Thread.step; rw [hc]; simp only [ht, hk]
              rw [hs]
              obtain ⟨hq, -, -, hn⟩ := check_ok.1 hk
              refine ⟨?_, h2⟩
              intro n x h
              simp only [Option.some.injEq, Prod.mk.injEq] at h
              obtain ⟨rfl, rfl⟩ := h
              exact ⟨hn, hq⟩
      · obtain ⟨h1, h2⟩ := hr j u hj'
        refine ⟨?_, ?_⟩
        · intro n o hc
          obtain ⟨hn, hq⟩ := h1 n o hc
          refine ⟨?_, hq⟩
          by_cases e : (t.step ch s.own).1.lookup n = s.own.lookup n
          · rw [e, hn]
          · obtain ⟨o', ho'⟩ := hext.2 n e
            exact absurd (show n ∈ u.names by simp [Thread.names, hc]) (ha i j t u hi hj' (fun h => hji h.symm) n (by simp [Thread.names, ho']))
        · intro o ho
          obtain ⟨n, hq, hl⟩ := h2 o ho
          exact ⟨n, hq, hext.1 n o hl⟩

theorem right_run {ch : Chars} (schedule : List Nat) {s : State} (h : Right s) : Right (s.run ch schedule) ∧ Extends s.own (s.run ch schedule).own := by
  induction schedule generalizing s with
  | nil => exact ⟨h, fun _ _ h => h⟩
  | cons i rest ih =>
    obtain ⟨h1, h2⟩ := right_thread (ch := ch) i h
    obtain ⟨h3, h4⟩ := ih h1
    exact ⟨h3, fun n o hx => h4 n o (h2 n o hx)⟩

/-- The threads before their first call. -/
def start (own : Dict Obj) (work : List (List Obj)) : State := { own := own, threads := work.map fun objs => { todo := objs } }

/-- C119, for threads that add types of different names. In every schedule, what is defined at one moment is defined so at all later ones, and every
type that `add_type` returned is what its name stands for. Missing: threads that add types of the same name (C119_threads_replace). -/
theorem C119_threads_partial (ch : Chars) (own : Dict Obj) (work : List (List Obj))
    (hw : ∀ (i j : Nat) (a b : List Obj), work[i]? = some a → work[j]? = some b → i ≠ j →
      ∀ x ∈ a, ∀ y ∈ b, x.qualname = none ∨ x.qualname ≠ y.qualname) (before after : List Nat) :
    Extends ((start own work).run ch before).own ((start own work).run ch (before ++ after)).own ∧
      ∀ (i : Nat) (t : Thread), ((start own work).run ch before).threads[i]? = some t → ∀ o ∈ t.returned,
        ∃ n, o.qualname = some n ∧ ((start own work).run ch before).own.lookup n = some o := by
  have h0 : Right (start own work) := by
    refine ⟨?_, ?_⟩
    · intro i j t u hi hj hne n hn hm
      simp only [start, List.getElem?_map, Option.map_eq_some_iff] at hi hj
      obtain ⟨a, ha, rfl⟩ := hi
      obtain ⟨b, hb, rfl⟩ := hj
      simp only [Thread.names, Option.map_none, Option.toList_none, List.append_nil, List.mem_filterMap] at hn hm
      obtain ⟨x, hx, hxn⟩ := hn
      obtain ⟨y, hy, hyn⟩ := hm
      rcases hw i j a b ha hb hne x hx y hy with h | h
      · rw [hxn] at h; cases h
      · exact h (hxn.trans hyn.symm)
    · intro i t hi
      simp only [start, List.getElem?_map, Option.map_eq_some_iff] at hi
      obtain ⟨a, ha, rfl⟩ := hi
      exact ⟨fun n o h => (by cases h), fun o h => (by cases h)⟩
  have h1 := (right_run (ch := ch) before h0).1
  refine ⟨?_, fun i t hi o ho => (h1.2 i t hi).2 o ho⟩
  have : (start own work).run ch (before ++ after) = ((start own work).run ch before).run ch after := by
    simp only [State.run, List.foldl_append]
  rw [this]
  exact (right_run after h1).2

/-- What C119_threads_partial leaves out: two threads add two types of one name, both calls return, and one of the types is lost. So it is for all types
with a proper name that is not defined. -/
theorem C119_threads_replace (ch : Chars) (own : Dict Obj) (x y : Obj) {name : String} (hx : Addable ch own x name) (hy : Addable ch own y name) :
    ∃ before after, ((start own [[x], [y]]).run ch before).own.lookup name = some x ∧
      ((start own [[x], [y]]).run ch (before ++ after)).own.lookup name = some y ∧
      ((start own [[x], [y]]).run ch (before ++ after)).threads.map Thread.returned = [[x], [y]] := by
  refine ⟨[0, 1, 0], [1], ?_, ?_, ?_⟩ <;>
    simp [State.run, State.step, start, Thread.step, check_ok.2 hx, check_ok.2 hy, lookup_set]

/-! ### Samples -/

/-- ASCII. -/
def ascii : Chars :=
  { isIdentifier := fun n => n.toList.all (fun c => c.isAlphanum || c == '_') && !(n.toList.headD '0').isDigit, isUpper := Char.isUpper }

example : Addable ascii [] ⟨some "Guid", true, 1⟩ "Guid" := by
  refine ⟨rfl, rfl, ⟨by decide, by decide, 'G', _, rfl, by decide⟩, rfl⟩
example : addType ascii [("Guid", ⟨some "Guid", true, 1⟩)] ⟨some "Guid", true, 2⟩ = .error .attribute := by
  simp [addType, check, ascii, Except.map]
example : ∃ own, addType ascii [] ⟨some "Guid", true, 1⟩ = .ok own :=
  ⟨_, congrArg (Except.map _) ((check_ok (name := "Guid")).2 ⟨rfl, rfl, ⟨by decide, by decide, 'G', _, rfl, by decide⟩, rfl⟩)⟩
example : ∀ (i j : Nat) (a b : List Obj), [[(⟨some "A", true, 1⟩ : Obj)], [⟨some "B", true, 2⟩, ⟨none, true, 3⟩]][i]? = some a →
    [[(⟨some "A", true, 1⟩ : Obj)], [⟨some "B", true, 2⟩, ⟨none, true, 3⟩]][j]? = some b → i ≠ j →
      ∀ x ∈ a, ∀ y ∈ b, x.qualname = none ∨ x.qualname ≠ y.qualname := by
  intro i j a b ha hb hne x hx y hy
  match i, j with
  | 0, 0 => exact absurd rfl hne
  | 1, 1 => exact absurd rfl hne
  | 0, 1 => simp at ha hb; subst ha hb; simp at hx hy; rcases hy with rfl | rfl <;> subst hx <;> simp
  | 1, 0 => simp at ha hb; subst ha hb; simp at hx hy; rcases hx with rfl | rfl <;> subst hy <;> simp
  | n + 2, _ => simp at ha
  | _, n + 2 => simp at hb

end Aiootp.Registry
