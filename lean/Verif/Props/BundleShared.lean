import Verif.Spec.BundleShared
import Verif.Props.Shmac

/-
Property C117: a key bundle that coroutines and threads share.
-/

namespace Aiootp.BundleShared

open Cipher

/-! ### Lemmas -/

/-- A thread is inside such a call. -/
def Inside : Phase → Prop
  | .waiting => False
  | .done _ => False
  | _ => True

/-- The call is registered, or was. -/
def Live : Phase → Prop
  | .third => True
  | .fourth => True
  | .done (.ok _) => True
  | _ => False

def IsJunction : BundleCall → Prop
  | .junction _ _ _ => True
  | _ => False

theorem registered_exec {b : Bundle} {c : BundleCall} (h : ¬ IsJunction c) : (b.exec c).2.registered = b.registered := by
  cases c with
  | setMode m => simp only [Bundle.exec, Bundle.setMode]; split <;> rfl
  | newShmac => simp only [Bundle.exec, Bundle.newShmac]; split <;> rfl
  | direct i d =>
    simp only [Bundle.exec, Bundle.direct]
    repeat' split
    all_goals rfl
  | junction i d m => exact absurd trivial h

theorem registered_step {b : Bundle} {c : BundleCall} {p : Phase} (h : ¬ IsJunction c) : (step b c p).2.registered = b.registered := by
  cases c with
  | junction i d m => exact absurd trivial h
  | setMode m =>
    cases p <;> simp only [step] <;> first | rfl | exact registered_exec h | (repeat' split) <;> rfl
  | newShmac =>
    cases p <;> simp only [step] <;> first | rfl | exact registered_exec h | (repeat' split) <;> rfl
  | direct i d =>
    cases p <;> simp only [step] <;> first | rfl | exact registered_exec h | (repeat' split) <;> rfl

/-- The junction in one go. -/
theorem junction_exec (b : Bundle) (i : Nat) (d : Direction) (m : RunMode) :
    ((b.exec (.junction i d m)).1 = .ok () → b.registered = none ∧ (b.exec (.junction i d m)).2.registered.isSome) ∧
      (b.registered.isSome → (b.exec (.junction i d m)).2.registered.isSome) := by
  simp only [Bundle.exec, Bundle.junction]
  constructor
  · intro h
    split at h
    · cases h
    · split at h
      · cases h
      · rename_i hn
        split
        · simp_all
        · refine ⟨by simpa using hn, ?_⟩
          split
          · rfl
          · split <;> rfl
  · intro h
    split
    · exact h
    · rw [if_pos h]; exact h

structure Held (s : Sys) : Prop where
  alone : ∀ (i j : Nat) (e f : Entry), s.calls[i]? = some e → s.calls[j]? = some f → IsJunction e.call → IsJunction f.call →
    Inside e.phase → Inside f.phase → i = j
  marked : ∀ (i : Nat) (e : Entry), s.calls[i]? = some e → IsJunction e.call → Live e.phase → s.bundle.registered.isSome
  once : ∀ (i j : Nat) (e f : Entry), s.calls[i]? = some e → s.calls[j]? = some f → IsJunction e.call → IsJunction f.call →
    Live e.phase → Live f.phase → i = j
  free : ∀ (i : Nat) (e : Entry), s.calls[i]? = some e → IsJunction e.call → e.phase = .store → s.bundle.registered = none

theorem Quiet.not_inside {s : Sys} (h : Quiet s) {i : Nat} {e : Entry} (he : s.calls[i]? = some e) (hj : IsJunction e.call) :
    ¬ Inside e.phase := by
  obtain ⟨c, p⟩ := e
  cases c with
  | junction k d m =>
    rcases h i k d m p he with rfl | ⟨r, rfl⟩ <;> exact id
  | _ => exact hj.elim

/-- Call `i` gets a new entry; nothing is changed in the others. -/
structure Renews (s s' : Sys) (i : Nat) (new : Entry) : Prop where
  own : ∀ e : Entry, s'.calls[i]? = some e → e = new
  rest : ∀ (j : Nat) (e : Entry), j ≠ i → s'.calls[j]? = some e → s.calls[j]? = some e

theorem renews_snoc (s : Sys) (b : Bundle) (new : Entry) : Renews s ⟨b, s.calls ++ [new]⟩ s.calls.length new := by
  constructor
  · intro e he
    simp at he
    exact he.symm
  · intro j e hj he
    rcases Nat.lt_or_ge j s.calls.length with h | h
    · simpa only [List.getElem?_append_left h] using he
    · have hlt := (List.getElem?_eq_some_iff.1 he).1
      simp at hlt
      omega

theorem renews_set (s : Sys) (b : Bundle) (i : Nat) (new : Entry) : Renews s ⟨b, s.calls.set i new⟩ i new := by
  constructor
  · intro e he
    simp only [List.getElem?_set] at he
    simp only [if_true] at he
    split at he
    · cases he; rfl
    · cases he
  · intro j e hj he
    simpa only [List.getElem?_set_ne (Ne.symm hj)] using he

/-- Nothing is registered or unregistered. -/
theorem Held.keep {s s' : Sys} {i : Nat} {new : Entry} (h : Held s) (hr : Renews s s' i new)
    (hreg : s'.bundle.registered = s.bundle.registered)
    (hin : IsJunction new.call → Inside new.phase → ∀ (j : Nat) (e : Entry), j ≠ i → s.calls[j]? = some e → IsJunction e.call → ¬ Inside e.phase)
    (hlive : IsJunction new.call → Live new.phase → ∃ e : Entry, s.calls[i]? = some e ∧ IsJunction e.call ∧ Live e.phase)
    (hstore : IsJunction new.call → new.phase = .store → s.bundle.registered = none) : Held s' := by
  refine ⟨?_, ?_, ?_, ?_⟩
  · intro j k e f he hf hje hjf hie hif
    by_cases h1 : j = i
    · by_cases h2 : k = i
      · rw [h1, h2]
      · subst h1
        cases hr.own e he
        exact absurd hif (hin hje hie k f h2 (hr.rest k f h2 hf) hjf)
    · by_cases h2 : k = i
      · subst h2
        cases hr.own f hf
        exact absurd hie (hin hjf hif j e h1 (hr.rest j e h1 he) hje)
      · exact h.alone j k e f (hr.rest j e h1 he) (hr.rest k f h2 hf) hje hjf hie hif
  · intro j e he hj hl
    rw [hreg]
    by_cases h1 : j = i
    · subst h1
      cases hr.own e he
      obtain ⟨e', he', hj', hl'⟩ := hlive hj hl
      exact h.marked j e' he' hj' hl'
    · exact h.marked j e (hr.rest j e h1 he) hj hl
  · intro j k e f he hf hje hjf hle hlf
    have old : ∀ (j : Nat) (e : Entry), s'.calls[j]? = some e → IsJunction e.call → Live e.phase →
        ∃ e' : Entry, s.calls[j]? = some e' ∧ IsJunction e'.call ∧ Live e'.phase := by
      intro j e he hj hl
      by_cases h1 : j = i
      · subst h1; cases hr.own e he; exact hlive hj hl
      · exact ⟨e, hr.rest j e h1 he, hj, hl⟩
    obtain ⟨e', he', hje', hle'⟩ := old j e he hje hle
    obtain ⟨f', hf', hjf', hlf'⟩ := old k f hf hjf hlf
    exact h.once j k e' f' he' hf' hje' hjf' hle' hlf'
  · intro j e he hj hp
    rw [hreg]
    by_cases h1 : j = i
    · subst h1; cases hr.own e he; exact hstore hj hp
    · exact h.free j e (hr.rest j e h1 he) hj hp

/-- Call `i` registers, nothing was registered, and no other call is inside. -/
theorem Held.register {s s' : Sys} {i : Nat} {new : Entry} (h : Held s) (hr : Renews s s' i new)
    (hnone : s.bundle.registered = none) (hsome : s'.bundle.registered.isSome)
    (hout : ∀ (j : Nat) (e : Entry), j ≠ i → s.calls[j]? = some e → IsJunction e.call → ¬ Inside e.phase)
    (hnew : new.phase ≠ .store) : Held s' := by
  have dead : ∀ (j : Nat) (e : Entry), s.calls[j]? = some e → IsJunction e.call → ¬ Live e.phase := by
    intro j e he hj hl
    have := h.marked j e he hj hl
    rw [hnone] at this
    cases this
  refine ⟨?_, fun _ _ _ _ _ => hsome, ?_, ?_⟩
  · intro j k e f he hf hje hjf hie hif
    have h1 : j = i := Classical.byContradiction fun h1 => hout j e h1 (hr.rest j e h1 he) hje hie
    have h2 : k = i := Classical.byContradiction fun h2 => hout k f h2 (hr.rest k f h2 hf) hjf hif
    rw [h1, h2]
  · intro j k e f he hf hje hjf hle hlf
    have h1 : j = i := Classical.byContradiction fun h1 => dead j e (hr.rest j e h1 he) hje hle
    have h2 : k = i := Classical.byContradiction fun h2 => dead k f (hr.rest k f h2 hf) hjf hlf
    rw [h1, h2]
  · intro j e he hj hp
    by_cases h1 : j = i
    · subst h1; cases hr.own e he; exact absurd hp hnew
    · have := hr.rest j e h1 he
      exact absurd (by rw [hp]; trivial) (hout j e h1 this hj)

/-- A junction in one go. -/
theorem Held.whole {s : Sys} {i : Nat} {k : Nat} {d : Direction} {m : RunMode} {calls : List Entry} (h : Held s) (hq : Quiet s)
    (hr : Renews s ⟨(s.bundle.exec (.junction k d m)).2, calls⟩ i
      ⟨.junction k d m, .done (s.bundle.exec (.junction k d m)).1⟩) :
    Held ⟨(s.bundle.exec (.junction k d m)).2, calls⟩ := by
  obtain ⟨h1, h2⟩ := junction_exec s.bundle k d m
  cases hreg : (s.bundle.exec (.junction k d m)).2.registered with
  | none =>
    have hn : s.bundle.registered = none := by
      cases hs : s.bundle.registered with
      | none => rfl
      | some x =>
        have := h2 (by rw [hs]; rfl)
        rw [hreg] at this
        cases this
    refine h.keep hr (by rw [hn]; exact hreg) (fun _ hi => hi.elim) ?_ (fun _ hp => nomatch hp)
    intro _ hl
    cases hres : (s.bundle.exec (.junction k d m)).1 with
    | ok u =>
      have := (h1 hres).2
      rw [hreg] at this
      cases this
    | error e => rw [hres] at hl; exact hl.elim
  | some x =>
    cases hs : s.bundle.registered with
    | none =>
      exact h.register hr hs (by simp only [hreg]; rfl) (fun j e _ he hj => hq.not_inside he hj) (fun hp => nomatch hp)
    | some y =>
      cases hres : (s.bundle.exec (.junction k d m)).1 with
      | ok u =>
        have := (h1 hres).1
        rw [hs] at this
        cases this
      | error err =>
        have hsame : (s.bundle.exec (.junction k d m)).2.registered = s.bundle.registered := by
          simp only [Bundle.exec, Bundle.junction]
          split
          · rfl
          · rw [if_pos (by rw [hs]; rfl)]
        refine h.keep hr hsame (fun _ hi => hi.elim) ?_ (fun _ hp => nomatch hp)
        intro _ hl
        rw [hres] at hl
        exact hl.elim

theorem Held.act {s : Sys} (h : Held s) {a : Action} (hq : Enters s a → Quiet s) : Held (s.act a) := by
  cases a with
  | now call =>
    by_cases hj : IsJunction call
    · cases call with
      | junction k d m => exact h.whole (hq ⟨k, d, m, Or.inl rfl⟩) (renews_snoc s _ _)
      | _ => exact hj.elim
    · exact h.keep (renews_snoc s _ _) (registered_exec hj) (fun hc => absurd hc hj) (fun hc => absurd hc hj) (fun hc => absurd hc hj)
  | wait call =>
    exact h.keep (renews_snoc s _ _) rfl (fun _ hi => hi.elim) (fun _ hl => hl.elim) (fun _ hp => nomatch hp)
  | thread call =>
    refine h.keep (renews_snoc s _ _) rfl ?_ (fun _ hl => hl.elim) (fun _ hp => nomatch hp)
    intro hj _ j e _ he hje
    cases call with
    | junction k d m => exact (hq ⟨k, d, m, Or.inr (Or.inl rfl)⟩).not_inside he hje
    | _ => exact hj.elim
  | go i =>
    simp only [Sys.act]
    cases hi : s.calls[i]? with
    | none => exact h
    | some e =>
      obtain ⟨call, p⟩ := e
      simp only
      by_cases hj : IsJunction call
      · cases call with
        | junction k d m =>
          -- one of the calls inside: nobody else is
          have out : Inside p → ∀ (j : Nat) (e : Entry), j ≠ i → s.calls[j]? = some e → IsJunction e.call → ¬ Inside e.phase :=
            fun hin j e hji he hje hie => hji (h.alone j i e _ he hi hje trivial hie hin)
          have hr := renews_set s (step s.bundle (.junction k d m) p).2 i ⟨.junction k d m, (step s.bundle (.junction k d m) p).1⟩
          cases p with
          | waiting => exact h.whole (hq ⟨k, d, m, Or.inr (Or.inr ⟨i, rfl, hi⟩)⟩) (renews_set s _ i _)
          | first =>
            simp only [step] at hr ⊢
            split
            · simp_all only
              exact h.keep hr rfl (fun _ hc => hc.elim) (fun _ hc => hc.elim) (fun _ hp => nomatch hp)
            · simp_all only
              split
              · simp_all only [if_true]
                exact h.keep hr rfl (fun _ hc => hc.elim) (fun _ hc => hc.elim) (fun _ hp => nomatch hp)
              · rename_i hn
                rw [if_neg hn] at hr
                exact h.keep hr rfl (fun _ _ => out trivial) (fun _ hc => hc.elim) (fun _ hp => nomatch hp)
          | second =>
            simp only [step] at hr ⊢
            split
            · rename_i hn
              rw [if_pos hn] at hr
              exact h.keep hr rfl (fun _ hc => hc.elim) (fun _ hc => hc.elim) (fun _ hp => nomatch hp)
            · rename_i hn
              rw [if_neg hn] at hr
              exact h.keep hr rfl (fun _ _ => out trivial) (fun _ hc => hc.elim) (fun _ _ => by simpa using hn)
          | store =>
            simp only [step] at hr ⊢
            exact h.register hr (h.free i _ hi trivial rfl) rfl (out trivial) (fun hp => nomatch hp)
          | third =>
            simp only [step] at hr ⊢
            split
            · rename_i hn
              rw [if_pos hn] at hr
              exact h.keep hr rfl (fun _ hc => hc.elim) (fun _ hc => hc.elim) (fun _ hp => nomatch hp)
            · rename_i hn
              rw [if_neg hn] at hr
              exact h.keep hr rfl (fun _ _ => out trivial) (fun _ _ => ⟨_, hi, trivial, trivial⟩) (fun _ hp => nomatch hp)
          | fourth =>
            simp only [step] at hr ⊢
            split
            · rename_i hn
              rw [if_pos hn] at hr
              exact h.keep hr rfl (fun _ hc => hc.elim) (fun _ hc => hc.elim) (fun _ hp => nomatch hp)
            · rename_i hn
              rw [if_neg hn] at hr
              exact h.keep hr rfl (fun _ hc => hc.elim) (fun _ _ => ⟨_, hi, trivial, trivial⟩) (fun _ hp => nomatch hp)
          | done r =>
            simp only [step] at hr ⊢
            exact h.keep hr rfl (fun _ hc => hc.elim) (fun _ hl => ⟨_, hi, trivial, hl⟩) (fun _ hp => nomatch hp)
        | _ => exact hj.elim
      · exact h.keep (renews_set s _ i _) (registered_step hj) (fun hc => absurd hc hj) (fun hc => absurd hc hj) (fun hc => absurd hc hj)

theorem Held.run {actions : List Action} {s : Sys} (h : Held s) (hs : Separate s actions) : Held (s.run actions) := by
  induction actions generalizing s with
  | nil => exact h
  | cons a rest ih => exact ih (h.act hs.1) hs.2

theorem held_fresh (ivGiven : Bool) : Held (fresh ivGiven) := by
  refine ⟨?_, ?_, ?_, ?_⟩ <;> simp [fresh]

/-! ### The property -/

/-- C117, the part that holds. If calls that start to encrypt or decrypt do not overlap in time, at most one of them starts to,
whatever else coroutines and threads do with the bundle at the same time. Missing: C117_threads_start_twice. -/
theorem C117_once_partial {ivGiven : Bool} {actions : List Action} (h : Separate (fresh ivGiven) actions) :
    Once ((fresh ivGiven).run actions) := by
  intro i j d e hi hj
  obtain ⟨k, m, hi⟩ := hi
  obtain ⟨k', m', hj⟩ := hj
  exact ((held_fresh ivGiven).run h).once i j _ _ hi hj trivial trivial trivial trivial

/-- No thread is inside any call. -/
def NoThread (s : Sys) : Prop := ∀ (i : Nat) (e : Entry), s.calls[i]? = some e → ¬ Inside e.phase

theorem step_outside {b : Bundle} {c : BundleCall} {p : Phase} (h : ¬ Inside p) : ¬ Inside (step b c p).1 := by
  cases p with
  | waiting => cases c <;> exact id
  | done r => cases c <;> exact id
  | _ => exact absurd trivial h

theorem separate_of_noThread {actions : List Action} (ha : ∀ call, Action.thread call ∉ actions) {s : Sys} (h : NoThread s) :
    Separate s actions := by
  induction actions generalizing s with
  | nil => trivial
  | cons a rest ih =>
    refine ⟨fun _ i k d m p hi => ?_, ih (fun call hm => ha call (List.mem_cons_of_mem _ hm)) ?_⟩
    · have := h i _ hi
      cases p with
      | waiting => exact Or.inl rfl
      | done r => exact Or.inr ⟨r, rfl⟩
      | _ => exact absurd trivial this
    · have snoc : ∀ (b : Bundle) (new : Entry), ¬ Inside new.phase → NoThread ⟨b, s.calls ++ [new]⟩ := by
        intro b new hn i e he
        by_cases hi : i = s.calls.length
        · subst hi; cases (renews_snoc s b new).own e he; exact hn
        · exact h i e ((renews_snoc s b new).rest i e hi he)
      cases a with
      | now call => exact snoc _ _ id
      | wait call => exact snoc _ _ id
      | thread call => exact absurd List.mem_cons_self (ha call)
      | go i =>
        simp only [Sys.act]
        cases hi : s.calls[i]? with
        | none => exact h
        | some e =>
          intro j f hf
          by_cases hji : j = i
          · subst hji
            cases (renews_set s _ j _).own f hf
            exact step_outside (h j e hi)
          · exact h j f ((renews_set s _ i _).rest j f hji hf)

/-- C117 for coroutines. However the coroutines that share a bundle are scheduled, at most one call starts to encrypt or decrypt. -/
theorem C117_coroutines_partial {ivGiven : Bool} {actions : List Action} (h : ∀ call, Action.thread call ∉ actions) :
    Once ((fresh ivGiven).run actions) :=
  C117_once_partial (separate_of_noThread h (by simp [NoThread, fresh]))

/-- What the calls of threads know. -/
def Knows (ivGiven : Bool) (e : Entry) : Prop :=
  (∀ k d, e.call = .direct k d → e.phase = .store → ¬ ivGiven = (d == .encryption)) ∧
    ∀ k d m, e.call = .junction k d m → (e.phase = .fourth ∨ e.phase = .done (.ok ())) → (ivGiven = true ↔ d = .decryption)

structure Right (ivGiven : Bool) (s : Sys) : Prop where
  iv : s.bundle.ivGiven = ivGiven
  directed : s.bundle.Directed
  knows : ∀ (i : Nat) (e : Entry), s.calls[i]? = some e → Knows ivGiven e

theorem knows_exec {b : Bundle} (hd : b.Directed) (call : BundleCall) : Knows b.ivGiven ⟨call, .done (b.exec call).1⟩ := by
  refine ⟨(fun _ _ _ hp => nomatch hp), ?_⟩
  rintro k d m rfl (hp | hp)
  · cases hp
  · simp only [Phase.done.injEq] at hp
    exact hd k d (Bundle.junction_registers b k d m hp).2.2.1

theorem right_step {b : Bundle} (hd : b.Directed) {call : BundleCall} {p : Phase} (hk : Knows b.ivGiven ⟨call, p⟩) :
    (step b call p).2.ivGiven = b.ivGiven ∧ (step b call p).2.Directed ∧ Knows b.ivGiven ⟨call, (step b call p).1⟩ := by
  cases p with
  | waiting =>
    have : step b call .waiting = (.done (b.exec call).1, (b.exec call).2) := by cases call <;> rfl
    rw [this]
    exact ⟨Bundle.exec_ivGiven b call, Bundle.directed_exec hd call, knows_exec hd call⟩
  | done r =>
    have : step b call (.done r) = (.done r, b) := by cases call <;> rfl
    rw [this]
    exact ⟨rfl, hd, hk⟩
  | first =>
    cases call <;> simp only [step] <;> (repeat' split) <;>
      exact ⟨(by first | rfl | trivial), hd, (fun _ _ h1 h2 => by cases h1 <;> cases h2), (fun _ _ _ h1 h2 => by cases h1 <;> rcases h2 with h2 | h2 <;> cases h2)⟩
  | second =>
    cases call with
    | direct i d =>
      simp only [step]
      split
      · exact ⟨rfl, hd, (fun _ _ _ h2 => nomatch h2), (fun _ _ _ h1 _ => nomatch h1)⟩
      · rename_i hn
        refine ⟨rfl, hd, ?_, (fun _ _ _ h1 _ => nomatch h1)⟩
        intro k d' h1 _
        cases h1
        exact hn
    | _ =>
      simp only [step] <;> (repeat' split) <;>
        exact ⟨(by first | rfl | trivial), hd, (fun _ _ h1 h2 => by cases h1 <;> cases h2), (fun _ _ _ h1 h2 => by cases h1 <;> rcases h2 with h2 | h2 <;> cases h2)⟩
  | store =>
    cases call with
    | direct i d =>
      have hn := hk.1 i d rfl rfl
      refine ⟨rfl, ?_, (fun _ _ _ h2 => nomatch h2), (fun _ _ _ h1 _ => nomatch h1)⟩
      intro j e hj
      simp only [step, List.getElem?_set] at hj ⊢
      split at hj
      · split at hj
        · cases hj
          cases d <;> cases hv : b.ivGiven <;> simp_all
        · cases hj
      · exact hd j e hj
    | junction i d m =>
      exact ⟨rfl, hd, (fun _ _ h1 _ => nomatch h1), (fun _ _ _ _ h2 => by rcases h2 with h2 | h2 <;> cases h2)⟩
    | setMode m => exact ⟨rfl, hd, (fun _ _ _ h2 => nomatch h2), (fun _ _ _ h1 _ => nomatch h1)⟩
    | newShmac =>
      refine ⟨rfl, ?_, (fun _ _ _ h2 => nomatch h2), (fun _ _ _ h1 _ => nomatch h1)⟩
      intro j e hj
      simp only [step, List.getElem?_append] at hj ⊢
      split at hj
      · exact hd j e hj
      · cases hh : j - b.shmacs.length with
        | zero => rw [hh] at hj; simp at hj
        | succ n => rw [hh] at hj; simp at hj
  | third =>
    cases call with
    | junction i d m =>
      simp only [step]
      split
      · exact ⟨rfl, hd, (fun _ _ h1 _ => nomatch h1), (fun _ _ _ _ h2 => by rcases h2 with h2 | h2 <;> cases h2)⟩
      · rename_i hn
        refine ⟨rfl, hd, (fun _ _ h1 _ => nomatch h1), ?_⟩
        intro k d' m' h1 _
        cases h1
        exact hd i d (by simpa using hn)
    | _ =>
      simp only [step] <;>
        exact ⟨(by first | rfl | trivial), hd, (fun _ _ h1 h2 => by cases h1 <;> cases h2), (fun _ _ _ h1 h2 => by cases h1 <;> rcases h2 with h2 | h2 <;> cases h2)⟩
  | fourth =>
    cases call with
    | junction i d m =>
      simp only [step]
      split
      · exact ⟨rfl, hd, (fun _ _ h1 _ => nomatch h1), (fun _ _ _ _ h2 => by rcases h2 with h2 | h2 <;> cases h2)⟩
      · refine ⟨rfl, hd, (fun _ _ h1 _ => nomatch h1), ?_⟩
        intro k d' m' h1 _
        cases h1
        exact hk.2 i d m rfl (Or.inl rfl)
    | _ =>
      simp only [step] <;>
        exact ⟨(by first | rfl | trivial), hd, (fun _ _ h1 h2 => by cases h1 <;> cases h2), (fun _ _ _ h1 h2 => by cases h1 <;> rcases h2 with h2 | h2 <;> cases h2)⟩

theorem Right.act {ivGiven : Bool} {s : Sys} (h : Right ivGiven s) (a : Action) : Right ivGiven (s.act a) := by
  have snoc : ∀ (b : Bundle) (new : Entry), b.ivGiven = ivGiven → b.Directed → Knows ivGiven new → Right ivGiven ⟨b, s.calls ++ [new]⟩ := by
    intro b new hi hd hk
    refine ⟨hi, hd, fun i e he => ?_⟩
    by_cases hil : i = s.calls.length
    · subst hil; cases (renews_snoc s b new).own e he; exact hk
    · exact h.knows i e ((renews_snoc s b new).rest i e hil he)
  cases a with
  | now call =>
    exact snoc _ _ ((Bundle.exec_ivGiven _ call).trans h.iv) (Bundle.directed_exec h.directed call) (h.iv ▸ knows_exec h.directed call)
  | wait call => exact snoc _ _ h.iv h.directed ⟨(fun _ _ _ h2 => nomatch h2), (fun _ _ _ _ h2 => by rcases h2 with h2 | h2 <;> cases h2)⟩
  | thread call => exact snoc _ _ h.iv h.directed ⟨(fun _ _ _ h2 => nomatch h2), (fun _ _ _ _ h2 => by rcases h2 with h2 | h2 <;> cases h2)⟩
  | go i =>
    simp only [Sys.act]
    cases hi : s.calls[i]? with
    | none => exact h
    | some e =>
      obtain ⟨h1, h2, h3⟩ := right_step h.directed (call := e.call) (p := e.phase) (by rw [h.iv]; exact h.knows i e hi)
      refine ⟨h1.trans h.iv, h2, fun j f hf => ?_⟩
      by_cases hji : j = i
      · subst hji; cases (renews_set s _ j _).own f hf; exact h.iv ▸ h3
      · exact h.knows j f ((renews_set s _ i _).rest j f hji hf)

/-- C117. Whatever coroutines and threads do at the same time, no call encrypts with an iv that was given, and none decrypts with
one that was drawn. -/
theorem C117_directions (ivGiven : Bool) (actions : List Action) {i : Nat} {d : Direction}
    (h : Started ((fresh ivGiven).run actions) i d) : ivGiven = true ↔ d = .decryption := by
  have hr : ∀ (actions : List Action) (s : Sys), Right ivGiven s → Right ivGiven (s.run actions) := by
    intro actions
    induction actions with
    | nil => exact fun s h => h
    | cons a rest ih => exact fun s h => ih _ (h.act a)
  obtain ⟨k, m, h⟩ := h
  exact ((hr actions (fresh ivGiven) ⟨rfl, (by intro i d h; simp [fresh, Bundle.fresh] at h), by simp [fresh]⟩).knows i _ h).2 k d m rfl
    (Or.inr rfl)

/-- Two threads that ask before either of them has registered. -/
def race (n k l : Nat) (d : Direction) (m : RunMode) : List Action :=
  [.thread (.junction k d m), .thread (.junction l d m), .go n, .go n, .go (n + 1), .go (n + 1), .go n, .go (n + 1),
    .go n, .go n, .go (n + 1), .go (n + 1)]

/-- C117 is false for threads: whenever a bundle is ready to be used, two threads that use it at the same time, with the same
stream-hmac or with different ones, can both start to encrypt, or to decrypt. -/
theorem C117_threads_start_twice {s : Sys} {k l : Nat} {d : Direction} {m : RunMode} (hr : s.bundle.registered = none)
    (hm : s.bundle.mode = some m) (hk : s.bundle.shmacs[k]? = some (some d)) (hl : s.bundle.shmacs[l]? = some (some d)) :
    ∃ actions, Started (s.run actions) s.calls.length d ∧ Started (s.run actions) (s.calls.length + 1) d := by
  refine ⟨race s.calls.length k l d m, ?_⟩
  obtain ⟨b, calls⟩ := s
  have e1 : ∀ (b : Bundle) (x y : Entry), (⟨b, calls ++ [x, y]⟩ : Sys).act (.go calls.length)
      = ⟨(step b x.call x.phase).2, calls ++ [⟨x.call, (step b x.call x.phase).1⟩, y]⟩ := by
    intro b x y
    simp [Sys.act]
  have e2 : ∀ (b : Bundle) (x y : Entry), (⟨b, calls ++ [x, y]⟩ : Sys).act (.go (calls.length + 1))
      = ⟨(step b y.call y.phase).2, calls ++ [x, ⟨y.call, (step b y.call y.phase).1⟩]⟩ := by
    intro b x y
    simp [Sys.act]
  have e0 : ((⟨b, calls⟩ : Sys).act (.thread (.junction k d m))).act (.thread (.junction l d m))
      = ⟨b, calls ++ [⟨.junction k d m, .first⟩, ⟨.junction l d m, .first⟩]⟩ := by simp [Sys.act]
  simp only at hr hm hk hl
  have hrun : (⟨b, calls⟩ : Sys).run (race calls.length k l d m)
      = ⟨{ b with registered := some l }, calls ++ [⟨.junction k d m, .done (.ok ())⟩, ⟨.junction l d m, .done (.ok ())⟩]⟩ := by
    simp only [race, Sys.run, e0, e1, e2, step, hk, hl, hr, hm, Option.isSome_none, Bool.false_eq_true, if_false, ne_eq,
      not_true_eq_false]
  simp only
  rw [hrun]
  exact ⟨⟨k, m, by simp⟩, ⟨l, m, by simp⟩⟩

/-! ### Samples -/

/-- Three coroutines prepare and use a bundle, a thread declares a direction. -/
def sample : List Action :=
  [.wait (.setMode .async), .go 0, .now .newShmac, .now .newShmac, .thread (.direct 0 .encryption), .go 3, .wait (.junction 1 .encryption .async),
    .go 3, .now (.direct 1 .encryption), .go 3, .now (.junction 0 .encryption .async), .go 4]

example : Separate (fresh false) sample := by
  refine ⟨?_, ?_, ?_, ?_, ?_, ?_, ?_, ?_, ?_, ?_, ?_, ?_, trivial⟩ <;>
    (intro _ i k d m p h; revert h; rcases i with _ | _ | _ | _ | _ | _ | _ | i <;>
      simp [fresh, Bundle.fresh, Sys.act, step, Bundle.exec, Bundle.setMode, Bundle.newShmac, Bundle.direct, Bundle.junction] <;> (try (intros; subst_vars; simp)))

example : Started ((fresh false).run sample) 6 .encryption := ⟨0, .async, by decide⟩
example : ¬ Started ((fresh false).run sample) 4 .encryption := by
  rintro ⟨k, m, h⟩
  have : ((fresh false).run sample).calls[4]? = some ⟨.junction 1 .encryption .async, .done (.error .permission)⟩ := by decide
  rw [this] at h
  cases h

/-- A bundle that is ready to be used. -/
example : ((fresh false).run [.now (.setMode .sync), .now .newShmac, .now (.direct 0 .encryption)]).bundle
    = ⟨false, some .sync, none, [some .encryption]⟩ := by decide

end Aiootp.BundleShared
