import Verif.Lemmas.ChainShared
import Verif.Props.Perm

/-
Property C115: a permutation object that coroutines and threads share.
-/

namespace Aiootp.ChainShared

open Perm

/-- C115, what holds. Whatever calls coroutines and threads make on one chain object, however their steps interleave and
wherever coroutines are cancelled: as long as calls of threads that change the object do not overlap, the calls that have
returned act as if they had been made one after another. -/
theorem C115_in_some_order_partial {c : Chain} {actions : List Action} {s : Sys} (h : (fresh c).run actions = some s)
    (ht : TurnsTaken c actions) : InSomeOrder c s :=
  let ⟨_, hinv⟩ := inv_run h ht
  hinv.inSomeOrder

/-- A property of all calls that is kept by every action. -/
theorem run_keeps {P : Entry → Prop} {actions : List Action} {s s' : Sys} (h : s.run actions = some s')
    (h0 : ∀ e ∈ s.calls, P e)
    (hb : ∀ style call, Action.begin style call ∈ actions → ∀ c t, P ⟨style, call, start c style call, t, none⟩)
    (hr : ∀ c style call phase phase' c' b t, P ⟨style, call, phase, b, none⟩ →
      resume c style call phase = some (phase', c') → P ⟨style, call, phase', b, endTime t phase'⟩)
    (hc : ∀ call phase b t, P ⟨.awaited, call, phase, b, none⟩ → P ⟨.awaited, call, .done .cancelled, b, some t⟩) :
    ∀ e ∈ s'.calls, P e := by
  induction actions generalizing s with
  | nil => simp only [Sys.run, Option.some.injEq] at h; subst h; exact h0
  | cons a rest ih =>
    simp only [Sys.run] at h
    cases ha : s.act a with
    | none => rw [ha] at h; cases h
    | some s1 =>
      rw [ha] at h
      refine ih h ?_ (fun style call hm => hb style call (List.mem_cons_of_mem _ hm))
      cases a with
      | begin style call =>
        simp only [Sys.act, Option.some.injEq] at ha
        subst ha
        intro e he
        rcases List.mem_append.1 he with he | he
        · exact h0 e he
        · rw [List.mem_singleton] at he; subst he
          exact hb style call List.mem_cons_self _ _
      | go i =>
        simp only [Sys.act] at ha
        split at ha
        · rename_i style call phase began hi
          split at ha
          · cases ha
          · rename_i phase' chain' hres
            cases ha
            intro e he
            rcases List.mem_or_eq_of_mem_set he with he | rfl
            · exact h0 e he
            · exact hr _ _ _ _ _ _ _ _ (h0 _ (List.mem_of_getElem? hi)) hres
        · cases ha; exact h0
      | cancel i =>
        simp only [Sys.act] at ha
        split at ha
        · rename_i call phase began hi
          cases ha
          intro e he
          rcases List.mem_or_eq_of_mem_set he with he | rfl
          · exact h0 e he
          · exact hc _ _ _ _ (h0 _ (List.mem_of_getElem? hi))
        · cases ha; exact h0

theorem turnsTaken_of_coroutines {c : Chain} {actions : List Action} (ho : OnlyCoroutinesChange actions) :
    TurnsTaken c actions := by
  intro done next rest s he hs
  have key := run_keeps (P := fun e => e.phase.storing = true → e.style = .plain ∧ e.call.changes = true) hs
    (by simp [fresh])
    (fun style call hm c t => by cases style <;> cases call <;> simp [start, Phase.storing])
    (fun c style call phase phase' c' b t hP hres => by
      simp only at hP ⊢
      intro hst
      cases style with
      | plain =>
        cases call with
        | step => exact ⟨rfl, rfl⟩
        | update v => exact ⟨rfl, rfl⟩
        | permute x =>
          cases phase <;> simp only [resume, Option.map_eq_some_iff, Option.some.injEq, Prod.mk.injEq] at hres
          all_goals first
            | (obtain ⟨r, -, rfl, -⟩ := hres; cases hst)
            | (obtain ⟨rfl, -⟩ := hres; first | exact hP hst | (cases hst; done))
        | invert y =>
          cases phase <;> simp only [resume, Option.map_eq_some_iff, Option.some.injEq, Prod.mk.injEq] at hres
          all_goals first
            | (obtain ⟨r, -, rfl, -⟩ := hres; cases hst)
            | (obtain ⟨rfl, -⟩ := hres; first | exact hP hst | (cases hst; done))
      | awaited =>
        have hP' : phase.storing = false := by
          cases hps : phase.storing with
          | false => rfl
          | true => cases (hP hps).1
        exfalso
        cases call with
        | step => cases phase <;> simp_all [resume, Phase.storing] <;> (obtain ⟨rfl, -⟩ := hres; cases hst)
        | update v =>
          cases phase with
          | begun =>
            simp only [resume] at hres
            split at hres <;> (simp only [Option.some.injEq, Prod.mk.injEq] at hres; obtain ⟨rfl, -⟩ := hres; cases hst)
          | read k => cases hP'
          | ready n => cases hP'
          | _ =>
            simp only [resume, Option.some.injEq, Prod.mk.injEq] at hres
            obtain ⟨rfl, -⟩ := hres
            cases hst
        | permute x =>
          cases phase <;> simp only [resume, Option.map_eq_some_iff, Option.some.injEq, Prod.mk.injEq] at hres
          all_goals first
            | (obtain ⟨r, -, rfl, -⟩ := hres; cases hst)
            | (obtain ⟨rfl, -⟩ := hres; first | (cases hP'; done) | (cases hst; done))
        | invert y =>
          cases phase <;> simp only [resume, Option.map_eq_some_iff, Option.some.injEq, Prod.mk.injEq] at hres
          all_goals first
            | (obtain ⟨r, -, rfl, -⟩ := hres; cases hst)
            | (obtain ⟨rfl, -⟩ := hres; first | (cases hP'; done) | (cases hst; done)))
    (fun call phase b t _ hst => by cases hst)
  have key2 := run_keeps (P := fun e => e.style = .plain → e.call.changes = false) hs (by simp [fresh])
    (fun style call hm c t hp => by
      simp only at hp; subst hp
      exact ho call (by rw [he]; exact List.mem_append_left _ hm))
    (fun c style call phase phase' c' b t hP _ => hP) (fun call phase b t hP => hP)
  cases next with
  | go i =>
    intro e hi hch j e' hj hje
    cases hps : e'.phase.storing with
    | false => rfl
    | true =>
      have hm := List.mem_of_getElem? hje
      obtain ⟨h1, h2⟩ := key e' hm hps
      rw [key2 e' hm h1] at h2
      cases h2
  | _ => trivial

/-- C115, what holds. Coroutines may make all calls, and threads may permute and invert: no call can be told from one of a
sequence of plain calls. -/
theorem C115_coroutines_partial {c : Chain} {actions : List Action} {s : Sys} (h : (fresh c).run actions = some s)
    (ho : OnlyCoroutinesChange actions) : InSomeOrder c s :=
  C115_in_some_order_partial h (turnsTaken_of_coroutines ho)

/-- Calls of coroutines and of a thread that overlap. -/
def sample : List Action :=
  [.begin .awaited (.permute 5), .begin .awaited .step, .begin .awaited .step, .go 1, .go 0, .cancel 2,
    .begin .plain (.permute 5), .go 0, .go 3, .begin .awaited (.update 6), .go 0, .go 3, .go 4, .go 3,
    .begin .awaited (.invert 77), .go 5, .begin .awaited .step, .go 3, .go 5, .go 6, .go 5]

/-- A run in which the calls overlap: the first is begun before a step and gives what it would have given before it, a step is
cancelled, and the last to return is begun before a step and gives what it gives after it. -/
example : OnlyCoroutinesChange sample ∧ ∃ config c s, AffineConfig.new 1 1 = .ok config ∧
    Chain.new true config [0, 0, 0, 0, 1] = .ok c ∧ (fresh c).run sample = some s ∧
    Returned s 0 (.permute 5) (.number 252) ∧ Returned s 3 (.permute 5) (.number 213) ∧
    Returned s 5 (.invert 77) (.number 200) ∧ Before s 1 3 ∧
    c.permute 5 = some 252 ∧ (c.run [.step]).permute 5 = some 213 ∧ (c.run [.step, .step]).permute 5 ≠ some 213 ∧
    (c.run [.step, .update 6, .step]).invert 77 = some 200 := by
  refine ⟨by intro call h; simp [sample] at h; subst h; rfl, _, _, _, rfl, rfl, rfl, ⟨_, rfl, rfl, rfl, by simp⟩, ⟨_, rfl, rfl, rfl, by simp⟩,
    ⟨_, rfl, rfl, rfl, by simp⟩, ⟨_, _, 3, rfl, rfl, rfl, by simp⟩, by decide +kernel, by decide +kernel, by decide +kernel, by decide +kernel⟩

/-- The numbers that a call carries. -/
def InRange (size : Nat) : Call → Phase → Prop
  | .step, .ready n => n < 256 ^ size
  | .update _, .ready n => n % 2 = 1
  | _, .inner v => v < 256 ^ size
  | _, .middle v => v < 256 ^ size
  | _, .outer v => v < 256 ^ size
  | _, _ => True

theorem start_inRange {c : Chain} {style : Style} {call : Call} (hc : c.WF) (hf : call.fits c.size) :
    InRange c.size call (start c style call) := by
  cases style <;> cases call <;> first | trivial | exact xor_lt hf hc.inKey | exact xor_lt hf hc.outKey

theorem resume_total {c : Chain} {style : Style} {call : Call} {phase : Phase} (hc : c.WF) (hf : call.fits c.size)
    (hp : InRange c.size call phase) :
    ∃ phase' c', resume c style call phase = some (phase', c') ∧ c'.WF ∧ c'.size = c.size ∧ InRange c.size call phase' := by
  cases call with
  | step =>
    cases phase with
    | begun =>
      cases style with
      | awaited => exact ⟨_, _, rfl, (Chain.apply_wf hc .step).1, rfl, trivial⟩
      | plain => exact ⟨_, _, rfl, hc, rfl, trivial⟩
    | read k =>
      refine ⟨_, _, rfl, hc, rfl, ?_⟩
      show _ % domain c.size < 256 ^ c.size
      rw [domain, two_pow_eight]
      exact Nat.mod_lt _ (Nat.pow_pos (by omega))
    | ready n => exact ⟨_, _, rfl, ⟨hc.affIn, hc.affMid, hc.affOut, hp, hc.inMid, hc.outMid, hc.outKey, hc.odd⟩, rfl, trivial⟩
    | _ => exact ⟨_, _, rfl, hc, rfl, hp⟩
  | update v =>
    cases phase with
    | begun =>
      cases style with
      | awaited =>
        have h2 := Chain.apply_wf hc (.update v)
        simp only [resume]
        simp only [Chain.apply] at h2
        split <;> rename_i hu
        · rw [hu] at h2; exact ⟨_, _, rfl, h2.1, h2.2, trivial⟩
        · exact ⟨_, _, rfl, hc, rfl, trivial⟩
      | plain =>
        simp only [resume]
        split
        · exact ⟨_, _, rfl, hc, rfl, lor_one_odd _⟩
        · exact ⟨_, _, rfl, hc, rfl, trivial⟩
    | ready n => exact ⟨_, _, rfl, ⟨hc.affIn, hc.affMid, hc.affOut, hc.inKey, hc.inMid, hc.outMid, hc.outKey, hp⟩, rfl, trivial⟩
    | _ => exact ⟨_, _, rfl, hc, rfl, hp⟩
  | permute x =>
    cases phase with
    | begun => exact ⟨_, _, rfl, hc, rfl, xor_lt hf hc.inKey⟩
    | inner v =>
      obtain ⟨y, hy, h1, -⟩ := Affine.permute_total hc.affIn hp
      exact ⟨_, _, congrArg (Option.map _) h1, hc, rfl, xor_lt hy hc.inMid⟩
    | middle v =>
      obtain ⟨y, hy, h1, -⟩ := Affine.permute_total hc.affMid hp
      exact ⟨_, _, congrArg (Option.map _) h1, hc, rfl, xor_lt hy hc.outMid⟩
    | outer v =>
      obtain ⟨y, hy, h1, -⟩ := Affine.permute_total hc.affOut hp
      exact ⟨_, _, congrArg (Option.map _) h1, hc, rfl, trivial⟩
    | _ => exact ⟨_, _, rfl, hc, rfl, trivial⟩
  | invert y =>
    cases phase with
    | begun => exact ⟨_, _, rfl, hc, rfl, xor_lt hf hc.outKey⟩
    | outer v =>
      obtain ⟨y, hy, h1, -⟩ := Affine.invert_total hc.affOut hp
      exact ⟨_, _, congrArg (Option.map _) h1, hc, rfl, xor_lt hy hc.outMid⟩
    | middle v =>
      obtain ⟨y, hy, h1, -⟩ := Affine.invert_total hc.affMid hp
      exact ⟨_, _, congrArg (Option.map _) h1, hc, rfl, xor_lt hy hc.inMid⟩
    | inner v =>
      obtain ⟨y, hy, h1, -⟩ := Affine.invert_total hc.affIn hp
      exact ⟨_, _, congrArg (Option.map _) h1, hc, rfl, trivial⟩
    | _ => exact ⟨_, _, rfl, hc, rfl, trivial⟩

theorem run_total {s : Sys} {actions : List Action} (hc : s.chain.WF)
    (hf : ∀ style call, Action.begin style call ∈ actions → call.fits s.chain.size)
    (he : ∀ e ∈ s.calls, e.call.fits s.chain.size ∧ InRange s.chain.size e.call e.phase) : ∃ s', s.run actions = some s' := by
  induction actions generalizing s with
  | nil => exact ⟨s, rfl⟩
  | cons a rest ih =>
    have hf' : ∀ style call, Action.begin style call ∈ rest → call.fits s.chain.size :=
      fun style call hm => hf style call (List.mem_cons_of_mem _ hm)
    simp only [Sys.run]
    cases a with
    | begin style call =>
      simp only [Sys.act]
      refine ih hc hf' ?_
      intro e hm
      rcases List.mem_append.1 hm with hm | hm
      · exact he e hm
      · rw [List.mem_singleton] at hm; subst hm
        have := hf style call List.mem_cons_self
        exact ⟨this, start_inRange hc this⟩
    | go i =>
      simp only [Sys.act]
      split
      · rename_i hnone
        split at hnone
        · rename_i style call phase began hi
          obtain ⟨h1, h2⟩ := he _ (List.mem_of_getElem? hi)
          obtain ⟨p', c', h3, -⟩ := resume_total (style := style) hc h1 h2
          rw [h3] at hnone
          cases hnone
        · cases hnone
      · rename_i s1 hsome
        split at hsome
        · rename_i style call phase began hi
          obtain ⟨h1, h2⟩ := he _ (List.mem_of_getElem? hi)
          obtain ⟨p', c', h3, h4, h5, h6⟩ := resume_total (style := style) hc h1 h2
          rw [h3] at hsome
          cases hsome
          refine ih h4 (by simpa only [h5] using hf') ?_
          intro e hm
          simp only [h5]
          rcases List.mem_or_eq_of_mem_set hm with hm | rfl
          · exact he e hm
          · exact ⟨h1, h6⟩
        · cases hsome
          exact ih hc hf' he
    | cancel i =>
      simp only [Sys.act]
      split
      · rename_i hnone
        split at hnone <;> cases hnone
      · rename_i s1 hsome
        split at hsome
        · rename_i call phase began hi
          cases hsome
          refine ih hc hf' ?_
          intro e hm
          rcases List.mem_or_eq_of_mem_set hm with hm | rfl
          · exact he e hm
          · refine ⟨(he _ (List.mem_of_getElem? hi)).1, ?_⟩
            simp only; cases call <;> trivial
        · cases hsome
          exact ih hc hf' he

/-- C115. No call can hang, whatever the others do, if the numbers have the size of the permutation. -/
theorem C115_never_hangs {fast : Bool} {size hash : Nat} {config : AffineConfig} {key : Bytes} {c : Chain}
    (hc : AffineConfig.new size hash = .ok config) (hk : Chain.new fast config key = .ok c) {actions : List Action}
    (hf : ∀ style call, Action.begin style call ∈ actions → call.fits size) : ∃ s, (fresh c).run actions = some s := by
  obtain ⟨hwf, rfl, hs⟩ := AffineConfig.new_wf hc
  obtain ⟨hw, hsize⟩ := Chain.new_wf hwf hs hk
  exact run_total hw (by simpa only [fresh, hsize] using hf) (by simp [fresh])

/-- The call is `step`. -/
def Call.isStep : Call → Bool
  | .step => true
  | _ => false

theorem sequentially_steps {c c' : Chain} {l : List (Call × Outcome)} (h : Sequentially c l c')
    (hl : ∀ x ∈ l, ∀ v, x.1 ≠ .update v) : c' = c.run (List.replicate (l.countP fun x => x.1.isStep) .step) := by
  induction l generalizing c with
  | nil => exact h.symm
  | cons x rest ih =>
    have ih' := ih h.2 fun y hy => hl y (List.mem_cons_of_mem _ hy)
    obtain ⟨call, o⟩ := x
    cases call with
    | step =>
      rw [List.countP_cons_of_pos (by rfl)]
      exact ih'
    | update v => exact absurd rfl (hl _ List.mem_cons_self v)
    | permute x => rw [List.countP_cons_of_neg (by simp [Call.isStep])]; exact ih'
    | invert x => rw [List.countP_cons_of_neg (by simp [Call.isStep])]; exact ih'

/-- Two threads step at the same time, and then one of them permutes a number. -/
def lostStep (x : Nat) : List Action :=
  [.begin .plain .step, .begin .plain .step, .go 0, .go 1, .go 0, .go 1, .go 0, .go 1,
    .begin .plain (.permute x), .go 2, .go 2, .go 2, .go 2]

/-- The claim C115 is false of the code for threads that step at the same time: one of the two steps may be lost, so that every
number is then permuted to what it was permuted to after one step, which is never what it is permuted to after two. -/
theorem C115_threads_lose_a_step {fast : Bool} {size hash : Nat} {config : AffineConfig} {key : Bytes} {c : Chain}
    (hc : AffineConfig.new size hash = .ok config) (hk : Chain.new fast config key = .ok c) {x : Nat} (hx : x < 256 ^ size) :
    ∃ actions s y, (fresh c).run actions = some s ∧
      Returned s 0 .step .nothing ∧ Returned s 1 .step .nothing ∧ Returned s 2 (.permute x) (.number y) ∧
      Before s 0 2 ∧ Before s 1 2 ∧
      (c.run [.step]).permute x = some y ∧ (c.run [.step, .step]).permute x ≠ some y ∧ ¬ InSomeOrder c s := by
  obtain ⟨hwf, rfl, hs⟩ := AffineConfig.new_wf hc
  obtain ⟨hw, hsize⟩ := Chain.new_wf hwf hs hk
  have hw1 := (Chain.apply_wf hw .step).1
  have hbig : 256 ≤ 256 ^ config.size := Nat.le_self_pow (by omega) 256
  have hx' : x < 256 ^ (c.apply .step).size := by rw [(Chain.apply_wf hw .step).2, hsize]; exact hx
  obtain ⟨a, ha, e1, -⟩ := Affine.permute_total hw1.affIn (xor_lt hx' hw1.inKey)
  obtain ⟨b, hb, e2, -⟩ := Affine.permute_total hw1.affMid (xor_lt ha hw1.inMid)
  obtain ⟨d, hd, e3, -⟩ := Affine.permute_total hw1.affOut (xor_lt hb hw1.outMid)
  have hy : (c.run [.step]).permute x = some (d ^^^ (c.apply .step).outKey) := by
    show (c.apply .step).permute x = _
    simp [Chain.permute, e1, e2, e3]
  have hne : (c.run [.step, .step]).permute x ≠ some (d ^^^ (c.apply .step).outKey) := by
    intro h
    have := C14_latin_square hc hk [] (n := 1) (m := 2) (by omega) (by omega) hx (hy.trans h.symm)
    omega
  have hrun : (fresh c).run (lostStep x) = some ⟨c.apply .step,
      [⟨.plain, .step, .done .nothing, 0, some 6⟩, ⟨.plain, .step, .done .nothing, 1, some 7⟩,
        ⟨.plain, .permute x, .done (.number (d ^^^ (c.apply .step).outKey)), 8, some 12⟩], 13⟩ := by
    simp only [Chain.apply, Chain.step] at e1 e2 e3
    simp [lostStep, Sys.run, Sys.act, fresh, start, resume, endTime, Chain.apply, Chain.step, e1, e2, e3]
  refine ⟨lostStep x, _, _, hrun, ⟨_, rfl, rfl, rfl, by simp⟩, ⟨_, rfl, rfl, rfl, by simp⟩, ⟨_, rfl, rfl, rfl, by simp⟩,
    ⟨_, _, 6, rfl, rfl, rfl, by simp⟩, ⟨_, _, 7, rfl, rfl, rfl, by simp⟩, hy, hne, ?_⟩
  rintro ⟨order, hn, hm, -, hseq⟩
  have hperm : order.Perm [(0, .step, .nothing), (1, .step, .nothing), (2, .permute x, .number (d ^^^ (c.apply .step).outKey))] := by
    rw [List.perm_ext_iff_of_nodup (List.Nodup.of_map _ hn) (by simp)]
    rintro ⟨i, call, o⟩
    rw [hm]
    constructor
    · rintro ⟨e, he, h1, h2, -⟩
      match i, he with
      | 0, he => simp at he; subst he; simp_all
      | 1, he => simp at he; subst he; simp_all
      | 2, he => simp at he; subst he; simp_all
      | n + 3, he => simp at he
    · intro h
      simp only [List.mem_cons, List.not_mem_nil, or_false, Prod.mk.injEq] at h
      rcases h with ⟨rfl, rfl, rfl⟩ | ⟨rfl, rfl, rfl⟩ | ⟨rfl, rfl, rfl⟩
      all_goals exact ⟨_, rfl, rfl, rfl, by simp⟩
  have hcount := sequentially_steps hseq (by
    intro y hy v
    obtain ⟨z, hz, rfl⟩ := List.mem_map.1 hy
    have := hperm.mem_iff.1 hz
    simp only [List.mem_cons, List.not_mem_nil, or_false] at this
    rcases this with rfl | rfl | rfl <;> simp)
  rw [(hperm.map _).countP_eq] at hcount
  have h2 : c.apply .step = c.run [.step, .step] := hcount
  exact hne (by rw [← h2]; exact hy)

/-- A chain as in `C115_threads_lose_a_step` and `C115_never_hangs`. -/
example : ∃ config c, AffineConfig.new 1 1 = .ok config ∧ Chain.new true config [0, 0, 0, 0, 1] = .ok c ∧ 5 < 256 ^ 1 :=
  ⟨_, _, rfl, rfl, by decide⟩

end Aiootp.ChainShared
