import Verif.Model.Bundle
import Verif.Props.Cipher

/-
Properties C29 (life cycle of a stream-hmac) and C31 (key bundles are single use).
-/

namespace Aiootp.Cipher

/-! ### C29 -/

/-- The calls on a stream-hmac. -/
inductive ShmacCall where
  | forEncryption
  | forDecryption
  | update (block : Bytes)
  | nextBlockId (block : Bytes) (size : Nat) (aad : Bytes)
  | testNextBlockId (untrusted block aad : Bytes)
  | finalize
  | result
  | testShmac (untrusted : Bytes)
  deriving DecidableEq, Repr

/-- The reply to a call that does not return bytes is empty, the object after a call that raised is as before. -/
def ShmacCall.exec (E : Env) (s : Shmac) (c : ShmacCall) : Except Err Bytes × Shmac :=
  let keep (r : Except Err Shmac) : Except Err Bytes × Shmac :=
    match r with
    | .ok s' => (.ok [], s')
    | .error e => (.error e, s)
  match c with
  | .forEncryption => keep s.forEncryption
  | .forDecryption => keep s.forDecryption
  | .update block => keep (s.update E block)
  | .nextBlockId block size aad => (s.nextBlockId E block size aad, s)
  | .testNextBlockId untrusted block aad => ((s.testNextBlockId E untrusted block aad).map (fun _ => []), s)
  | .finalize =>
    match s.finalize E with
    | .ok (r, s') => (.ok r, s')
    | .error e => (.error e, s)
  | .result => (s.getResult, s)
  | .testShmac untrusted => ((s.testShmac untrusted).map (fun _ => []), s)

/-- A history: calls with the replies the object gives to them. -/
def shmacTrace (E : Env) (s : Shmac) : List ShmacCall → List (ShmacCall × Except Err Bytes)
  | [] => []
  | c :: cs => (c, (c.exec E s).1) :: shmacTrace E (c.exec E s).2 cs

/-- The blocks that were accepted by `update` in a history. -/
def absorbed : List (ShmacCall × Except Err Bytes) → Bytes
  | [] => []
  | (.update block, .ok _) :: h => block ++ absorbed h
  | _ :: h => absorbed h

/-- The object has been finalized with result `r`. -/
structure Done (s : Shmac) (r : Bytes) : Prop where
  finalized : s.finalized = true
  result : s.result = some r
  mac : s.mac = none
  previous : s.previous = none
  current : s.current = none

/-- The object has not been finalized and has absorbed `m`. -/
structure Open (s : Shmac) (m : Bytes) : Prop where
  finalized : s.finalized = false
  result : s.result = none
  mac : s.mac = some m
  previous : ∃ p, s.previous = some p
  current : ∃ c, s.current = some c

theorem exec_done {E : Env} {s : Shmac} {r : Bytes} (h : Done s r) (c : ShmacCall) :
    Done (c.exec E s).2 r ∧
    (c = .finalize → (c.exec E s).1 = .error .shmacMisuse) ∧
    (c = .result → (c.exec E s).1 = .ok r) ∧
    (∀ u, c = .testShmac u → (c.exec E s).1 = if u = r then .ok [] else .error .invalidSHMAC) ∧
    ((∃ b, c = .update b) ∨ (∃ b n a, c = .nextBlockId b n a) ∨ (∃ u b a, c = .testNextBlockId u b a) →
      ∃ e, (c.exec E s).1 = .error e) := by
  obtain ⟨ivg, mode, fin, mac, prev, cur, res, perm⟩ := s
  obtain ⟨h1, h2, h3, h4, h5⟩ := h
  simp only at h1 h2 h3 h4 h5
  subst h1 h2 h3 h4 h5
  have hid : ∀ b n a, ∃ e, Shmac.nextBlockId E ⟨ivg, mode, true, none, none, none, some r, perm⟩ b n a = .error e := by
    intro b n a
    cases hh : Shmac.nextBlockId E ⟨ivg, mode, true, none, none, none, some r, perm⟩ b n a with
    | error e => exact ⟨e, rfl⟩
    | ok x =>
      exfalso
      unfold Shmac.nextBlockId Shmac.blockIdMac at hh
      simp only [bind_eq_ok] at hh
      obtain ⟨_, _, _, _, m, hm, _⟩ := hh
      split at hm <;> cases hm
  cases c with
  | forEncryption =>
    refine ⟨?_, nofun, nofun, nofun, by rintro (⟨_, h⟩ | ⟨_, _, _, h⟩ | ⟨_, _, _, h⟩) <;> cases h⟩
    simp only [ShmacCall.exec, Shmac.forEncryption, raiseIf]
    cases mode <;> cases ivg <;> exact ⟨rfl, rfl, rfl, rfl, rfl⟩
  | forDecryption =>
    refine ⟨?_, nofun, nofun, nofun, by rintro (⟨_, h⟩ | ⟨_, _, _, h⟩ | ⟨_, _, _, h⟩) <;> cases h⟩
    simp only [ShmacCall.exec, Shmac.forDecryption, raiseIf]
    cases mode <;> cases ivg <;> exact ⟨rfl, rfl, rfl, rfl, rfl⟩
  | update b =>
    cases mode with
    | none => exact ⟨⟨rfl, rfl, rfl, rfl, rfl⟩, nofun, nofun, nofun, fun _ => ⟨_, rfl⟩⟩
    | some d => exact ⟨⟨rfl, rfl, rfl, rfl, rfl⟩, nofun, nofun, nofun, fun _ => ⟨_, rfl⟩⟩
  | nextBlockId b n a => exact ⟨⟨rfl, rfl, rfl, rfl, rfl⟩, nofun, nofun, nofun, fun _ => hid b n a⟩
  | testNextBlockId u b a =>
    obtain ⟨e, he⟩ := hid b u.length a
    refine ⟨⟨rfl, rfl, rfl, rfl, rfl⟩, nofun, nofun, nofun, fun _ => ⟨e, ?_⟩⟩
    simp only [ShmacCall.exec, Shmac.testNextBlockId, he, bind, Except.bind, Except.map]
  | finalize =>
    exact ⟨⟨rfl, rfl, rfl, rfl, rfl⟩, fun _ => rfl, nofun, nofun,
      by rintro (⟨_, h⟩ | ⟨_, _, _, h⟩ | ⟨_, _, _, h⟩) <;> cases h⟩
  | result =>
    exact ⟨⟨rfl, rfl, rfl, rfl, rfl⟩, nofun, fun _ => rfl, nofun,
      by rintro (⟨_, h⟩ | ⟨_, _, _, h⟩ | ⟨_, _, _, h⟩) <;> cases h⟩
  | testShmac u =>
    refine ⟨⟨rfl, rfl, rfl, rfl, rfl⟩, nofun, nofun, ?_,
      by rintro (⟨_, h⟩ | ⟨_, _, _, h⟩ | ⟨_, _, _, h⟩) <;> cases h⟩
    rintro u' h
    cases h
    simp only [ShmacCall.exec, Shmac.testShmac, Shmac.getResult, raiseIf, bind, Except.bind]
    by_cases hu : u = r
    · rw [if_pos hu, if_neg (by simp [hu])]; rfl
    · rw [if_neg hu, if_pos hu]; rfl

theorem exec_open {E : Env} {s : Shmac} {m : Bytes} (h : Open s m) (c : ShmacCall) :
    (c = .result → (c.exec E s).1 = .error .validationIncomplete) ∧
    (∀ u, c = .testShmac u → (c.exec E s).1 = .error .validationIncomplete) ∧
    (c = .finalize → (c.exec E s).1 = .ok (Shmac.tagOf E m) ∧ Done (c.exec E s).2 (Shmac.tagOf E m)) ∧
    (c ≠ .finalize → Open (c.exec E s).2 (m ++ absorbed [(c, (c.exec E s).1)])) ∧
    (∀ b, c = .update b → if s.mode.isNone then (c.exec E s).1 = .error .shmacMisuse else (c.exec E s).1 = .ok []) := by
  obtain ⟨ivg, mode, fin, mac, prev, cur, res, perm⟩ := s
  obtain ⟨h1, h2, h3, ⟨p, h4⟩, ⟨q, h5⟩⟩ := h
  simp only at h1 h2 h3 h4 h5
  subst h1 h2 h3 h4 h5
  have hopen : Open ⟨ivg, mode, false, some m, some p, some q, none, perm⟩ (m ++ []) :=
    ⟨rfl, rfl, by rw [List.append_nil], ⟨p, rfl⟩, ⟨q, rfl⟩⟩
  cases c with
  | forEncryption =>
    refine ⟨nofun, nofun, nofun, fun _ => ?_, nofun⟩
    simp only [ShmacCall.exec, Shmac.forEncryption, raiseIf]
    cases mode <;> cases ivg <;> exact ⟨rfl, rfl, by simp [absorbed, bind, Except.bind, pure, Except.pure], ⟨p, rfl⟩, ⟨q, rfl⟩⟩
  | forDecryption =>
    refine ⟨nofun, nofun, nofun, fun _ => ?_, nofun⟩
    simp only [ShmacCall.exec, Shmac.forDecryption, raiseIf]
    cases mode <;> cases ivg <;> exact ⟨rfl, rfl, by simp [absorbed, bind, Except.bind, pure, Except.pure], ⟨p, rfl⟩, ⟨q, rfl⟩⟩
  | update b =>
    refine ⟨nofun, nofun, nofun, fun _ => ?_, ?_⟩
    · cases mode with
      | none => exact hopen
      | some d =>
        exact ⟨rfl, rfl, by simp [absorbed, ShmacCall.exec, Shmac.update, raiseIf, attr, bind, Except.bind, pure, Except.pure],
          ⟨_, rfl⟩, ⟨_, rfl⟩⟩
    · intro b h
      cases h
      cases mode <;> rfl
  | nextBlockId b n a => exact ⟨nofun, nofun, nofun, fun _ => hopen, nofun⟩
  | testNextBlockId u b a => exact ⟨nofun, nofun, nofun, fun _ => hopen, nofun⟩
  | finalize => exact ⟨nofun, nofun, fun _ => ⟨rfl, ⟨rfl, rfl, rfl, rfl, rfl⟩⟩, fun h => absurd rfl h, nofun⟩
  | result => exact ⟨fun _ => rfl, nofun, nofun, fun _ => hopen, nofun⟩
  | testShmac u => exact ⟨nofun, fun _ _ => rfl, nofun, fun _ => hopen, nofun⟩

theorem exec_mode_set {E : Env} {s : Shmac} {d : Direction} (h : s.mode = some d) (c : ShmacCall) :
    (c.exec E s).2.mode = some d ∧
      (c = .forEncryption ∨ c = .forDecryption → (c.exec E s).1 = .error .permission) := by
  obtain ⟨ivg, mode, fin, mac, prev, cur, res, perm⟩ := s
  simp only at h
  subst h
  cases c with
  | forEncryption => exact ⟨rfl, fun _ => rfl⟩
  | forDecryption => exact ⟨rfl, fun _ => rfl⟩
  | update b => cases mac <;> cases cur <;> exact ⟨rfl, nofun⟩
  | nextBlockId b n a => exact ⟨rfl, nofun⟩
  | testNextBlockId u b a => exact ⟨rfl, nofun⟩
  | finalize => cases fin <;> cases mac <;> exact ⟨rfl, nofun⟩
  | result => exact ⟨rfl, nofun⟩
  | testShmac u => exact ⟨rfl, nofun⟩

theorem exec_mode_unset {E : Env} {s : Shmac} (h : s.mode = none) (c : ShmacCall) :
    (c = .forEncryption → if s.ivGiven then (c.exec E s).1 = .error .shmacMisuse else
      (c.exec E s).1 = .ok [] ∧ (c.exec E s).2.mode = some .encryption) ∧
    (c = .forDecryption → if s.ivGiven then (c.exec E s).1 = .ok [] ∧ (c.exec E s).2.mode = some .decryption
      else (c.exec E s).1 = .error .shmacMisuse) ∧
    ((∀ x, (c, (c.exec E s).1) ≠ (.forEncryption, .ok x) ∧ (c, (c.exec E s).1) ≠ (.forDecryption, .ok x)) →
      (c.exec E s).2.mode = none) ∧
    (c.exec E s).2.ivGiven = s.ivGiven ∧
    (∀ b, c = .update b → (c.exec E s).1 = .error .shmacMisuse) := by
  obtain ⟨ivg, mode, fin, mac, prev, cur, res, perm⟩ := s
  simp only at h
  subst h
  cases c with
  | forEncryption =>
    cases ivg
    · exact ⟨fun _ => ⟨rfl, rfl⟩, nofun, fun h => absurd rfl (h []).1, rfl, nofun⟩
    · exact ⟨fun _ => rfl, nofun, fun _ => rfl, rfl, nofun⟩
  | forDecryption =>
    cases ivg
    · exact ⟨nofun, fun _ => rfl, fun _ => rfl, rfl, nofun⟩
    · exact ⟨nofun, fun _ => ⟨rfl, rfl⟩, fun h => absurd rfl (h []).2, rfl, nofun⟩
  | update b => exact ⟨nofun, nofun, fun _ => rfl, rfl, fun _ _ => rfl⟩
  | nextBlockId b n a => exact ⟨nofun, nofun, fun _ => rfl, rfl, nofun⟩
  | testNextBlockId u b a => exact ⟨nofun, nofun, fun _ => rfl, rfl, nofun⟩
  | finalize => cases fin <;> cases mac <;> exact ⟨nofun, nofun, fun _ => rfl, rfl, nofun⟩
  | result => exact ⟨nofun, nofun, fun _ => rfl, rfl, nofun⟩
  | testShmac u => exact ⟨nofun, nofun, fun _ => rfl, rfl, nofun⟩

/-- The state after a history. -/
def shmacAfter (E : Env) (s : Shmac) : List ShmacCall → Shmac
  | [] => s
  | c :: cs => shmacAfter E (c.exec E s).2 cs

theorem shmacTrace_split {E : Env} : ∀ (calls : List ShmacCall) (s : Shmac) (pre post : List (ShmacCall × Except Err Bytes))
    (c : ShmacCall) (r : Except Err Bytes), shmacTrace E s calls = pre ++ (c, r) :: post →
    ∃ cs ds, pre = shmacTrace E s cs ∧ r = (c.exec E (shmacAfter E s cs)).1 ∧
      post = shmacTrace E (c.exec E (shmacAfter E s cs)).2 ds := by
  intro calls
  induction calls with
  | nil => intro s pre post c r h; simp [shmacTrace] at h
  | cons d calls ih =>
    intro s pre post c r h
    cases pre with
    | nil =>
      simp only [shmacTrace, List.nil_append, List.cons.injEq, Prod.mk.injEq] at h
      obtain ⟨⟨rfl, rfl⟩, rfl⟩ := h
      exact ⟨[], calls, rfl, rfl, rfl⟩
    | cons x pre =>
      simp only [shmacTrace, List.cons_append, List.cons.injEq] at h
      obtain ⟨rfl, h⟩ := h
      obtain ⟨cs, ds, h1, h2, h3⟩ := ih _ pre post c r h
      exact ⟨d :: cs, ds, by rw [h1]; rfl, h2, h3⟩

theorem absorbed_cons (x : ShmacCall × Except Err Bytes) (h : List (ShmacCall × Except Err Bytes)) :
    absorbed (x :: h) = absorbed [x] ++ absorbed h := by
  obtain ⟨c, r⟩ := x
  cases c <;> cases r <;> simp [absorbed]

theorem open_after {E : Env} : ∀ (cs : List ShmacCall) (s : Shmac) (m : Bytes), Open s m →
    (∀ r, (.finalize, .ok r) ∉ shmacTrace E s cs) →
    Open (shmacAfter E s cs) (m ++ absorbed (shmacTrace E s cs)) := by
  intro cs
  induction cs with
  | nil => intro s m h _; simpa [shmacAfter, shmacTrace, absorbed] using h
  | cons c cs ih =>
    intro s m h hno
    have ho := exec_open (E := E) h c
    have hc : c ≠ .finalize := by
      rintro rfl
      exact hno _ (by rw [shmacTrace, (ho.2.2.1 rfl).1]; exact List.mem_cons_self ..)
    have := ih _ _ (ho.2.2.2.1 hc) (fun r hr => hno r (by rw [shmacTrace]; exact List.mem_cons_of_mem _ hr))
    rw [shmacTrace, absorbed_cons, ← List.append_assoc]
    exact this

theorem done_trace {E : Env} {r : Bytes} : ∀ (cs : List ShmacCall) (s : Shmac), Done s r →
    ∀ c x, (c, x) ∈ shmacTrace E s cs → ∃ s', Done s' r ∧ x = (ShmacCall.exec E s' c).1 := by
  intro cs
  induction cs with
  | nil => intro s _ c x h; simp [shmacTrace] at h
  | cons d cs ih =>
    intro s hd c x h
    rcases List.mem_cons.1 h with h | h
    · simp only [Prod.mk.injEq] at h
      obtain ⟨rfl, rfl⟩ := h
      exact ⟨s, hd, rfl⟩
    · exact ih _ (exec_done hd d).1 c x h

theorem new_open {E : Env} {i : Nat} {mac : Bytes} {g : Bool} {s : Shmac} (h : Shmac.new E i mac g = .ok s) :
    Open s mac ∧ s.mode = none ∧ s.ivGiven = g := by
  unfold Shmac.new at h
  simp only [bind_eq_ok, pure, Except.pure, Except.ok.injEq] at h
  obtain ⟨_, _, _, _, rfl⟩ := h
  exact ⟨⟨rfl, rfl, rfl, ⟨_, rfl⟩, ⟨_, rfl⟩⟩, rfl, rfl⟩

/-- C29, finalization. In any history of calls on a new stream-hmac: if `finalize` returns a result, then it is the tag
of what the object started with followed by all blocks accepted so far; no earlier `finalize` had returned; every later
`finalize` is refused, every later reading of the result gives the same result, the tag test accepts exactly this
result, and no block is absorbed and no block id is made or tested any more. -/
theorem C29_finalize {E : Env} {i : Nat} {mac : Bytes} {g : Bool} {s : Shmac} (hnew : Shmac.new E i mac g = .ok s)
    (calls : List ShmacCall) (pre post : List (ShmacCall × Except Err Bytes)) (r : Bytes)
    (h : shmacTrace E s calls = pre ++ (.finalize, .ok r) :: post) :
    r = Shmac.tagOf E (mac ++ absorbed pre) ∧
    (∀ r', (.finalize, .ok r') ∉ pre) ∧
    (∀ x, (.finalize, x) ∈ post → x = .error .shmacMisuse) ∧
    (∀ x, (.result, x) ∈ post → x = .ok r) ∧
    (∀ u x, (.testShmac u, x) ∈ post → x = if u = r then .ok [] else .error .invalidSHMAC) ∧
    (∀ b x, (.update b, x) ∈ post → ∃ e, x = .error e) ∧
    (∀ b n a x, (.nextBlockId b n a, x) ∈ post → ∃ e, x = .error e) ∧
    (∀ u b a x, (.testNextBlockId u b a, x) ∈ post → ∃ e, x = .error e) := by
  obtain ⟨cs, ds, rfl, hr, rfl⟩ := shmacTrace_split calls s pre post _ _ h
  have hopen := (new_open hnew).1
  have hno : ∀ r', (.finalize, .ok r') ∉ shmacTrace E s cs := by
    intro r' hmem
    -- take the first successful finalization
    obtain ⟨pre1, post1, hsplit⟩ := List.append_of_mem hmem
    obtain ⟨cs1, ds1, h1, h2, h3⟩ := shmacTrace_split cs s pre1 post1 _ _ hsplit
    have key : ∀ (cs : List ShmacCall) (s : Shmac), (∃ r, Done s r) → ∃ r, Done (shmacAfter E s cs) r := by
      intro cs
      induction cs with
      | nil => intro s h; exact h
      | cons c cs ih => rintro s ⟨r, h⟩; exact ih _ ⟨r, (exec_done h c).1⟩
    have either : ∀ (cs : List ShmacCall) (s : Shmac), ((∃ m, Open s m) ∨ ∃ r, Done s r) →
        ((∃ m, Open (shmacAfter E s cs) m) ∨ ∃ r, Done (shmacAfter E s cs) r) := by
      intro cs
      induction cs with
      | nil => intro s h; exact h
      | cons c cs ih =>
        rintro s (⟨m, h⟩ | ⟨r, h⟩)
        · by_cases hc : c = .finalize
          · exact ih _ (.inr ⟨_, ((exec_open h c).2.2.1 hc).2⟩)
          · exact ih _ (.inl ⟨_, (exec_open h c).2.2.2.1 hc⟩)
        · exact ih _ (.inr ⟨r, (exec_done h c).1⟩)
    have after_append : ∀ (xs ys : List ShmacCall) (s : Shmac),
        shmacAfter E s (xs ++ ys) = shmacAfter E (shmacAfter E s xs) ys := by
      intro xs
      induction xs with
      | nil => intro ys s; rfl
      | cons x xs ih => intro ys s; exact ih ys _
    have trace_calls : ∀ (xs : List ShmacCall) (s : Shmac), (shmacTrace E s xs).map Prod.fst = xs := by
      intro xs
      induction xs with
      | nil => intro s; rfl
      | cons x xs ih => intro s; simp [shmacTrace, ih]
    have hcs : cs = cs1 ++ .finalize :: ds1 := by
      have := congrArg (List.map Prod.fst) hsplit
      rw [trace_calls, h1, h3] at this
      simpa [trace_calls] using this
    have hdone : ∃ r, Done (shmacAfter E s cs) r := by
      rw [hcs, after_append]
      apply key ds1
      rcases either cs1 s (.inl ⟨_, hopen⟩) with ⟨m, h⟩ | ⟨r, h⟩
      · exact ⟨_, ((exec_open h .finalize).2.2.1 rfl).2⟩
      · exact ⟨r, (exec_done h .finalize).1⟩
    obtain ⟨r2, hd⟩ := hdone
    rw [(exec_done hd .finalize).2.1 rfl] at hr
    cases hr
  have ho := open_after cs s mac hopen hno
  obtain ⟨hfin, hdone⟩ := (exec_open (E := E) ho .finalize).2.2.1 rfl
  rw [hfin] at hr
  cases hr
  have hpost := done_trace (E := E) ds _ hdone
  refine ⟨rfl, hno, ?_, ?_, ?_, ?_, ?_, ?_⟩
  · intro x hx
    obtain ⟨s', hd, rfl⟩ := hpost _ _ hx
    exact (exec_done hd _).2.1 rfl
  · intro x hx
    obtain ⟨s', hd, rfl⟩ := hpost _ _ hx
    exact (exec_done hd _).2.2.1 rfl
  · intro u x hx
    obtain ⟨s', hd, rfl⟩ := hpost _ _ hx
    exact (exec_done hd _).2.2.2.1 u rfl
  · intro b x hx
    obtain ⟨s', hd, rfl⟩ := hpost _ _ hx
    exact (exec_done hd _).2.2.2.2 (.inl ⟨_, rfl⟩)
  · intro b n a x hx
    obtain ⟨s', hd, rfl⟩ := hpost _ _ hx
    exact (exec_done hd _).2.2.2.2 (.inr (.inl ⟨_, _, _, rfl⟩))
  · intro u b a x hx
    obtain ⟨s', hd, rfl⟩ := hpost _ _ hx
    exact (exec_done hd _).2.2.2.2 (.inr (.inr ⟨_, _, _, rfl⟩))

/-- C29, before finalization. As long as no `finalize` has returned, the result cannot be read and no tag can be tested,
and `finalize` does return when it is called. -/
theorem C29_not_finalized {E : Env} {i : Nat} {mac : Bytes} {g : Bool} {s : Shmac} (hnew : Shmac.new E i mac g = .ok s)
    (calls : List ShmacCall) (pre post : List (ShmacCall × Except Err Bytes)) (c : ShmacCall) (x : Except Err Bytes)
    (h : shmacTrace E s calls = pre ++ (c, x) :: post) (hno : ∀ r, (.finalize, .ok r) ∉ pre) :
    (c = .result → x = .error .validationIncomplete) ∧
    (∀ u, c = .testShmac u → x = .error .validationIncomplete) ∧
    (c = .finalize → x = .ok (Shmac.tagOf E (mac ++ absorbed pre))) := by
  obtain ⟨cs, ds, rfl, rfl, rfl⟩ := shmacTrace_split calls s pre post _ _ h
  have ho := exec_open (E := E) (open_after cs s mac (new_open hnew).1 hno) c
  exact ⟨ho.1, ho.2.1, fun hc => (ho.2.2.1 hc).1⟩

theorem mode_after {E : Env} {d : Direction} : ∀ (cs : List ShmacCall) (s : Shmac), s.mode = some d →
    ∀ c x, (c, x) ∈ shmacTrace E s cs → c = .forEncryption ∨ c = .forDecryption → x = .error .permission := by
  intro cs
  induction cs with
  | nil => intro s _ c x h; simp [shmacTrace] at h
  | cons e cs ih =>
    intro s hs c x h hc
    rcases List.mem_cons.1 h with h | h
    · simp only [Prod.mk.injEq] at h
      obtain ⟨rfl, rfl⟩ := h
      exact (exec_mode_set hs c).2 hc
    · exact ih _ (exec_mode_set hs e).1 c x h hc

theorem no_mode_after {E : Env} : ∀ (cs : List ShmacCall) (s : Shmac), s.mode = none →
    (∀ x, (.forEncryption, .ok x) ∉ shmacTrace E s cs ∧ (.forDecryption, .ok x) ∉ shmacTrace E s cs) →
    (shmacAfter E s cs).mode = none ∧ (shmacAfter E s cs).ivGiven = s.ivGiven := by
  intro cs
  induction cs with
  | nil => intro s h _; exact ⟨h, rfl⟩
  | cons c cs ih =>
    intro s hs hno
    have hu := exec_mode_unset (E := E) hs c
    have := ih (c.exec E s).2 (hu.2.2.1 (fun x => ⟨fun he => (hno x).1 (by rw [shmacTrace, he]; exact List.mem_cons_self ..),
      fun he => (hno x).2 (by rw [shmacTrace, he]; exact List.mem_cons_self ..)⟩))
      (fun x => ⟨fun hm => (hno x).1 (by rw [shmacTrace]; exact List.mem_cons_of_mem _ hm),
        fun hm => (hno x).2 (by rw [shmacTrace]; exact List.mem_cons_of_mem _ hm)⟩)
    exact ⟨this.1, this.2.trans hu.2.2.2.1⟩

/-- C29, one direction only. If a direction is declared at some point of a history, then no direction had been declared
before, and every later attempt to declare one, the same or the other, is refused. A direction is only declared for an iv
from the right source: encryption with an iv that was drawn, decryption with one that was given. -/
theorem C29_one_direction {E : Env} {i : Nat} {mac : Bytes} {g : Bool} {s : Shmac} (hnew : Shmac.new E i mac g = .ok s)
    (calls : List ShmacCall) (pre post : List (ShmacCall × Except Err Bytes)) (c : ShmacCall) (x : Bytes)
    (hc : c = .forEncryption ∨ c = .forDecryption) (h : shmacTrace E s calls = pre ++ (c, .ok x) :: post) :
    (∀ y, (.forEncryption, .ok y) ∉ pre ∧ (.forDecryption, .ok y) ∉ pre) ∧
    (∀ y, (.forEncryption, y) ∈ post ∨ (.forDecryption, y) ∈ post → y = .error .permission) ∧
    (if g then c = .forDecryption else c = .forEncryption) := by
  have hno : ∀ y, (.forEncryption, .ok y) ∉ pre ∧ (.forDecryption, .ok y) ∉ pre := by
    have key : ∀ d y, (d = .forEncryption ∨ d = .forDecryption) → (d, Except.ok y) ∉ pre := by
      intro d y hd hmem
      obtain ⟨pre1, post1, rfl⟩ := List.append_of_mem hmem
      rw [List.append_assoc, List.cons_append] at h
      obtain ⟨cs1, ds1, rfl, h2, h3⟩ := shmacTrace_split calls s pre1 _ _ _ h
      have hmode : ∃ d', (d.exec E (shmacAfter E s cs1)).2.mode = some d' := by
        cases hm : (shmacAfter E s cs1).mode with
        | some d' => exact ⟨d', (exec_mode_set hm d).1⟩
        | none =>
          have hu := exec_mode_unset (E := E) hm d
          rcases hd with hd | hd
          · have := hu.1 hd
            split at this
            · rw [this] at h2; cases h2
            · exact ⟨_, this.2⟩
          · have := hu.2.1 hd
            split at this
            · exact ⟨_, this.2⟩
            · rw [this] at h2; cases h2
      obtain ⟨d', hmode⟩ := hmode
      have := mode_after (E := E) ds1 _ hmode c (.ok x) (by rw [← h3]; simp) hc
      cases this
    exact fun y => ⟨key _ y (.inl rfl), key _ y (.inr rfl)⟩
  obtain ⟨cs, ds, rfl, hr, rfl⟩ := shmacTrace_split calls s pre post _ _ h
  have hn := new_open hnew
  have hm := no_mode_after (E := E) cs s hn.2.1 hno
  have hu := exec_mode_unset (E := E) hm.1 c
  rw [hm.2, hn.2.2] at hu
  have hset : (∃ d', (c.exec E (shmacAfter E s cs)).2.mode = some d') ∧
      (if g then c = .forDecryption else c = .forEncryption) := by
    rcases hc with hc | hc
    · have := hu.1 hc
      cases g
      · exact ⟨⟨_, this.2⟩, by simpa using hc⟩
      · simp only [if_true] at this; rw [this] at hr; cases hr
    · have := hu.2.1 hc
      cases g
      · simp only [Bool.false_eq_true, if_false] at this; rw [this] at hr; cases hr
      · simp only [if_true] at this; exact ⟨⟨_, this.2⟩, by simpa using hc⟩
  obtain ⟨⟨d', hd'⟩, hg⟩ := hset
  refine ⟨hno, ?_, hg⟩
  rintro y (hy | hy)
  · exact mode_after ds _ hd' _ _ hy (.inl rfl)
  · exact mode_after ds _ hd' _ _ hy (.inr rfl)

/-- C29, nothing is absorbed before a direction is declared. -/
theorem C29_no_update_without_direction {E : Env} {i : Nat} {mac : Bytes} {g : Bool} {s : Shmac}
    (hnew : Shmac.new E i mac g = .ok s) (calls : List ShmacCall)
    (pre post : List (ShmacCall × Except Err Bytes)) (b : Bytes) (x : Except Err Bytes)
    (h : shmacTrace E s calls = pre ++ (.update b, x) :: post)
    (hno : ∀ y, (.forEncryption, .ok y) ∉ pre ∧ (.forDecryption, .ok y) ∉ pre) : x = .error .shmacMisuse := by
  obtain ⟨cs, ds, rfl, rfl, rfl⟩ := shmacTrace_split calls s pre post _ _ h
  exact (exec_mode_unset (E := E) (no_mode_after (E := E) cs s (new_open hnew).2.1 hno).1 _).2.2.2.2 b rfl

/-- A stream-hmac of the sample cipher, and a history in which it is declared, fed, finalized and used afterwards. -/
example : ∃ s, Shmac.new sampleSlick 32 [1, 2] false = .ok s ∧
    ∃ r e1 e2, shmacTrace sampleSlick s [.update [5], .forEncryption, .forDecryption, .update [5], .result, .finalize,
        .finalize, .testShmac [], .result]
      = [(.update [5], .error .shmacMisuse), (.forEncryption, .ok []), (.forDecryption, .error .permission),
         (.update [5], .ok []), (.result, .error .validationIncomplete), (.finalize, .ok r),
         (.finalize, .error e1), (.testShmac [], .error e2), (.result, .ok r)] := by
  obtain ⟨d, p, _, _, _, _, h⟩ := Shmac.new_ok sampleSlick_setup.usable.env [1, 2]
  refine ⟨_, h false, ?_⟩
  have htag : ∀ m, (Shmac.tagOf sampleSlick m).length = 24 := fun m => sampleSlick_setup.usable.length_tag m
  have hne : ([] : Bytes) ≠ Shmac.tagOf sampleSlick ([1, 2] ++ [5]) := by
    intro he
    have := htag ([1, 2] ++ [5])
    rw [← he] at this
    cases this
  refine ⟨Shmac.tagOf sampleSlick ([1, 2] ++ [5]), .shmacMisuse, .invalidSHMAC, ?_⟩
  simp only [shmacTrace, ShmacCall.exec, Shmac.update, Shmac.forEncryption, Shmac.forDecryption, Shmac.getResult,
    Shmac.finalize, Shmac.testShmac, raiseIf, attr, bind, Except.bind, pure, Except.pure, Option.isNone, Option.isSome,
    Except.map, hne, ne_eq, not_false_eq_true, if_true, if_false, Bool.false_eq_true]

/-! ### C31 -/

theorem Bundle.exec_registered {b : Bundle} {k : Nat} (h : b.registered = some k) (c : BundleCall) :
    (b.exec c).2.registered = some k ∧ (∀ i d m, c = .junction i d m → ∃ e, (b.exec c).1 = .error e) ∧
    (∀ i d m, c = .junction i d m → i < b.shmacs.length → (b.exec c).1 = .error .permission) := by
  cases c with
  | setMode m => refine ⟨?_, nofun, nofun⟩; simp only [exec, setMode]; split <;> exact h
  | newShmac => refine ⟨?_, nofun, nofun⟩; simp only [exec, newShmac]; split <;> exact h
  | direct i d => refine ⟨?_, nofun, nofun⟩; simp only [exec, direct]; split <;> try split
                  all_goals exact h
  | junction i d m =>
    simp only [exec, junction]
    cases hi : b.shmacs[i]? with
    | none =>
      refine ⟨h, fun _ _ _ _ => ⟨_, rfl⟩, ?_⟩
      intro i' d' m' he hlt
      cases he
      rw [List.getElem?_eq_none_iff] at hi
      omega
    | some mode =>
      have : b.registered.isSome = true := by rw [h]; rfl
      simp only [this, if_true]
      exact ⟨h, fun _ _ _ _ => ⟨_, rfl⟩, fun _ _ _ _ _ => trivial⟩

/-- The state after a history. -/
def Bundle.after (b : Bundle) : List BundleCall → Bundle
  | [] => b
  | c :: cs => Bundle.after (b.exec c).2 cs

theorem Bundle.trace_split : ∀ (calls : List BundleCall) (b : Bundle) (pre post : List (BundleCall × Except Err Unit))
    (c : BundleCall) (r : Except Err Unit), b.trace calls = pre ++ (c, r) :: post →
    ∃ cs ds, pre = b.trace cs ∧ r = ((b.after cs).exec c).1 ∧ post = ((b.after cs).exec c).2.trace ds := by
  intro calls
  induction calls with
  | nil => intro s pre post c r h; simp [trace] at h
  | cons d calls ih =>
    intro s pre post c r h
    cases pre with
    | nil =>
      simp only [trace, List.nil_append, List.cons.injEq, Prod.mk.injEq] at h
      obtain ⟨⟨rfl, rfl⟩, rfl⟩ := h
      exact ⟨[], calls, rfl, rfl, rfl⟩
    | cons x pre =>
      simp only [trace, List.cons_append, List.cons.injEq] at h
      obtain ⟨rfl, h⟩ := h
      obtain ⟨cs, ds, h1, h2, h3⟩ := ih _ pre post c r h
      exact ⟨d :: cs, ds, by rw [h1]; rfl, h2, h3⟩

/-- How the state of a bundle follows from the successful calls. -/
structure Bundle.Follows (b : Bundle) (h : List (BundleCall × Except Err Unit)) : Prop where
  mode : ∀ m, b.mode = some m → (.setMode m, .ok ()) ∈ h
  shmac : ∀ i d, b.shmacs[i]? = some (some d) → (.direct i d, .ok ()) ∈ h

theorem Bundle.follows_exec {b : Bundle} {h : List (BundleCall × Except Err Unit)} (hf : b.Follows h) (c : BundleCall) :
    (b.exec c).2.Follows (h ++ [(c, (b.exec c).1)]) := by
  have keep : b.Follows (h ++ [(c, (b.exec c).1)]) :=
    ⟨fun m hm => List.mem_append_left _ (hf.mode m hm), fun i d hd => List.mem_append_left _ (hf.shmac i d hd)⟩
  cases c with
  | setMode m =>
    simp only [exec, setMode]
    cases hm : b.mode with
    | some m' => simpa [exec, setMode, hm] using keep
    | none =>
      refine ⟨?_, fun i d hd => List.mem_append_left _ (hf.shmac i d hd)⟩
      intro m' hm'
      simp only [Option.some.injEq] at hm'
      subst hm'
      simp
  | newShmac =>
    simp only [exec, newShmac]
    cases hm : b.mode with
    | none => simpa [exec, newShmac, hm] using keep
    | some m' =>
      refine ⟨fun m hm' => List.mem_append_left _ (hf.mode m (by rw [hm]; exact hm')), ?_⟩
      intro i d hd
      simp only [List.getElem?_append] at hd
      split at hd
      · exact List.mem_append_left _ (hf.shmac i d hd)
      · cases hh : i - b.shmacs.length with
        | zero => rw [hh] at hd; simp at hd
        | succ n => rw [hh] at hd; simp at hd
  | direct i d =>
    simp only [exec, direct]
    cases hi : b.shmacs[i]? with
    | none => simpa [exec, direct, hi] using keep
    | some mode =>
      cases mode with
      | some d' => simpa [exec, direct, hi] using keep
      | none =>
        simp only
        split
        · rename_i hg
          simpa [exec, direct, hi, hg] using keep
        · refine ⟨fun m hm => List.mem_append_left _ (hf.mode m hm), ?_⟩
          intro j e he
          simp only [List.getElem?_set] at he
          split at he
          · rename_i hij
            subst hij
            split at he
            · simp only [Option.some.injEq] at he
              subst he
              simp
            · cases he
          · exact List.mem_append_left _ (hf.shmac j e he)
  | junction i d m =>
    have hb : (b.exec (.junction i d m)).2.mode = b.mode ∧ (b.exec (.junction i d m)).2.shmacs = b.shmacs := by
      simp only [exec, junction]
      split
      · exact ⟨rfl, rfl⟩
      · split
        · exact ⟨rfl, rfl⟩
        · split
          · exact ⟨rfl, rfl⟩
          · split <;> exact ⟨rfl, rfl⟩
    exact ⟨fun m' hm => keep.mode m' (hb.1 ▸ hm), fun j e he => keep.shmac j e (hb.2 ▸ he)⟩

theorem Bundle.follows_after : ∀ (cs : List BundleCall) (b : Bundle) (h : List (BundleCall × Except Err Unit)),
    b.Follows h → (b.after cs).Follows (h ++ b.trace cs) := by
  intro cs
  induction cs with
  | nil => intro b h hf; simpa [after, trace] using hf
  | cons c cs ih =>
    intro b h hf
    have := ih _ _ (follows_exec hf c)
    simpa [after, trace, List.append_assoc] using this

theorem Bundle.later_refused : ∀ (cs : List BundleCall) (b : Bundle) (k : Nat), b.registered = some k →
    ∀ i d m r, (.junction i d m, r) ∈ b.trace cs → ∃ e, r = .error e := by
  intro cs
  induction cs with
  | nil => intro b k _ i d m r h; simp [trace] at h
  | cons c cs ih =>
    intro b k hk i d m r h
    have he := exec_registered hk c
    rcases List.mem_cons.1 h with h | h
    · simp only [Prod.mk.injEq] at h
      obtain ⟨rfl, rfl⟩ := h
      exact he.2.1 i d m rfl
    · exact ih _ k he.1 i d m r h

theorem Bundle.junction_registers (b : Bundle) (i : Nat) (d : Direction) (m : RunMode) (h : (b.junction i d m).1 = .ok ()) :
    (b.junction i d m).2.registered = some i ∧ b.registered = none ∧ b.shmacs[i]? = some (some d) ∧ b.mode = some m := by
  unfold junction at h ⊢
  split at h
  · cases h
  · rename_i mode hi
    cases hr : b.registered with
    | some k => rw [hr] at h; simp at h
    | none =>
      rw [hr] at h
      simp only [Option.isSome_none, Bool.false_eq_true, if_false] at h ⊢
      split at h
      · cases h
      · rename_i hm
        simp only [ne_eq, Decidable.not_not] at hm
        subst hm
        split at h
        · cases h
        · rename_i hm2
          simp only [ne_eq, Decidable.not_not] at hm2
          simp [hm2, hi]

theorem Bundle.exec_ivGiven (b : Bundle) (c : BundleCall) : (b.exec c).2.ivGiven = b.ivGiven := by
  cases c with
  | setMode m => simp only [exec, setMode]; split <;> rfl
  | newShmac => simp only [exec, newShmac]; split <;> rfl
  | direct i d =>
    simp only [exec, direct]
    repeat' split
    all_goals rfl
  | junction i d m =>
    simp only [exec, junction]
    repeat' split
    all_goals rfl

/-- The declared stream-hmacs agree with the way the iv came to be. -/
def Bundle.Directed (b : Bundle) : Prop :=
  ∀ (i : Nat) (d : Direction), b.shmacs[i]? = some (some d) → (b.ivGiven = true ↔ d = .decryption)

theorem Bundle.directed_exec {b : Bundle} (hd : b.Directed) (c : BundleCall) : (b.exec c).2.Directed := by
  intro j e hj
  rw [exec_ivGiven]
  cases c with
  | setMode m =>
    simp only [exec, setMode] at hj
    split at hj <;> exact hd j e hj
  | newShmac =>
    simp only [exec, newShmac] at hj
    split at hj
    · exact hd j e hj
    · simp only [List.getElem?_append] at hj
      split at hj
      · exact hd j e hj
      · cases hh : j - b.shmacs.length with
        | zero => rw [hh] at hj; simp at hj
        | succ n => rw [hh] at hj; simp at hj
  | direct i d =>
    simp only [exec, direct] at hj
    split at hj
    · exact hd j e hj
    · exact hd j e hj
    · split at hj
      · exact hd j e hj
      · rename_i hg
        simp only [List.getElem?_set] at hj
        split at hj
        · split at hj
          · simp only [Option.some.injEq] at hj
            subst hj
            cases d <;> cases hv : b.ivGiven <;> simp_all
          · cases hj
        · exact hd j e hj
  | junction i d m =>
    simp only [exec, junction] at hj
    repeat' split at hj
    all_goals exact hd j e hj

theorem Bundle.directed_after : ∀ (cs : List BundleCall) (b : Bundle), b.Directed →
    (b.after cs).Directed ∧ (b.after cs).ivGiven = b.ivGiven := by
  intro cs
  induction cs with
  | nil => intro b hd; exact ⟨hd, rfl⟩
  | cons c cs ih =>
    intro b hd
    have := ih _ (directed_exec hd c)
    exact ⟨this.1, this.2.trans (exec_ivGiven b c)⟩

/-- C31. In every history of calls on a key bundle and the stream-hmacs made from it, at most one call starts to encrypt
or decrypt: if one does, all other such calls before and after, with the same or another stream-hmac, sync or async, in
the same or the other direction, fail. It only does so with a stream-hmac that was declared for the direction and in the
mode that was chosen for the bundle; and it only encrypts with an iv that was drawn at random, and only decrypts with an
iv that was given. -/
theorem C31_single_use (ivGiven : Bool) (calls : List BundleCall) (pre post : List (BundleCall × Except Err Unit))
    (i : Nat) (d : Direction) (m : RunMode)
    (h : (Bundle.fresh ivGiven).trace calls = pre ++ (.junction i d m, .ok ()) :: post) :
    (∀ j e n r, (.junction j e n, r) ∈ pre ∨ (.junction j e n, r) ∈ post → ∃ err, r = .error err) ∧
    (.setMode m, .ok ()) ∈ pre ∧ (.direct i d, .ok ()) ∈ pre ∧ (ivGiven = true ↔ d = .decryption) := by
  have hpre : ∀ j e n r, (.junction j e n, r) ∈ pre → ∃ err, r = .error err := by
    intro j e n r hmem
    cases r with
    | error err => exact ⟨err, rfl⟩
    | ok u =>
      exfalso
      obtain ⟨pre1, post1, rfl⟩ := List.append_of_mem hmem
      rw [List.append_assoc, List.cons_append] at h
      obtain ⟨cs, ds, rfl, h2, h3⟩ := Bundle.trace_split _ _ _ _ _ _ h
      have hreg := (Bundle.junction_registers _ j e n h2.symm).1
      obtain ⟨err, he⟩ := Bundle.later_refused ds _ j hreg i d m (.ok ()) (by
        have : ((BundleCall.junction i d m, Except.ok ()) : BundleCall × Except Err Unit)
            ∈ post1 ++ (.junction i d m, .ok ()) :: post := by simp
        rw [h3] at this
        exact this)
      cases he
  obtain ⟨cs, ds, rfl, h2, rfl⟩ := Bundle.trace_split _ _ _ _ _ _ h
  obtain ⟨h1, h4, h5, h6⟩ := Bundle.junction_registers _ i d m h2.symm
  have hf := Bundle.follows_after cs (Bundle.fresh ivGiven) [] ⟨nofun, by intro i d h; simp [Bundle.fresh] at h⟩
  have hv := Bundle.directed_after cs (Bundle.fresh ivGiven) (by intro i d h; simp [Bundle.fresh] at h)
  refine ⟨?_, hf.mode m h6, hf.shmac i d h5, ?_⟩
  rotate_left
  · have := hv.1 i d h5
    rwa [hv.2] at this
  rintro j e n r (hr | hr)
  · exact hpre j e n r hr
  · exact Bundle.later_refused ds _ i h1 j e n r hr

example : (Bundle.fresh false).trace [.setMode .sync, .newShmac, .newShmac, .direct 0 .encryption, .direct 1 .encryption,
      .junction 0 .encryption .sync, .junction 1 .encryption .sync, .junction 0 .encryption .sync]
    = [(.setMode .sync, .ok ()), (.newShmac, .ok ()), (.newShmac, .ok ()), (.direct 0 .encryption, .ok ()),
       (.direct 1 .encryption, .ok ()), (.junction 0 .encryption .sync, .ok ()),
       (.junction 1 .encryption .sync, .error .permission), (.junction 0 .encryption .sync, .error .permission)] := by
  decide

/-- A remark on C31: a call that fails because of the wrong direction or mode uses the bundle up all the same. -/
theorem C31_failed_call_uses_up :
    (Bundle.fresh false).trace [.setMode .sync, .newShmac, .direct 0 .encryption, .junction 0 .encryption .async,
      .junction 0 .encryption .sync]
    = [(.setMode .sync, .ok ()), (.newShmac, .ok ()), (.direct 0 .encryption, .ok ()),
       (.junction 0 .encryption .async, .error .value), (.junction 0 .encryption .sync, .error .permission)] := by
  decide

/-- C31, salt and iv. A bundle is made iff salt and iv, given or drawn, have exactly the configured sizes; a missing
iv, and a missing or empty salt, are the drawn ones; the bundle remembers whether the iv was given. -/
theorem C31_salt_and_iv {c : Sizes} {salt : Option Bytes} {aad : Bytes} {iv : Option Bytes} {saltDraw ivDraw : Bytes}
    {b : SaltAADIV} :
    SaltAADIV.new c salt aad iv saltDraw ivDraw = .ok b ↔
      b.aad = aad ∧ b.salt.length = c.saltBytes ∧ b.iv.length = c.ivBytes ∧
      b.salt = (if salt = none ∨ salt = some [] then saltDraw else salt.getD []) ∧
      (iv = none → b.iv = ivDraw ∧ b.ivIsFresh = true) ∧ (∀ x, iv = some x → b.iv = x ∧ b.ivIsFresh = false) := by
  obtain ⟨bs, ba, bi, bf⟩ := b
  unfold SaltAADIV.new
  rcases salt with _ | (_ | ⟨y, ys⟩) <;> rcases iv with _ | x <;>
    simp only [bind_eq_ok, raiseIf_ok, pure, Except.pure, Except.ok.injEq, SaltAADIV.mk.injEq, ne_eq, Decidable.not_not] <;>
    constructor
  all_goals first
    | (rintro ⟨_, h1, _, h2, rfl, rfl, rfl, rfl⟩; simp [h1, h2])
    | (rintro ⟨rfl, h1, h2, h3, h4, h5⟩; simp at h3 h4 h5; obtain ⟨rfl, rfl⟩ := h4; subst h3; simp [h1, h2]; done)
    | (rintro ⟨rfl, h1, h2, h3, h4, h5⟩; simp at h3 h4 h5; obtain ⟨rfl, rfl⟩ := h5; subst h3; simp [h1, h2])

/-- C31, source of the iv. Encryption is refused when an iv was given and decryption is refused when none was given. -/
theorem C31_iv_source {κ : Type} {C : Cipher κ} (S : Sound C) (u : Usable C) {key : Bytes} (hk : 64 ≤ key.length)
    (hk2 : key.length < 256 ^ 8) {salt : Option Bytes} {aad saltDraw ivDraw : Bytes} (ha : aad.length < 256 ^ 4)
    {b : SaltAADIV} :
    (∀ iv, SaltAADIV.new C.cfg salt aad (some iv) saltDraw ivDraw = .ok b →
      C.startSession key b .encryption = .error .shmacMisuse ∧ ∃ s, C.startSession key b .decryption = .ok s) ∧
    (SaltAADIV.new C.cfg salt aad none saltDraw ivDraw = .ok b →
      C.startSession key b .decryption = .error .shmacMisuse ∧ ∃ s, C.startSession key b .encryption = .ok s) := by
  have start : ∀ iv, SaltAADIV.new C.cfg salt aad iv saltDraw ivDraw = .ok b →
      ∃ r, Canon.canonicalPack [b.salt, b.aad, b.iv] 1 [0] 4 = .ok r := by
    intro iv h
    obtain ⟨h1, h2, h3, _⟩ := C31_salt_and_iv.1 h
    exact summary_total (by rw [h2]; exact u.salt_lt) (by rw [h1]; exact ha) (by rw [h3]; exact u.iv_lt)
  constructor
  · intro iv h
    obtain ⟨r, hr⟩ := start _ h
    have hf := ((C31_salt_and_iv.1 h).2.2.2.2.2 iv rfl).2
    obtain ⟨bs, ba, bi, bf⟩ := b
    simp only at hf
    subst hf
    obtain ⟨kdf, mac, perm, keys, _, _, _, _, _, _, _, h2, _, h4⟩ := startSession_ok S u.env hk hk2 hr
    exact ⟨h4, _, h2⟩
  · intro h
    obtain ⟨r, hr⟩ := start _ h
    have hf := ((C31_salt_and_iv.1 h).2.2.2.2.1 rfl).2
    obtain ⟨bs, ba, bi, bf⟩ := b
    simp only at hf
    subst hf
    obtain ⟨kdf, mac, perm, keys, _, _, _, _, _, _, h1, _, h3, _⟩ := startSession_ok S u.env hk hk2 hr
    exact ⟨h3, _, h1⟩

/-- C31 for both ciphers of the library. -/
theorem C31_iv_source_shipped {E : Env} (h : PermuteSetup E) {F : DualEnv} (g : DualSetup F) {key : Bytes}
    (hk : 64 ≤ key.length) (hk2 : key.length < 256 ^ 8) {salt : Option Bytes} {aad iv saltDraw ivDraw : Bytes}
    (ha : aad.length < 256 ^ 4) {b : SaltAADIV} :
    (SaltAADIV.new E.cfg salt aad (some iv) saltDraw ivDraw = .ok b →
      (permuteCipher E).startSession key b .encryption = .error .shmacMisuse) ∧
    (SaltAADIV.new E.cfg salt aad none saltDraw ivDraw = .ok b →
      (permuteCipher E).startSession key b .decryption = .error .shmacMisuse) ∧
    (SaltAADIV.new F.cfg salt aad (some iv) saltDraw ivDraw = .ok b →
      (dualCipher F).startSession key b .encryption = .error .shmacMisuse) ∧
    (SaltAADIV.new F.cfg salt aad none saltDraw ivDraw = .ok b →
      (dualCipher F).startSession key b .decryption = .error .shmacMisuse) := by
  have hp := C31_iv_source (permuteSound E h.permuteWF) h.usable hk hk2 (salt := salt) (aad := aad)
    (saltDraw := saltDraw) (ivDraw := ivDraw) ha (b := b)
  have hd := C31_iv_source (dualSound F g.wf g.sides.1 g.sides.2) g.usable hk hk2 (salt := salt) (aad := aad)
    (saltDraw := saltDraw) (ivDraw := ivDraw) ha (b := b)
  exact ⟨fun x => (hp.1 iv x).1, fun x => (hp.2 x).1, fun x => (hd.1 iv x).1, fun x => (hd.2 x).1⟩

/-- C31 is false in one clause: a missing salt is not refused for decryption. With a given iv, a random salt is drawn and
the decryption session starts (and cannot but fail to authenticate). -/
theorem C31_missing_salt_for_decryption {E : Env} (h : PermuteSetup E) {key : Bytes} (hk : 64 ≤ key.length)
    (hk2 : key.length < 256 ^ 8) (aad iv saltDraw ivDraw : Bytes) (ha : aad.length < 256 ^ 4)
    (hi : iv.length = E.cfg.ivBytes) (hs : saltDraw.length = E.cfg.saltBytes) (salt : Option Bytes)
    (hsalt : salt = none ∨ salt = some []) :
    ∃ b s, SaltAADIV.new E.cfg salt aad (some iv) saltDraw ivDraw = .ok b ∧ b.salt = saltDraw ∧
      (permuteCipher E).startSession key b .decryption = .ok s := by
  have hus : usedSalt salt saltDraw = saltDraw := by rcases hsalt with rfl | rfl <;> rfl
  have hnew := SaltAADIV.new_given (c := E.cfg) (salt := salt) (aad := aad) (iv := iv) (saltDraw := saltDraw)
    (ivDraw := ivDraw) (by rw [hus]; exact hs) hi
  rw [hus] at hnew
  obtain ⟨_, s, hs⟩ := (C31_iv_source (permuteSound E h.permuteWF) h.usable hk hk2 ha (salt := salt)
    (saltDraw := saltDraw) (ivDraw := ivDraw)).1 iv hnew
  exact ⟨_, s, hnew, rfl, hs⟩

end Aiootp.Cipher
