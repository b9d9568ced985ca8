import Verif.Props.KeysSame

/-
Property C62: which keys the kdf object of an exchange object is made of, for every history of calls.
-/

namespace Aiootp.Keys

variable {Sk Pk : Type}

/-- The four kinds of exchange objects with their identity keys. -/
inductive Side (Sk : Type) where
  | client2
  | server2 (identity : Sk)
  | client3 (identity : Sk)
  | server3 (identity : Sk)

/-- The object before its first call. -/
def Side.new (C : Curve Sk Pk) : Side Sk → DhObj Sk Pk
  | client2 => .client2 {}
  | server2 identity => .server2 ⟨KeyObj.generated C identity, none, none⟩
  | client3 identity => .client3 ⟨KeyObj.generated C identity, none, none, none⟩
  | server3 identity => .server3 ⟨KeyObj.generated C identity, none, none, none⟩

/-- No call of `send` gives a well formed key. -/
def NoneSent (C : Curve Sk Pk) (calls : List (DhCall Sk Pk)) : Prop := ∀ fresh g, .send fresh g ∈ calls → ∀ p, C.processPublic g ≠ .ok p

/-- No call of `receive` gives a well formed ephemeral key. -/
def NoneReceived (C : Curve Sk Pk) (calls : List (DhCall Sk Pk)) : Prop := ∀ fresh i g, .receive fresh i g ∈ calls → ∀ p, C.processPublic g ≠ .ok p

/-- `receive` is not called. -/
def NeverReceived (calls : List (DhCall Sk Pk)) : Prop := ∀ fresh i g, .receive fresh i g ∉ calls

/-- The keys of the exchange are the first ones. A client: the first well formed identity key of the server that `send` was given, the ephemeral key that was made in that call, and the first
well formed ephemeral key of the server that `receive` was given afterwards, in the last call. A server: the keys that the first call of `receive` was given, and the ephemeral key that was made in it. -/
def FirstKeys (C : Curve Sk Pk) (before : List (DhCall Sk Pk)) (last : DhCall Sk Pk) : Side Sk → Exchange Sk Pk → Prop
  | .client2, .client2 ephemeral serverId serverEph => ∃ a b f g, before = a ++ .send ephemeral serverId :: b ∧ last = .receive f g serverEph ∧
      (∃ p, C.processPublic serverId = .ok p) ∧ NoneSent C a ∧ NoneReceived C b
  | .server2 i, .server2 identity ephemeral clientEph => i = identity ∧ ∃ g, last = .receive ephemeral g clientEph ∧ NeverReceived before
  | .client3 i, .client3 identity ephemeral serverId serverEph => i = identity ∧ ∃ a b f g, before = a ++ .send ephemeral serverId :: b ∧ last = .receive f g serverEph ∧
      (∃ p, C.processPublic serverId = .ok p) ∧ NoneSent C a ∧ NoneReceived C b
  | .server3 i, .server3 identity ephemeral clientId clientEph => i = identity ∧ last = .receive ephemeral clientId clientEph ∧ NeverReceived before
  | _, _ => False

/-- The result of the last of some calls. -/
def lastResult (E : DhEnv) (C : Curve Sk Pk) (o : DhObj Sk Pk) : List (DhCall Sk Pk) → DhCall Sk Pk → DhResult
  | [], last => (o.step E C last).2
  | call :: calls, last => lastResult E C (o.step E C call).1 calls last

theorem lastResult_results (E : DhEnv) (C : Curve Sk Pk) (last : DhCall Sk Pk) (after : List (DhCall Sk Pk)) (before : List (DhCall Sk Pk)) : ∀ o : DhObj Sk Pk,
    (o.results E C (before ++ last :: after))[before.length]? = some (lastResult E C o before last) := by
  induction before with
  | nil => intro o; rfl
  | cons call before ih => intro o; simpa [DhObj.results, lastResult] using ih _

theorem spent_last {E : DhEnv} {C : Curve Sk Pk} (last : DhCall Sk Pk) (before : List (DhCall Sk Pk)) : ∀ {o : DhObj Sk Pk}, o.Spent → ∀ k,
    lastResult E C o before last ≠ .derived (.ok k) := by
  induction before with
  | nil =>
    intro o h k e
    have := (spent_step (E := E) (C := C) h last).2
    rw [show (o.step E C last).2 = _ from e] at this
    cases this
  | cons call before ih => intro o h k; exact ih (spent_step h call).1 k

theorem noneReceived_cons {C : Curve Sk Pk} {call : DhCall Sk Pk} {calls : List (DhCall Sk Pk)} :
    NoneReceived C (call :: calls) ↔ (∀ f i g, call = .receive f i g → ∀ p, C.processPublic g ≠ .ok p) ∧ NoneReceived C calls := by
  constructor
  · intro h
    exact ⟨fun f i g e => h f i g (e ▸ List.mem_cons_self ..), fun f i g hm => h f i g (List.mem_cons_of_mem _ hm)⟩
  · rintro ⟨h, h'⟩ f i g hm
    rcases List.mem_cons.1 hm with e | hm
    · exact h f i g e.symm
    · exact h' f i g hm

theorem noneSent_cons {C : Curve Sk Pk} {call : DhCall Sk Pk} {calls : List (DhCall Sk Pk)} :
    NoneSent C (call :: calls) ↔ (∀ f g, call = .send f g → ∀ p, C.processPublic g ≠ .ok p) ∧ NoneSent C calls := by
  constructor
  · intro h
    exact ⟨fun f g e => h f g (e ▸ List.mem_cons_self ..), fun f g hm => h f g (List.mem_cons_of_mem _ hm)⟩
  · rintro ⟨h, h'⟩ f g hm
    rcases List.mem_cons.1 hm with e | hm
    · exact h f g e.symm
    · exact h' f g hm

theorem neverReceived_cons {call : DhCall Sk Pk} {calls : List (DhCall Sk Pk)} :
    NeverReceived (call :: calls) ↔ (∀ f i g, call ≠ .receive f i g) ∧ NeverReceived calls := by
  constructor
  · intro h
    exact ⟨fun f i g e => h f i g (e ▸ List.mem_cons_self ..), fun f i g hm => h f i g (List.mem_cons_of_mem _ hm)⟩
  · rintro ⟨h, h'⟩ f i g hm
    rcases List.mem_cons.1 hm with e | hm
    · exact h f i g e.symm
    · exact h' f i g hm

/-- A client that has sent its key waits for the first well formed key. -/
theorem client2_sent (E : DhEnv) (C : Curve Sk Pk) (k : Bytes) (last : DhCall Sk Pk) {o : DhObj Sk Pk} {p : Pk} {key : KeyObj Sk Pk} (ho : o = .client2 ⟨some p, some key, none⟩)
    (before : List (DhCall Sk Pk)) : lastResult E C o before last = .derived (.ok k) ↔
      ∃ f g y, last = .receive f g y ∧ NoneReceived C before ∧ ((⟨some p, some key, none⟩ : Client2 Sk Pk).receive C E y).2 = .ok k := by
  subst ho
  induction before with
  | nil =>
    cases last with
    | send f g => simp [lastResult, DhObj.step]
    | receive f g y => simp [lastResult, DhObj.step, NoneReceived]
  | cons call before ih =>
    cases call with
    | send f g =>
      have : ((DhObj.client2 ⟨some p, some key, none⟩ : DhObj Sk Pk).step E C (.send f g)).1 = .client2 ⟨some p, some key, none⟩ := by
        simp only [DhObj.step, Client2.send]
        cases C.processPublic g <;> rfl
      simp only [lastResult, this, ih, noneReceived_cons]
      simp
    | receive f i g =>
      cases hg : C.processPublic g with
      | error e =>
        have : ((DhObj.client2 ⟨some p, some key, none⟩ : DhObj Sk Pk).step E C (.receive f i g)).1 = .client2 ⟨some p, some key, none⟩ := by
          simp [DhObj.step, Client2.receive, hg]
        simp only [lastResult, this, ih, noneReceived_cons]
        constructor
        · rintro ⟨f', g', y, e1, e2, e3⟩
          refine ⟨f', g', y, e1, ⟨?_, e2⟩, e3⟩
          rintro _ _ _ ⟨⟩ p hp
          rw [hg] at hp
          cases hp
        · rintro ⟨f', g', y, e1, ⟨_, e2⟩, e3⟩
          exact ⟨f', g', y, e1, e2, e3⟩
      | ok q =>
        have : ((DhObj.client2 ⟨some p, some key, none⟩ : DhObj Sk Pk).step E C (.receive f i g)).1.Spent := by
          simp [DhObj.step, Client2.receive, hg, DhObj.Spent]
        simp only [lastResult]
        refine ⟨fun h => absurd h (spent_last last before this k), ?_⟩
        rintro ⟨_, _, _, _, h, _⟩
        exact absurd hg ((noneReceived_cons.1 h).1 _ _ _ rfl q)

theorem client3_sent (E : DhEnv) (C : Curve Sk Pk) (k : Bytes) (last : DhCall Sk Pk) {o : DhObj Sk Pk} {p : Pk} {id key : KeyObj Sk Pk} (ho : o = .client3 ⟨id, some p, some key, none⟩)
    (before : List (DhCall Sk Pk)) : lastResult E C o before last = .derived (.ok k) ↔
      ∃ f g y, last = .receive f g y ∧ NoneReceived C before ∧ ((⟨id, some p, some key, none⟩ : Client3 Sk Pk).receive C E y).2 = .ok k := by
  subst ho
  induction before with
  | nil =>
    cases last with
    | send f g => simp [lastResult, DhObj.step]
    | receive f g y => simp [lastResult, DhObj.step, NoneReceived]
  | cons call before ih =>
    cases call with
    | send f g =>
      have : ((DhObj.client3 ⟨id, some p, some key, none⟩ : DhObj Sk Pk).step E C (.send f g)).1 = .client3 ⟨id, some p, some key, none⟩ := by
        simp only [DhObj.step, Client3.send]
        cases C.processPublic g <;> rfl
      simp only [lastResult, this, ih, noneReceived_cons]
      simp
    | receive f i g =>
      cases hg : C.processPublic g with
      | error e =>
        have : ((DhObj.client3 ⟨id, some p, some key, none⟩ : DhObj Sk Pk).step E C (.receive f i g)).1 = .client3 ⟨id, some p, some key, none⟩ := by
          simp [DhObj.step, Client3.receive, hg]
        simp only [lastResult, this, ih, noneReceived_cons]
        constructor
        · rintro ⟨f', g', y, e1, e2, e3⟩
          refine ⟨f', g', y, e1, ⟨?_, e2⟩, e3⟩
          rintro _ _ _ ⟨⟩ p hp
          rw [hg] at hp
          cases hp
        · rintro ⟨f', g', y, e1, ⟨_, e2⟩, e3⟩
          exact ⟨f', g', y, e1, e2, e3⟩
      | ok q =>
        have : ((DhObj.client3 ⟨id, some p, some key, none⟩ : DhObj Sk Pk).step E C (.receive f i g)).1.Spent := by
          simp [DhObj.step, Client3.receive, hg, DhObj.Spent]
        simp only [lastResult]
        refine ⟨fun h => absurd h (spent_last last before this k), ?_⟩
        rintro ⟨_, _, _, _, h, _⟩
        exact absurd hg ((noneReceived_cons.1 h).1 _ _ _ rfl q)

/-- The first well formed key that `send` is given. -/
theorem first_sent (C : Curve Sk Pk) (call : DhCall Sk Pk) (before : List (DhCall Sk Pk)) (h : ∀ f g, call = .send f g → ∀ p, C.processPublic g ≠ .ok p) (R : Sk → Given Pk → List (DhCall Sk Pk) → Prop) :
    (∃ a b f g, call :: before = a ++ .send f g :: b ∧ (∃ p, C.processPublic g = .ok p) ∧ NoneSent C a ∧ R f g b) ↔
    ∃ a b f g, before = a ++ .send f g :: b ∧ (∃ p, C.processPublic g = .ok p) ∧ NoneSent C a ∧ R f g b := by
  constructor
  · rintro ⟨a, b, f, g, e, ⟨p, hp⟩, hn, hr⟩
    cases a with
    | nil =>
      injection e with e1 e2
      exact absurd hp (h f g e1 p)
    | cons x a =>
      injection e with e1 e2
      exact ⟨a, b, f, g, e2, ⟨p, hp⟩, (noneSent_cons.1 hn).2, hr⟩
  · rintro ⟨a, b, f, g, e, hp, hn, hr⟩
    exact ⟨call :: a, b, f, g, by rw [e]; rfl, hp, noneSent_cons.2 ⟨h, hn⟩, hr⟩

theorem first_sent_here (C : Curve Sk Pk) {f : Sk} {g : Given Pk} {p : Pk} (hg : C.processPublic g = .ok p) (before : List (DhCall Sk Pk)) (R : Sk → Given Pk → List (DhCall Sk Pk) → Prop) :
    (∃ a b f' g', DhCall.send f g :: before = a ++ .send f' g' :: b ∧ (∃ p, C.processPublic g' = .ok p) ∧ NoneSent C a ∧ R f' g' b) ↔ R f g before := by
  constructor
  · rintro ⟨a, b, f', g', e, ⟨p', hp⟩, hn, hr⟩
    cases a with
    | nil =>
      injection e with e1 e2
      injection e1 with e3 e4
      rw [e3, e4, e2]
      exact hr
    | cons x a =>
      injection e with e1 e2
      exact absurd hg ((noneSent_cons.1 hn).1 f g e1.symm p)
  · intro hr
    exact ⟨[], before, f, g, rfl, ⟨p, hg⟩, fun _ _ h => by simp at h, hr⟩

theorem client2_new (E : DhEnv) (C : Curve Sk Pk) (k : Bytes) (last : DhCall Sk Pk) (before : List (DhCall Sk Pk)) :
    lastResult E C (.client2 ({} : Client2 Sk Pk)) before last = .derived (.ok k) ↔
      ∃ a b f g, before = a ++ .send f g :: b ∧ (∃ p, C.processPublic g = .ok p) ∧ NoneSent C a ∧
        ∃ f' g' y, last = .receive f' g' y ∧ NoneReceived C b ∧ ((({} : Client2 Sk Pk).send C f g).1.receive C E y).2 = .ok k := by
  induction before with
  | nil => cases last <;> simp [lastResult, DhObj.step, Client2.receive]
  | cons call before ih =>
    cases call with
    | send f g =>
      cases hg : C.processPublic g with
      | error e =>
        rw [first_sent C (.send f g) before (by rintro _ _ ⟨⟩ p hp; rw [hg] at hp; cases hp), ← ih]
        simp [lastResult, DhObj.step, Client2.send, hg]
      | ok p =>
        rw [first_sent_here C hg before]
        have : (({} : Client2 Sk Pk).send C f g).1 = ⟨some p, some (KeyObj.generated C f), none⟩ := by simp [Client2.send, hg]
        rw [this]
        exact client2_sent E C k last (by simp [DhObj.step, this]) before
    | receive f i g =>
      rw [first_sent C (.receive f i g) before (by rintro _ _ ⟨⟩), ← ih]
      simp [lastResult, DhObj.step, Client2.receive]

theorem client3_new (E : DhEnv) (C : Curve Sk Pk) (k : Bytes) (id : KeyObj Sk Pk) (last : DhCall Sk Pk) (before : List (DhCall Sk Pk)) :
    lastResult E C (.client3 (⟨id, none, none, none⟩ : Client3 Sk Pk)) before last = .derived (.ok k) ↔
      ∃ a b f g, before = a ++ .send f g :: b ∧ (∃ p, C.processPublic g = .ok p) ∧ NoneSent C a ∧
        ∃ f' g' y, last = .receive f' g' y ∧ NoneReceived C b ∧ (((⟨id, none, none, none⟩ : Client3 Sk Pk).send C f g).1.receive C E y).2 = .ok k := by
  induction before with
  | nil => cases last <;> simp [lastResult, DhObj.step, Client3.receive]
  | cons call before ih =>
    cases call with
    | send f g =>
      cases hg : C.processPublic g with
      | error e =>
        rw [first_sent C (.send f g) before (by rintro _ _ ⟨⟩ p hp; rw [hg] at hp; cases hp), ← ih]
        simp [lastResult, DhObj.step, Client3.send, hg]
      | ok p =>
        rw [first_sent_here C hg before]
        have : ((⟨id, none, none, none⟩ : Client3 Sk Pk).send C f g).1 = ⟨id, some p, some (KeyObj.generated C f), none⟩ := by simp [Client3.send, hg]
        rw [this]
        exact client3_sent E C k last (by simp [DhObj.step, this]) before
    | receive f i g =>
      rw [first_sent C (.receive f i g) before (by rintro _ _ ⟨⟩), ← ih]
      simp [lastResult, DhObj.step, Client3.receive]

theorem server2_new (E : DhEnv) (C : Curve Sk Pk) (k : Bytes) (id : KeyObj Sk Pk) (last : DhCall Sk Pk) (before : List (DhCall Sk Pk)) :
    lastResult E C (.server2 (⟨id, none, none⟩ : Server2 Sk Pk)) before last = .derived (.ok k) ↔
      ∃ f g y, last = .receive f g y ∧ NeverReceived before ∧ ((⟨id, none, none⟩ : Server2 Sk Pk).receive C E f y).2 = .ok k := by
  induction before with
  | nil => cases last <;> simp [lastResult, DhObj.step, NeverReceived]
  | cons call before ih =>
    cases call with
    | send f g => simp only [lastResult, DhObj.step, ih, neverReceived_cons]; simp
    | receive f i g =>
      have : ((DhObj.server2 ⟨id, none, none⟩ : DhObj Sk Pk).step E C (.receive f i g)).1.Spent := by
        simp only [DhObj.step, DhObj.Spent, Server2.receive]
        cases C.processPublic g <;> simp
      refine ⟨fun h => absurd h (spent_last last before this k), ?_⟩
      rintro ⟨_, _, _, _, h, _⟩
      exact absurd rfl ((neverReceived_cons.1 h).1 f i g)

theorem server3_new (E : DhEnv) (C : Curve Sk Pk) (k : Bytes) (id : KeyObj Sk Pk) (last : DhCall Sk Pk) (before : List (DhCall Sk Pk)) :
    lastResult E C (.server3 (⟨id, none, none, none⟩ : Server3 Sk Pk)) before last = .derived (.ok k) ↔
      ∃ f g y, last = .receive f g y ∧ NeverReceived before ∧ ((⟨id, none, none, none⟩ : Server3 Sk Pk).receive C E f g y).2 = .ok k := by
  induction before with
  | nil => cases last <;> simp [lastResult, DhObj.step, NeverReceived]
  | cons call before ih =>
    cases call with
    | send f g => simp only [lastResult, DhObj.step, ih, neverReceived_cons]; simp
    | receive f i g =>
      have : ((DhObj.server3 ⟨id, none, none, none⟩ : DhObj Sk Pk).step E C (.receive f i g)).1.Spent := by
        simp only [DhObj.step, DhObj.Spent, Server3.receive]
        cases C.processPublic i with
        | error e => simp
        | ok a => cases C.processPublic g <;> simp
      refine ⟨fun h => absurd h (spent_last last before this k), ?_⟩
      rintro ⟨_, _, _, _, h, _⟩
      exact absurd rfl ((neverReceived_cons.1 h).1 f i g)

/-- **C62** In every history of calls, a call hands out a kdf object exactly if it ends an exchange with the keys that came first; the kdf object is that of an exchange of these keys in which no other
call is made. -/
theorem C62_first_keys (E : DhEnv) (C : Curve Sk Pk) (side : Side Sk) (before after : List (DhCall Sk Pk)) (last : DhCall Sk Pk) (k : Bytes) :
    ((side.new C).results E C (before ++ last :: after))[before.length]? = some (.derived (.ok k)) ↔
      ∃ e : Exchange Sk Pk, FirstKeys C before last side e ∧ e.result E C = .ok k := by
  rw [lastResult_results, Option.some_inj]
  cases side with
  | client2 =>
    simp only [Side.new, client2_new]
    constructor
    · rintro ⟨a, b, f, g, e, hp, ha, f', g', y, el, hb, hr⟩
      exact ⟨.client2 f g y, ⟨a, b, f', g', e, el, hp, ha, hb⟩, hr⟩
    · rintro ⟨x, hx, hr⟩
      cases x with
      | client2 f g y =>
        obtain ⟨a, b, f', g', e, el, hp, ha, hb⟩ := hx
        exact ⟨a, b, f, g, e, hp, ha, f', g', y, el, hb, hr⟩
      | _ => exact hx.elim
  | server2 i =>
    simp only [Side.new, server2_new]
    constructor
    · rintro ⟨f, g, y, el, hb, hr⟩
      exact ⟨.server2 i f y, ⟨rfl, g, el, hb⟩, hr⟩
    · rintro ⟨x, hx, hr⟩
      cases x with
      | server2 i' f y =>
        obtain ⟨rfl, g, el, hb⟩ := hx
        exact ⟨f, g, y, el, hb, hr⟩
      | _ => exact hx.elim
  | client3 i =>
    simp only [Side.new, client3_new]
    constructor
    · rintro ⟨a, b, f, g, e, hp, ha, f', g', y, el, hb, hr⟩
      exact ⟨.client3 i f g y, ⟨rfl, a, b, f', g', e, el, hp, ha, hb⟩, hr⟩
    · rintro ⟨x, hx, hr⟩
      cases x with
      | client3 i' f g y =>
        obtain ⟨rfl, a, b, f', g', e, el, hp, ha, hb⟩ := hx
        exact ⟨a, b, f, g, e, hp, ha, f', g', y, el, hb, hr⟩
      | _ => exact hx.elim
  | server3 i =>
    simp only [Side.new, server3_new]
    constructor
    · rintro ⟨f, g, y, el, hb, hr⟩
      exact ⟨.server3 i f g y, ⟨rfl, el, hb⟩, hr⟩
    · rintro ⟨x, hx, hr⟩
      cases x with
      | server3 i' f g y =>
        obtain ⟨rfl, el, hb⟩ := hx
        exact ⟨f, g, y, el, hb, hr⟩
      | _ => exact hx.elim

/- A client of the toy curve: a malformed identity key, a key that is received too early, the identity key, another identity key, a malformed key, the key of the server. The kdf object is that of the
exchange with the first identity key. -/
example : ((((Side.client2 : Side _).new toy).results toyEnv toy ([.send 1 .other, .receive 1 .other (.bytes (toy.rawPublic 3)), .send 7 (.bytes (toy.rawPublic 5)),
      .send 8 (.bytes (toy.rawPublic 6)), .receive 1 .other .other] ++ DhCall.receive 1 .other (.bytes (toy.rawPublic 9)) :: []))[5]?.any DhResult.isKdf) = true ∧
    FirstKeys toy [.send 1 .other, .receive 1 .other (.bytes (toy.rawPublic 3)), .send 7 (.bytes (toy.rawPublic 5)), .send 8 (.bytes (toy.rawPublic 6)), .receive 1 .other .other]
      (.receive 1 .other (.bytes (toy.rawPublic 9))) .client2 (.client2 7 (.bytes (toy.rawPublic 5)) (.bytes (toy.rawPublic 9))) := by
  refine ⟨by decide +kernel, [.send 1 .other, .receive 1 .other (.bytes (toy.rawPublic 3))], [.send 8 (.bytes (toy.rawPublic 6)), .receive 1 .other .other], 1, .other, rfl, rfl, ⟨_, rfl⟩, ?_, ?_⟩
  · intro f g h p hp
    simp only [List.mem_cons, DhCall.send.injEq, reduceCtorEq, List.not_mem_nil, or_false] at h
    rw [h.2] at hp
    cases hp
  · intro f i g h p hp
    simp only [List.mem_cons, DhCall.receive.injEq, reduceCtorEq, List.not_mem_nil, or_false, false_or] at h
    rw [h.2.2] at hp
    cases hp

end Aiootp.Keys
