import Verif.Model.ExchangeShared
import Verif.Props.Keys

/-
C84: key exchange objects that are used by several coroutines or threads at the same time.
-/

namespace Aiootp.Keys

open Kdf Canon

variable {Sk Pk : Type}

/-! ### calls that nothing interrupts -/

/-- The kind of an exchange object. -/
def DhObj.kind : DhObj Sk Pk → DhKind Sk Pk
  | .client2 _ => .client2
  | .server2 s => .server2 s.myId
  | .client3 c => .client3 c.myId
  | .server3 s => .server3 s.myId

/-- The attributes of an exchange object. -/
def DhObj.attrs : DhObj Sk Pk → Attrs Sk Pk
  | .client2 c => fun | .myEph => c.myEph.map .obj | .peerId => c.peerId.map .pk | .peerEph => c.peerEph.map .pk
  | .server2 s => fun | .myEph => s.myEph.map .obj | .peerId => none | .peerEph => s.peerEph.map .pk
  | .client3 c => fun | .myEph => c.myEph.map .obj | .peerId => c.peerId.map .pk | .peerEph => c.peerEph.map .pk
  | .server3 s => fun | .myEph => s.myEph.map .obj | .peerId => s.peerId.map .pk | .peerEph => s.peerEph.map .pk

/-- What a call returned, as one type. -/
def DhResult.out : DhResult → Except Err Out
  | .sent r => r.map .sent
  | .derived r => r.map .kdf

theorem generated_publicBytes (C : Curve Sk Pk) (s : Sk) : (KeyObj.generated C s).publicBytes C = .ok (C.rawPublic (C.publicOf s)) := rfl

theorem alone_and {α : Type} (r : Except Err α) (k : α → Call Sk Pk) (s : Attrs Sk Pk) :
    (Call.and r k).alone s = match r with | .error e => (s, .error e) | .ok a => (k a).alone s := by
  cases r <;> rfl

theorem alone_getObj (n : Slot) (k : KeyObj Sk Pk → Call Sk Pk) (s : Attrs Sk Pk) :
    (Call.getObj n k).alone s = match s n with | none => (s, .error .attribute) | some (.obj o) => (k o).alone s | some (.pk _) => (s, .error .type) := by
  simp only [Call.getObj, Call.alone]
  cases s n with
  | none => rfl
  | some v => cases v <;> rfl

theorem alone_getPk (n : Slot) (k : Pk → Call Sk Pk) (s : Attrs Sk Pk) :
    (Call.getPk n k).alone s = match s n with | none => (s, .error .attribute) | some (.pk p) => (k p).alone s | some (.obj _) => (s, .error .type) := by
  simp only [Call.getPk, Call.alone]
  cases s n with
  | none => rfl
  | some v => cases v <;> rfl

/-- **C84** A call that nothing interrupts does what C61 and C62 are about. -/
theorem C84_alone (E : DhEnv) (C : Curve Sk Pk) (o : DhObj Sk Pk) (call : DhCall Sk Pk) :
    (o.kind.call C E call).alone o.attrs = ((o.step E C call).1.attrs, (o.step E C call).2.out) := by
  cases o with
  | client2 c =>
    obtain ⟨pi, me, pe⟩ := c
    cases call with
    | send fresh g =>
      simp only [DhObj.kind, DhKind.call, DhObj.step, Call.send2, Client2.send, alone_and]
      cases C.processPublic g with
      | error e => rfl
      | ok p =>
        cases pi with
        | some i => rfl
        | none =>
          cases me with
          | some k => 
            refine Prod.ext ?_ rfl
            funext n; cases n <;> rfl
          | none =>
            refine Prod.ext ?_ rfl
            funext n; cases n <;> rfl
    | receive fresh g g' =>
      simp only [DhObj.kind, DhKind.call, DhObj.step, Call.receive2, Client2.receive, alone_getObj, alone_getPk, DhObj.attrs]
      cases me with
      | none => rfl
      | some k =>
        cases pi with
        | none => rfl
        | some i =>
          simp only [Option.map_some, alone_and]
          cases C.processPublic g' with
          | error e => rfl
          | ok p =>
            cases pe with
            | some q => rfl
            | none =>
              simp only [Option.map_none, Call.alone, alone_and, Option.isSome_none, Bool.false_eq_true, if_false, Client2.derive, alone_getPk, Attrs.put]
              have hA : (fun m => if m = Slot.peerEph then some (Val.pk p) else (DhObj.client2 (⟨some i, some k, none⟩ : Client2 Sk Pk)).attrs m) =
                  (DhObj.client2 (⟨some i, some k, some p⟩ : Client2 Sk Pk)).attrs := by funext n; cases n <;> rfl
              cases k.exchange C i with
              | error e => exact Prod.ext hA rfl
              | ok ad =>
                cases k.exchange C p with
                | error e => exact Prod.ext hA rfl
                | ok cd =>
                  cases k.publicBytes C with
                  | error e => exact Prod.ext hA rfl
                  | ok mine =>
                    simp only [bind, Except.bind, reduceCtorEq, if_false, if_true]
                    cases E.kdf E.dh2 [mine, C.rawPublic i, C.rawPublic p] (ad ++ cd) with
                    | error e => exact Prod.ext hA rfl
                    | ok b => exact Prod.ext hA rfl
  | server2 c =>
    obtain ⟨myId, me, pe⟩ := c
    cases call with
    | send fresh g =>
      simp only [DhObj.kind, DhKind.call, DhObj.step, Call.answer, Server2.send, alone_getObj, DhObj.attrs]
      cases me with
      | none => rfl
      | some k =>
        simp only [Option.map_some, alone_and]
        cases k.publicBytes C with
        | error e => rfl
        | ok m => rfl
    | receive fresh g g' =>
      simp only [DhObj.kind, DhKind.call, DhObj.step, Call.serve2, Server2.receive, Call.alone, DhObj.attrs]
      cases me with
      | some k => rfl
      | none =>
        simp only [Option.map_none, Option.isSome_none, Bool.false_eq_true, if_false, alone_and]
        cases C.processPublic g' with
        | error e => 
          refine Prod.ext ?_ rfl
          funext n; cases n <;> rfl
        | ok p =>
          cases pe with
          | some q => 
            refine Prod.ext ?_ rfl
            funext n; cases n <;> rfl
          | none =>
            simp only [Option.isSome_none, Option.map_none, Call.alone, alone_and, Bool.false_eq_true, if_false, Server2.derive, Attrs.put, reduceCtorEq]
            have hA : (fun m => if m = Slot.peerEph then some (Val.pk p) else if m = Slot.myEph then some (Val.obj (KeyObj.generated C fresh)) else (DhObj.server2 (⟨myId, none, none⟩ : Server2 Sk Pk)).attrs m) =
                (DhObj.server2 (⟨myId, some (KeyObj.generated C fresh), some p⟩ : Server2 Sk Pk)).attrs := by funext n; cases n <;> rfl
            cases myId.exchange C p with
            | error e => exact Prod.ext hA rfl
            | ok ad =>
              cases (KeyObj.generated C fresh).exchange C p with
              | error e => exact Prod.ext hA rfl
              | ok cd =>
                cases myId.publicBytes C with
                | error e => exact Prod.ext hA rfl
                | ok identity =>
                  simp only [bind, Except.bind, generated_publicBytes]
                  cases E.kdf E.dh2 [C.rawPublic p, identity, C.rawPublic (C.publicOf fresh)] (ad ++ cd) with
                  | error e => exact Prod.ext hA rfl
                  | ok b => exact Prod.ext hA rfl
  | client3 c =>
    obtain ⟨myId, pi, me, pe⟩ := c
    cases call with
    | send fresh g =>
      simp only [DhObj.kind, DhKind.call, DhObj.step, Call.send3, Client3.send, alone_and]
      cases C.processPublic g with
      | error e => rfl
      | ok p =>
        cases pi with
        | some i => rfl
        | none =>
          cases me with
          | some k => 
            refine Prod.ext ?_ rfl
            funext n; cases n <;> rfl
          | none =>
            have hA : (fun m => if m = Slot.myEph then some (Val.obj (KeyObj.generated C fresh)) else if m = Slot.peerId then some (Val.pk p) else (DhObj.client3 (⟨myId, none, none, pe⟩ : Client3 Sk Pk)).attrs m) =
                (DhObj.client3 (⟨myId, some p, some (KeyObj.generated C fresh), pe⟩ : Client3 Sk Pk)).attrs := by funext n; cases n <;> rfl
            simp only [Call.alone, DhObj.attrs, Option.map_none, Option.isSome_none, Bool.false_eq_true, if_false, Attrs.put, reduceCtorEq, alone_and, alone_getObj]
            cases myId.publicBytes C with
            | error e => exact Prod.ext hA rfl
            | ok m => exact Prod.ext hA rfl
    | receive fresh g g' =>
      simp only [DhObj.kind, DhKind.call, DhObj.step, Call.receive3, Client3.receive, alone_getObj, alone_getPk, DhObj.attrs]
      cases me with
      | none => rfl
      | some k =>
        cases pi with
        | none => rfl
        | some i =>
          simp only [Option.map_some, alone_and]
          cases C.processPublic g' with
          | error e => rfl
          | ok p =>
            cases pe with
            | some q => rfl
            | none =>
              simp only [Option.map_none, Call.alone, alone_and, Option.isSome_none, Bool.false_eq_true, if_false, Client3.derive, Attrs.put]
              have hA : (fun m => if m = Slot.peerEph then some (Val.pk p) else (DhObj.client3 (⟨myId, some i, some k, none⟩ : Client3 Sk Pk)).attrs m) =
                  (DhObj.client3 (⟨myId, some i, some k, some p⟩ : Client3 Sk Pk)).attrs := by funext n; cases n <;> rfl
              cases k.exchange C i with
              | error e => exact Prod.ext hA rfl
              | ok ad =>
                cases myId.exchange C p with
                | error e => exact Prod.ext hA rfl
                | ok bc =>
                  cases k.exchange C p with
                  | error e => exact Prod.ext hA rfl
                  | ok cd =>
                    cases myId.publicBytes C with
                    | error e => exact Prod.ext hA rfl
                    | ok identity =>
                      cases k.publicBytes C with
                      | error e => exact Prod.ext hA rfl
                      | ok mine =>
                        simp only [bind, Except.bind]
                        cases E.kdf E.dh3 [identity, mine, C.rawPublic i, C.rawPublic p] (ad ++ bc ++ cd) with
                        | error e => exact Prod.ext hA rfl
                        | ok b => exact Prod.ext hA rfl
  | server3 c =>
    obtain ⟨myId, me, pi, pe⟩ := c
    cases call with
    | send fresh g =>
      simp only [DhObj.kind, DhKind.call, DhObj.step, Call.answer, Server3.send, alone_getObj, DhObj.attrs]
      cases me with
      | none => rfl
      | some k =>
        simp only [Option.map_some, alone_and]
        cases k.publicBytes C with
        | error e => rfl
        | ok m => rfl
    | receive fresh g g' =>
      simp only [DhObj.kind, DhKind.call, DhObj.step, Call.serve3, Server3.receive, Call.alone, DhObj.attrs]
      cases me with
      | some k => rfl
      | none =>
        simp only [Option.map_none, Option.isSome_none, Bool.false_eq_true, if_false, alone_and]
        cases C.processPublic g with
        | error e => 
          refine Prod.ext ?_ rfl
          funext n; cases n <;> rfl
        | ok i =>
          cases pi with
          | some q => 
            refine Prod.ext ?_ rfl
            funext n; cases n <;> rfl
          | none =>
            simp only [Option.isSome_none, Option.map_none, Call.alone, alone_and, Bool.false_eq_true, if_false, Attrs.put, reduceCtorEq]
            cases C.processPublic g' with
            | error e => 
              refine Prod.ext ?_ rfl
              funext n; cases n <;> rfl
            | ok p =>
              cases pe with
              | some q => 
                refine Prod.ext ?_ rfl
                funext n; cases n <;> rfl
              | none =>
                simp only [Option.isSome_none, Option.map_none, Call.alone, alone_and, Bool.false_eq_true, if_false, Server3.derive, Attrs.put, reduceCtorEq]
                have hA : (fun m => if m = Slot.peerEph then some (Val.pk p) else if m = Slot.peerId then some (Val.pk i) else if m = Slot.myEph then some (Val.obj (KeyObj.generated C fresh))
                    else (DhObj.server3 (⟨myId, none, none, none⟩ : Server3 Sk Pk)).attrs m) =
                    (DhObj.server3 (⟨myId, some (KeyObj.generated C fresh), some i, some p⟩ : Server3 Sk Pk)).attrs := by funext n; cases n <;> rfl
                cases myId.exchange C p with
                | error e => exact Prod.ext hA rfl
                | ok ad =>
                  cases (KeyObj.generated C fresh).exchange C i with
                  | error e => exact Prod.ext hA rfl
                  | ok bc =>
                    cases (KeyObj.generated C fresh).exchange C p with
                    | error e => exact Prod.ext hA rfl
                    | ok cd =>
                      cases myId.publicBytes C with
                      | error e => exact Prod.ext hA rfl
                      | ok identity =>
                        simp only [bind, Except.bind, generated_publicBytes]
                        cases E.kdf E.dh3 [C.rawPublic i, C.rawPublic p, identity, C.rawPublic (C.publicOf fresh)] (ad ++ bc ++ cd) with
                        | error e => exact Prod.ext hA rfl
                        | ok b => exact Prod.ext hA rfl

/-! ### coroutines -/

namespace Call

theorem burst_keeps (c : Call Sk Pk) : ∀ (s : Attrs Sk Pk) (n : Slot) (v : Val Sk Pk), s n = some v → (c.burst s).1 n = some v := by
  induction c with
  | ret r => intro s n v h; exact h
  | get m k ih =>
    intro s n v h
    simp only [burst]
    split
    · exact h
    · exact ih _ s n v h
  | set m w k ih =>
    intro s n v h
    simp only [burst]
    split
    · exact h
    · rename_i hm
      apply ih
      by_cases hnm : n = m
      · subst hnm; rw [h] at hm; exact absurd rfl hm
      · simp [Attrs.put, hnm, h]
  | pause k ih => intro s n v h; exact h

/-- A kdf comes only after attribute `n` has been assigned. -/
def Must (n : Slot) : Call Sk Pk → Prop
  | .ret r => ∀ b, r ≠ .ok (.kdf b)
  | .get _ k => ∀ v, Must n (k v)
  | .set m _ k => m = n ∨ Must n k
  | .pause k => Must n k

theorem must_and {α : Type} {n : Slot} {r : Except Err α} {k : α → Call Sk Pk} (h : ∀ a, Must n (k a)) : Must n (Call.and r k) := by
  cases r with
  | error e => intro b hb; cases hb
  | ok a => exact h a

theorem must_getObj {n m : Slot} {k : KeyObj Sk Pk → Call Sk Pk} (h : ∀ a, Must n (k a)) : Must n (Call.getObj m k) := by
  intro v
  cases v with
  | obj o => exact h o
  | pk p => intro b hb; cases hb

theorem must_getPk {n m : Slot} {k : Pk → Call Sk Pk} (h : ∀ a, Must n (k a)) : Must n (Call.getPk m k) := by
  intro v
  cases v with
  | pk o => exact h o
  | obj p => intro b hb; cases hb

theorem must_call (C : Curve Sk Pk) (E : DhEnv) (kind : DhKind Sk Pk) (call : DhCall Sk Pk) : Must .peerEph (kind.call C E call) := by
  have sent : ∀ l, Must .peerEph (.ret (.ok (.sent l)) : Call Sk Pk) := fun l b hb => by cases hb
  cases kind <;> cases call <;> simp only [DhKind.call]
  · exact must_and fun p => .inr (.inr (must_getObj fun o => must_and fun m => sent _))
  · exact must_getObj fun o => must_getPk fun i => must_and fun p => .inl rfl
  · exact must_getObj fun o => must_and fun m => sent _
  · exact .inr (must_and fun p => .inl rfl)
  · exact must_and fun p => .inr (.inr (must_and fun i => must_getObj fun o => must_and fun m => sent _))
  · exact must_getObj fun o => must_getPk fun i => must_and fun p => .inl rfl
  · exact must_getObj fun o => must_and fun m => sent _
  · exact .inr (must_and fun i => .inr (must_and fun p => .inl rfl))

/-- A call that has still to assign `n` cannot, or has done so when it need not any more. -/
theorem burst_must {n : Slot} (c : Call Sk Pk) : ∀ s : Attrs Sk Pk, Must n c →
    Must n (c.burst s).2 ∨ (s n = none ∧ ((c.burst s).1 n).isSome = true) := by
  induction c with
  | ret r => intro s h; exact .inl h
  | get m k ih =>
    intro s h
    simp only [burst]
    split
    · exact .inl fun b hb => by cases hb
    · exact ih _ s (h _)
  | set m w k ih =>
    intro s h
    simp only [burst]
    split
    · exact .inl fun b hb => by cases hb
    · rename_i hm
      by_cases hmn : m = n
      · subst hmn
        right
        have hnone : s m = none := by
          cases hs : s m with
          | none => rfl
          | some v => rw [hs] at hm; exact absurd rfl hm
        refine ⟨hnone, ?_⟩
        rw [burst_keeps k (s.put m w) m w (by simp [Attrs.put])]
        rfl
      · rcases h with h | h
        · exact absurd h hmn
        · rcases ih (s.put m w) h with h' | ⟨h1, h2⟩
          · exact .inl h'
          · right
            refine ⟨?_, h2⟩
            have : n ≠ m := fun h => hmn h.symm
            simpa [Attrs.put, this] using h1
  | pause k ih => intro s h; exact .inl h

/-- Public bytes are returned just when they have been read from the ephemeral key of the object. -/
def Reads (C : Curve Sk Pk) (f : Bytes → List Bytes) : Call Sk Pk → Prop
  | .ret r => ∀ l, r ≠ .ok (.sent l)
  | .get n k => ∀ v, Reads C f (k v) ∨ (n = .myEph ∧ ∃ o m, v = .obj o ∧ o.publicBytes C = .ok m ∧ k v = .ret (.ok (.sent (f m))))
  | .set _ _ k => Reads C f k
  | .pause k => Reads C f k

theorem reads_and {α : Type} {C : Curve Sk Pk} {f : Bytes → List Bytes} {r : Except Err α} {k : α → Call Sk Pk} (h : ∀ a, r = .ok a → Reads C f (k a)) : Reads C f (Call.and r k) := by
  cases r with
  | error e => intro l hl; cases hl
  | ok a => exact h a rfl

theorem reads_getObj {C : Curve Sk Pk} {f : Bytes → List Bytes} {n : Slot} {k : KeyObj Sk Pk → Call Sk Pk} (h : ∀ a, Reads C f (k a)) : Reads C f (Call.getObj n k) := by
  intro v
  cases v with
  | obj o => exact .inl (h o)
  | pk p => exact .inl fun l hl => by cases hl

theorem reads_getPk {C : Curve Sk Pk} {f : Bytes → List Bytes} {n : Slot} {k : Pk → Call Sk Pk} (h : ∀ a, Reads C f (k a)) : Reads C f (Call.getPk n k) := by
  intro v
  cases v with
  | pk o => exact .inl (h o)
  | obj p => exact .inl fun l hl => by cases hl

theorem reads_last {C : Curve Sk Pk} {f : Bytes → List Bytes} : Reads C f (.getObj .myEph fun o => .and (o.publicBytes C) fun m => .ret (.ok (.sent (f m)))) := by
  intro v
  cases v with
  | pk p => exact .inl fun l hl => by cases hl
  | obj o =>
    cases hm : o.publicBytes C with
    | error e =>
      left
      simp only [hm, Call.and]
      intro l hl; cases hl
    | ok m => exact .inr ⟨rfl, o, m, rfl, hm, by simp only [hm, Call.and]⟩

theorem reads_kdf {C : Curve Sk Pk} {f : Bytes → List Bytes} {r : Except Err Bytes} : Reads C f (.and r fun b => .ret (.ok (.kdf b)) : Call Sk Pk) :=
  reads_and fun b _ l hl => by cases hl

/-- What a kind of object sends. -/
def _root_.Aiootp.Keys.DhKind.sends (C : Curve Sk Pk) : DhKind Sk Pk → Bytes → List Bytes
  | .client3 myId, m => match myId.publicBytes C with | .ok identity => [identity, m] | .error _ => []
  | _, m => [m]

theorem reads_call (C : Curve Sk Pk) (E : DhEnv) (kind : DhKind Sk Pk) (call : DhCall Sk Pk) : Reads C (kind.sends C) (kind.call C E call) := by
  cases kind with
  | client2 =>
    cases call with
    | send => exact reads_and fun p _ => reads_last
    | receive => exact reads_getObj fun _ => reads_getPk fun _ => reads_and fun _ _ => reads_and (fun _ _ => reads_and fun _ _ => reads_and fun _ _ => reads_getPk fun _ => reads_getPk fun _ => reads_kdf)
  | server2 myId =>
    cases call with
    | send => exact reads_last
    | receive => exact reads_and (C := C) fun _ _ => reads_and (C := C) fun _ _ => reads_and (C := C) fun _ _ => reads_and fun _ _ => reads_and fun _ _ => reads_kdf
  | client3 myId =>
    cases call with
    | send =>
      refine reads_and fun p _ => ?_
      refine reads_and (C := C) fun identity hi => ?_
      have : DhKind.sends C (.client3 myId) = fun m => [identity, m] := by funext m; simp only [DhKind.sends, hi]
      rw [this]
      exact reads_last (f := fun m => [identity, m])
    | receive =>
      exact reads_getObj fun _ => reads_getPk fun _ => reads_and fun _ _ => reads_and (C := C) fun _ _ => reads_and (C := C) fun _ _ => reads_and fun _ _ => reads_and fun _ _ => reads_and fun _ _ => reads_kdf
  | server3 myId =>
    cases call with
    | send => exact reads_last
    | receive =>
      exact reads_and (C := C) fun _ _ => reads_and (C := C) fun _ _ => reads_and (C := C) fun _ _ => reads_and (C := C) fun _ _ => reads_and fun _ _ => reads_and fun _ _ => reads_and fun _ _ => reads_kdf

/-- Returned public bytes are those of the ephemeral key of the object. -/
def Said (C : Curve Sk Pk) (f : Bytes → List Bytes) (s : Attrs Sk Pk) (c : Call Sk Pk) : Prop :=
  ∃ o m, s .myEph = some (.obj o) ∧ o.publicBytes C = .ok m ∧ c = .ret (.ok (.sent (f m)))

theorem burst_reads {C : Curve Sk Pk} {f : Bytes → List Bytes} (c : Call Sk Pk) : ∀ s : Attrs Sk Pk, Reads C f c → Reads C f (c.burst s).2 ∨ Said C f (c.burst s).1 (c.burst s).2 := by
  induction c with
  | ret r => intro s h; exact .inl h
  | get n k ih =>
    intro s h
    simp only [burst]
    split
    · exact .inl fun l hl => by cases hl
    · rename_i v hv
      rcases h v with h | ⟨rfl, o, m, rfl, hm, hk⟩
      · exact ih v s h
      · right
        rw [hk]
        exact ⟨o, m, hv, hm, rfl⟩
  | set m w k ih =>
    intro s h
    simp only [burst]
    split
    · exact .inl fun l hl => by cases hl
    · exact ih _ h
  | pause k ih => intro s h; exact .inl h

end Call

namespace Tasks

theorem step_some {w : Tasks Sk Pk} {i : Nat} {c : Call Sk Pk} (h : w.calls[i]? = some c) : w.step i = ⟨(c.burst w.attrs).1, w.calls.set i (c.burst w.attrs).2⟩ := by
  simp only [step, h]

theorem step_none {w : Tasks Sk Pk} {i : Nat} (h : w.calls[i]? = none) : w.step i = w := by
  simp only [step, h]

theorem step_keeps (w : Tasks Sk Pk) (i : Nat) {n : Slot} {v : Val Sk Pk} (h : w.attrs n = some v) : (w.step i).attrs n = some v := by
  cases hc : w.calls[i]? with
  | none => rw [step_none hc]; exact h
  | some c => rw [step_some hc]; exact Call.burst_keeps c _ _ _ h

/-- At most one call need not assign `n` any more, and none as long as `n` is not assigned. -/
def Once (n : Slot) (w : Tasks Sk Pk) : Prop :=
  (∀ (j : Nat) (c : Call Sk Pk), w.calls[j]? = some c → c.Must n) ∨ ((w.attrs n).isSome = true ∧ ∃ i, ∀ (j : Nat) (c : Call Sk Pk), j ≠ i → w.calls[j]? = some c → c.Must n)

theorem get_set_self {α : Type} {l : List α} {i : Nat} {x y : α} (h : l[i]? = some x) : (l.set i y)[i]? = some y := by
  rcases List.getElem?_eq_some_iff.mp h with ⟨hi, _⟩
  simp [hi]

theorem step_once {n : Slot} {w : Tasks Sk Pk} (h : Once n w) (i : Nat) : Once n (w.step i) := by
  cases hc : w.calls[i]? with
  | none => rw [step_none hc]; exact h
  | some c =>
    have hkeep : (w.attrs n).isSome = true → ((w.step i).attrs n).isSome = true := by
      intro hs
      obtain ⟨v, hv⟩ := Option.isSome_iff_exists.mp hs
      rw [step_keeps w i hv]; rfl
    have hget : ∀ j d, (w.step i).calls[j]? = some d → (j ≠ i ∧ w.calls[j]? = some d) ∨ (j = i ∧ d = (c.burst w.attrs).2) := by
      intro j d hd
      rw [step_some hc] at hd
      by_cases hj : j = i
      · subst hj
        right
        simp only [get_set_self hc] at hd
        injection hd with hd
        exact ⟨rfl, hd.symm⟩
      · left
        simp only [List.getElem?_set_ne (Ne.symm hj)] at hd
        exact ⟨hj, hd⟩
    rcases h with h | ⟨hs, i0, h⟩
    · rcases Call.burst_must c w.attrs (h i c hc) with hm | ⟨_, hsome⟩
      · left
        intro j d hd
        rcases hget j d hd with ⟨_, hd⟩ | ⟨_, rfl⟩
        · exact h j d hd
        · exact hm
      · right
        refine ⟨by rw [step_some hc]; exact hsome, i, fun j d hj hd => ?_⟩
        rcases hget j d hd with ⟨_, hd⟩ | ⟨hji, _⟩
        · exact h j d hd
        · exact absurd hji hj
    · right
      refine ⟨hkeep hs, i0, fun j d hj hd => ?_⟩
      rcases hget j d hd with ⟨_, hd⟩ | ⟨rfl, rfl⟩
      · exact h j d hj hd
      · rcases Call.burst_must c w.attrs (h j c hj hc) with hm | ⟨hn, _⟩
        · exact hm
        · rw [hn] at hs; cases hs

theorem run_ind {P : Tasks Sk Pk → Prop} (hstep : ∀ w i, P w → P (w.step i)) (schedule : List Nat) : ∀ w, P w → P (w.run schedule) := by
  induction schedule with
  | nil => intro w h; exact h
  | cons i schedule ih => intro w h; exact ih _ (hstep w i h)

theorem step_said {C : Curve Sk Pk} {f : Bytes → List Bytes} {w : Tasks Sk Pk} (h : ∀ (j : Nat) (c : Call Sk Pk), w.calls[j]? = some c → c.Reads C f ∨ c.Said C f w.attrs) (i : Nat) :
    ∀ (j : Nat) (c : Call Sk Pk), (w.step i).calls[j]? = some c → c.Reads C f ∨ c.Said C f (w.step i).attrs := by
  cases hc : w.calls[i]? with
  | none => rw [step_none hc]; exact h
  | some c =>
    intro j d hd
    have hkeep : ∀ e : Call Sk Pk, e.Said C f w.attrs → e.Said C f (w.step i).attrs := by
      rintro e ⟨o, m, h1, h2, h3⟩
      exact ⟨o, m, step_keeps w i h1, h2, h3⟩
    by_cases hj : j = i
    · subst hj
      rcases h j c hc with hr | hs
      · have := Call.burst_reads c w.attrs hr
        rw [step_some hc] at hd ⊢
        simp only [get_set_self hc] at hd
        injection hd with hd
        subst hd
        exact this
      · have hs' := hkeep _ hs
        obtain ⟨o, m, _, _, h3⟩ := hs
        subst h3
        rw [step_some hc] at hd
        simp only [get_set_self hc] at hd
        injection hd with hd
        subst hd
        exact .inr hs'
    · rw [step_some hc] at hd
      simp only [List.getElem?_set_ne (Ne.symm hj)] at hd
      rcases h j d hd with hr | hs
      · exact .inl hr
      · exact .inr (hkeep _ hs)

end Tasks

/-- An object of a kind with calls of coroutines that are about to begin. -/
def Tasks.begin (E : DhEnv) (C : Curve Sk Pk) (o : DhObj Sk Pk) (calls : List (DhCall Sk Pk)) : Tasks Sk Pk := ⟨o.attrs, calls.map (o.kind.call C E)⟩

/-- **C84** Any number of coroutines that call `asend` and `areceive` on one exchange object, in every schedule: at most one gets a kdf. -/
theorem C84_coroutines_one_kdf (E : DhEnv) (C : Curve Sk Pk) (o : DhObj Sk Pk) (calls : List (DhCall Sk Pk)) (schedule : List Nat) (i j : Nat) (a b : Bytes)
    (hi : ((Tasks.begin E C o calls).run schedule).result i = some (.ok (.kdf a))) (hj : ((Tasks.begin E C o calls).run schedule).result j = some (.ok (.kdf b))) :
    i = j ∧ a = b := by
  have h := Tasks.run_ind (P := Tasks.Once .peerEph) (fun w i h => Tasks.step_once h i) schedule (Tasks.begin E C o calls) (Or.inl (by
    intro j c hc
    simp only [Tasks.begin, List.getElem?_map, Option.map_eq_some_iff] at hc
    obtain ⟨call, _, rfl⟩ := hc
    exact Call.must_call C E o.kind call))
  have hkdf : ∀ k x, ((Tasks.begin E C o calls).run schedule).result k = some (.ok (.kdf x)) → ((Tasks.begin E C o calls).run schedule).calls[k]? = some (.ret (.ok (.kdf x))) := by
    intro k x hk
    unfold Tasks.result at hk
    split at hk
    · rename_i r hr
      injection hk with hk
      subst hk
      exact hr
    · cases hk
  have hij : i = j := by
    rcases h with h | ⟨_, i0, h⟩
    · exact absurd rfl (h i _ (hkdf i a hi) a)
    · have hi0 : i = i0 := Classical.byContradiction fun hne => h i _ hne (hkdf i a hi) a rfl
      have hj0 : j = i0 := Classical.byContradiction fun hne => h j _ hne (hkdf j b hj) b rfl
      rw [hi0, hj0]
  subst hij
  rw [hi] at hj
  injection hj with hj
  injection hj with hj
  injection hj with hj
  exact ⟨rfl, hj⟩

/-- **C84** Whatever `asend` returns to one coroutine it returns to all of them, in every schedule: the public key of the only ephemeral key of the object. -/
theorem C84_coroutines_one_key (E : DhEnv) (C : Curve Sk Pk) (o : DhObj Sk Pk) (calls : List (DhCall Sk Pk)) (schedule more : List Nat) (i j : Nat) (a b : List Bytes)
    (hi : ((Tasks.begin E C o calls).run schedule).result i = some (.ok (.sent a)))
    (hj : (((Tasks.begin E C o calls).run schedule).run more).result j = some (.ok (.sent b))) : a = b := by
  let P : Tasks Sk Pk → Prop := fun w => ∀ (j : Nat) (c : Call Sk Pk), w.calls[j]? = some c → c.Reads C (o.kind.sends C) ∨ c.Said C (o.kind.sends C) w.attrs
  have h1 : P ((Tasks.begin E C o calls).run schedule) := Tasks.run_ind (P := P) (fun w i h => Tasks.step_said h i) schedule _ (by
    intro j c hc
    simp only [Tasks.begin, List.getElem?_map, Option.map_eq_some_iff] at hc
    obtain ⟨call, _, rfl⟩ := hc
    exact .inl (Call.reads_call C E o.kind call))
  have h2 : P (((Tasks.begin E C o calls).run schedule).run more) := Tasks.run_ind (P := P) (fun w i h => Tasks.step_said h i) more _ h1
  have out : ∀ (w : Tasks Sk Pk) k x, P w → w.result k = some (.ok (.sent x)) → ∃ o' m, w.attrs .myEph = some (.obj o') ∧ o'.publicBytes C = .ok m ∧ x = o.kind.sends C m := by
    intro w k x hP hk
    unfold Tasks.result at hk
    split at hk
    · rename_i r hr
      injection hk with hk
      subst hk
      rcases hP k _ hr with hr | ⟨o', m, h1, h2, h3⟩
      · exact absurd rfl (hr x)
      · injection h3 with h3
        injection h3 with h3
        injection h3 with h3
        exact ⟨o', m, h1, h2, h3⟩
    · cases hk
  obtain ⟨o1, m1, ha1, hm1, rfl⟩ := out _ i a h1 hi
  obtain ⟨o2, m2, ha2, hm2, rfl⟩ := out _ j b h2 hj
  have := Tasks.run_ind (P := fun w => w.attrs .myEph = some (.obj o1)) (fun w i h => Tasks.step_keeps w i h) more _ ha1
  rw [this] at ha2
  injection ha2 with ha2
  injection ha2 with ha2
  subst ha2
  rw [hm1] at hm2
  injection hm2 with hm2
  rw [hm2]

/-- **C84** An attribute that was assigned keeps its value, whatever coroutines do. This holds for every program of reads and assignments, so for every
`FrozenInstance`. -/
theorem C84_coroutines_attributes_fixed (w : Tasks Sk Pk) (schedule : List Nat) (n : Slot) (v : Val Sk Pk) (h : w.attrs n = some v) : (w.run schedule).attrs n = some v :=
  Tasks.run_ind (P := fun w => w.attrs n = some v) (fun w i h => Tasks.step_keeps w i h) schedule w h

/-! ### threads -/

/-- An object of a kind with calls of threads that are about to begin. -/
def Users.begin (E : DhEnv) (C : Curve Sk Pk) (o : DhObj Sk Pk) (calls : List (DhCall Sk Pk)) : Users Sk Pk := ⟨o.attrs, calls.map fun c => (o.kind.call C E c, false)⟩

/-- **C84** It does not hold for threads: of every two peers that a new server object would accept each for itself, both can get a kdf, from the same object at
the same time. -/
theorem C84_threads_two_kdfs (E : DhEnv) (C : Curve Sk Pk) (myId : KeyObj Sk Pk) (fresh fresh' : Sk) (x y : Given Pk) (a b : Bytes)
    (hx : ((Server2.mk myId none none).receive C E fresh x).2 = .ok a) (hy : ((Server2.mk myId none none).receive C E fresh' y).2 = .ok b) :
    ∃ schedule, let w := (Users.begin E C (.server2 ⟨myId, none, none⟩) [.receive fresh .other x, .receive fresh' .other y]).run schedule
      w.result 0 = some (.ok (.kdf a)) ∧ w.result 1 = some (.ok (.kdf b)) := by
  refine ⟨[0, 0, 1, 1, 0, 1, 0, 1, 0, 1, 0, 0, 1, 1], ?_⟩
  simp only [Server2.receive, Option.isSome_none, Bool.false_eq_true, if_false] at hx hy
  cases hp : C.processPublic x with
  | error e => rw [hp] at hx; cases hx
  | ok p =>
    cases hq : C.processPublic y with
    | error e => rw [hq] at hy; cases hy
    | ok q =>
      simp only [hp, hq, Server2.derive] at hx hy
      cases h1 : myId.exchange C p with
      | error e => rw [h1] at hx; cases hx
      | ok ad =>
        cases h2 : (KeyObj.generated C fresh).exchange C p with
        | error e => rw [h1, h2] at hx; cases hx
        | ok cd =>
          cases h3 : myId.exchange C q with
          | error e => rw [h3] at hy; cases hy
          | ok ad' =>
            cases h4 : (KeyObj.generated C fresh').exchange C q with
            | error e => rw [h3, h4] at hy; cases hy
            | ok cd' =>
              cases h5 : myId.publicBytes C with
              | error e => rw [h1, h2, h5] at hx; cases hx
              | ok identity =>
                have hx' : E.kdf E.dh2 [C.rawPublic p, identity, C.rawPublic (C.publicOf fresh)] (ad ++ cd) = .ok a := by rw [h1, h2, h5] at hx; exact hx
                have hy' : E.kdf E.dh2 [C.rawPublic q, identity, C.rawPublic (C.publicOf fresh')] (ad' ++ cd') = .ok b := by rw [h3, h4, h5] at hy; exact hy
                simp [Users.begin, Users.run, Users.step, Users.result, DhObj.kind, DhObj.attrs, DhKind.call, Call.serve2, Call.access, Call.and, Attrs.put, hp, hq, h1, h2, h3, h4, h5,
                  generated_publicBytes, hx', hy']

/-- **C84** A client object with an ephemeral key can be made to derive kdfs with two peers' keys by two threads, although each key should be used once. One of
the kdfs has a secret that was made with the key of one peer and a transcript with the key of the other. -/
theorem C84_threads_mixed_transcript (E : DhEnv) (C : Curve Sk Pk) (k : KeyObj Sk Pk) (i p q : Pk) (ad cd cd' mine a b : Bytes)
    (h1 : k.exchange C i = .ok ad) (h2 : k.exchange C p = .ok cd) (h3 : k.exchange C q = .ok cd') (h4 : k.publicBytes C = .ok mine)
    (ha : E.kdf E.dh2 [mine, C.rawPublic i, C.rawPublic q] (ad ++ cd) = .ok a) (hb : E.kdf E.dh2 [mine, C.rawPublic i, C.rawPublic q] (ad ++ cd') = .ok b) (fresh : Sk) :
    ∃ schedule, let w := (Users.begin E C (.client2 ⟨some i, some k, none⟩) [.receive fresh .other (.key p), .receive fresh .other (.key q)]).run schedule
      w.result 0 = some (.ok (.kdf a)) ∧ w.result 1 = some (.ok (.kdf b)) := by
  refine ⟨[0, 0, 1, 1, 0, 1, 0, 1, 0, 0, 0, 0, 1, 1, 1, 1], ?_⟩
  simp [Users.begin, Users.run, Users.step, Users.result, DhObj.kind, DhObj.attrs, DhKind.call, Call.receive2, Call.access, Call.and, Call.getObj, Call.getPk, Attrs.put, h1, h2, h3, h4,
    ha, hb, Curve.processPublic]

/-- The hypotheses of the last two theorems can be met. -/
example : (((Server2.mk (KeyObj.generated toy 5) none none).receive toy toyEnv 7 (.key 3)).2.toOption).isSome = true ∧
    (((Server2.mk (KeyObj.generated toy 5) none none).receive toy toyEnv 8 (.bytes (toy.rawPublic 9))).2.toOption).isSome = true ∧
    ((KeyObj.generated toy 5).exchange toy 3).toOption.isSome = true ∧ ((KeyObj.generated toy 5).exchange toy 9).toOption.isSome = true ∧
    (toyEnv.kdf toyEnv.dh2 [toy.rawPublic 5, toy.rawPublic 2, toy.rawPublic 3] [1, 2]).toOption.isSome = true := by
  decide +kernel

example : ((Tasks.begin toyEnv toy (.server2 ⟨KeyObj.generated toy 5, none, none⟩) [.receive 7 .other (.bytes (toy.rawPublic 3)), .send 0 .other, .receive 8 .other (.bytes (toy.rawPublic 9))]).run
    [0, 2, 0, 1, 2, 0, 0]).result 1 = some (.ok (.sent [toy.rawPublic 7])) ∧
    ((Tasks.begin toyEnv toy (.server2 ⟨KeyObj.generated toy 5, none, none⟩) [.receive 7 .other (.bytes (toy.rawPublic 3)), .send 0 .other, .receive 8 .other (.bytes (toy.rawPublic 9))]).run
    [0, 2, 0, 1, 2, 0, 0]).result 2 = some (.error .permission) ∧
    (((Tasks.begin toyEnv toy (.server2 ⟨KeyObj.generated toy 5, none, none⟩) [.receive 7 .other (.bytes (toy.rawPublic 3)), .send 0 .other, .receive 8 .other (.bytes (toy.rawPublic 9))]).run
    [0, 2, 0, 1, 2, 0, 0]).result 0).isSome = true := by
  decide +kernel

end Aiootp.Keys
