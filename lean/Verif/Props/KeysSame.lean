import Verif.Props.Keys

/-
Property C61: two exchanges, of any kinds and sides, that end with the same kdf object.
-/

namespace Aiootp.Keys

open Kdf Canon

variable {Sk Pk : Type}

/-- One side of an exchange from its beginning to its end: its secret keys, then what it is given. -/
inductive Exchange (Sk Pk : Type) where
  /-- a client without an identity key: the identity key of the server, and the ephemeral key that is received -/
  | client2 (ephemeral : Sk) (serverId serverEph : Given Pk)
  | server2 (identity ephemeral : Sk) (clientEph : Given Pk)
  | client3 (identity ephemeral : Sk) (serverId serverEph : Given Pk)
  | server3 (identity ephemeral : Sk) (clientId clientEph : Given Pk)

namespace Exchange

/-- The kdf object that this side ends with. -/
def result (E : DhEnv) (C : Curve Sk Pk) : Exchange Sk Pk → Except Err Bytes
  | client2 ephemeral serverId serverEph => ((({} : Client2 Sk Pk).send C ephemeral serverId).1.receive C E serverEph).2
  | server2 identity ephemeral clientEph => ((Server2.mk (KeyObj.generated C identity) none none).receive C E ephemeral clientEph).2
  | client3 identity ephemeral serverId serverEph => (((Client3.mk (KeyObj.generated C identity) none none none).send C ephemeral serverId).1.receive C E serverEph).2
  | server3 identity ephemeral clientId clientEph => ((Server3.mk (KeyObj.generated C identity) none none none).receive C E ephemeral clientId clientEph).2

/-- Whether both sides have identity keys. -/
def triple : Exchange Sk Pk → Bool
  | client2 .. | server2 .. => false
  | client3 .. | server3 .. => true

/-- The keys that were used. `publics`: the public keys of the client, then those of the server, with the identity key first. `secrets`: what the ephemeral key of the client and the identity
key of the server have in common, what the identity key of the client and the ephemeral key of the server have in common (3DH), and what the ephemeral keys have in common. -/
def Used (C : Curve Sk Pk) (publics secrets : List Bytes) : Exchange Sk Pk → Prop
  | client2 ephemeral serverId serverEph => ∃ si se ad cd, C.processPublic serverId = .ok si ∧ C.processPublic serverEph = .ok se ∧
      C.exchange ephemeral si = .ok ad ∧ C.exchange ephemeral se = .ok cd ∧
      publics = [C.rawPublic (C.publicOf ephemeral), C.rawPublic si, C.rawPublic se] ∧ secrets = [ad, cd]
  | server2 identity ephemeral clientEph => ∃ ce ad cd, C.processPublic clientEph = .ok ce ∧
      C.exchange identity ce = .ok ad ∧ C.exchange ephemeral ce = .ok cd ∧
      publics = [C.rawPublic ce, C.rawPublic (C.publicOf identity), C.rawPublic (C.publicOf ephemeral)] ∧ secrets = [ad, cd]
  | client3 identity ephemeral serverId serverEph => ∃ si se ad bc cd, C.processPublic serverId = .ok si ∧ C.processPublic serverEph = .ok se ∧
      C.exchange ephemeral si = .ok ad ∧ C.exchange identity se = .ok bc ∧ C.exchange ephemeral se = .ok cd ∧
      publics = [C.rawPublic (C.publicOf identity), C.rawPublic (C.publicOf ephemeral), C.rawPublic si, C.rawPublic se] ∧ secrets = [ad, bc, cd]
  | server3 identity ephemeral clientId clientEph => ∃ ci ce ad bc cd, C.processPublic clientId = .ok ci ∧ C.processPublic clientEph = .ok ce ∧
      C.exchange identity ce = .ok ad ∧ C.exchange ephemeral ci = .ok bc ∧ C.exchange ephemeral ce = .ok cd ∧
      publics = [C.rawPublic ci, C.rawPublic ce, C.rawPublic (C.publicOf identity), C.rawPublic (C.publicOf ephemeral)] ∧ secrets = [ad, bc, cd]

theorem result_form {C : Curve Sk Pk} (hS : Sizes C) (E : DhEnv) (e : Exchange Sk Pk) {k : Bytes} (h : e.result E C = .ok k) : ∃ publics secrets, e.Used C publics secrets ∧
    E.kdf (if e.triple then E.dh3 else E.dh2) publics secrets.flatten = .ok k ∧
    e.result E.messages C = E.messages.kdf (if e.triple then E.dh3 else E.dh2) publics secrets.flatten ∧ (∀ s ∈ secrets, s.length = 32) ∧
    secrets.length = (if e.triple then 3 else 2) ∧ publics.length = (if e.triple then 4 else 3) := by
  cases e with
  | client2 eph peer y =>
    simp only [result] at h
    cases hp : C.processPublic peer with
    | error e => simp [Client2.send, hp, Client2.receive] at h
    | ok p =>
      cases hy : C.processPublic y with
      | error e => simp [Client2.send, hp, Client2.receive, hy] at h
      | ok r =>
        simp only [Client2.send, hp, Client2.receive, hy, Option.isSome_none, Bool.false_eq_true, if_false, Client2.derive, KeyObj.exchange, KeyObj.generated, KeyObj.publicBytes,
          bind_eq_ok] at h
        obtain ⟨a, ha, b, hb, _, h1, h⟩ := h
        injection h1 with h1
        subst h1
        refine ⟨_, _, ⟨p, r, a, b, hp, hy, ha, hb, rfl, rfl⟩, by simpa [triple] using h, ?_, ?_, rfl, rfl⟩
        · simp only [result, Client2.send, hp, Client2.receive, hy, Option.isSome_none, Bool.false_eq_true, if_false, Client2.derive, KeyObj.exchange, KeyObj.generated, KeyObj.publicBytes,
            ha, hb, bind, Except.bind, triple, List.flatten_cons, List.flatten_nil, List.append_nil]
          rfl
        · simp [hS.shared _ _ _ ha, hS.shared _ _ _ hb]
  | server2 identity eph x =>
    simp only [result] at h
    cases hx : C.processPublic x with
    | error e => simp [Server2.receive, hx] at h
    | ok q =>
      simp only [Server2.receive, hx, Option.isSome_none, Bool.false_eq_true, if_false, Server2.derive, KeyObj.exchange, KeyObj.generated, KeyObj.publicBytes, bind_eq_ok] at h
      obtain ⟨a, ha, b, hb, _, h1, _, h2, h⟩ := h
      injection h1 with h1
      injection h2 with h2
      subst h1 h2
      refine ⟨_, _, ⟨q, a, b, hx, ha, hb, rfl, rfl⟩, by simpa [triple] using h, ?_, ?_, rfl, rfl⟩
      · simp only [result, Server2.receive, hx, Option.isSome_none, Bool.false_eq_true, if_false, Server2.derive, KeyObj.exchange, KeyObj.generated, KeyObj.publicBytes,
          ha, hb, bind, Except.bind, triple, List.flatten_cons, List.flatten_nil, List.append_nil]
        rfl
      · simp [hS.shared _ _ _ ha, hS.shared _ _ _ hb]
  | client3 identity eph peer y =>
    simp only [result] at h
    cases hp : C.processPublic peer with
    | error e => simp [Client3.send, hp, Client3.receive] at h
    | ok p =>
      cases hy : C.processPublic y with
      | error e => simp [Client3.send, hp, Client3.receive, hy] at h
      | ok r =>
        simp only [Client3.send, hp, Client3.receive, hy, Option.isSome_none, Bool.false_eq_true, if_false, Client3.derive, KeyObj.exchange, KeyObj.generated, KeyObj.publicBytes,
          bind_eq_ok] at h
        obtain ⟨a, ha, b, hb, c, hc, _, h1, _, h2, h⟩ := h
        injection h1 with h1
        injection h2 with h2
        subst h1 h2
        refine ⟨_, _, ⟨p, r, a, b, c, hp, hy, ha, hb, hc, rfl, rfl⟩, by simpa [triple, List.append_assoc] using h, ?_, ?_, rfl, rfl⟩
        · simp only [result, Client3.send, hp, Client3.receive, hy, Option.isSome_none, Bool.false_eq_true, if_false, Client3.derive, KeyObj.exchange, KeyObj.generated, KeyObj.publicBytes,
            ha, hb, hc, bind, Except.bind, triple, List.flatten_cons, List.flatten_nil, List.append_nil, List.append_assoc]
          rfl
        · simp [hS.shared _ _ _ ha, hS.shared _ _ _ hb, hS.shared _ _ _ hc]
  | server3 identity eph w x =>
    simp only [result] at h
    cases hw : C.processPublic w with
    | error e => simp [Server3.receive, hw] at h
    | ok o =>
      cases hx : C.processPublic x with
      | error e => simp [Server3.receive, hw, hx] at h
      | ok q =>
        simp only [Server3.receive, hw, hx, Option.isSome_none, Bool.false_eq_true, if_false, Server3.derive, KeyObj.exchange, KeyObj.generated, KeyObj.publicBytes, bind_eq_ok] at h
        obtain ⟨a, ha, b, hb, c, hc, _, h1, _, h2, h⟩ := h
        injection h1 with h1
        injection h2 with h2
        subst h1 h2
        refine ⟨_, _, ⟨o, q, a, b, c, hw, hx, ha, hb, hc, rfl, rfl⟩, by simpa [triple, List.append_assoc] using h, ?_, ?_, rfl, rfl⟩
        · simp only [result, Server3.receive, hw, hx, Option.isSome_none, Bool.false_eq_true, if_false, Server3.derive, KeyObj.exchange, KeyObj.generated, KeyObj.publicBytes,
            ha, hb, hc, bind, Except.bind, triple, List.flatten_cons, List.flatten_nil, List.append_nil, List.append_assoc]
          rfl
        · simp [hS.shared _ _ _ ha, hS.shared _ _ _ hb, hS.shared _ _ _ hc]

theorem flatten_same {n : Nat} : ∀ {a b : List Bytes}, (∀ s ∈ a, s.length = n) → (∀ s ∈ b, s.length = n) → a.length = b.length → a.flatten = b.flatten → a = b
  | [], [], _, _, _, _ => rfl
  | [], _ :: _, _, _, h, _ => by simp at h
  | _ :: _, [], _, _, h, _ => by simp at h
  | x :: a, y :: b, ha, hb, hl, h => by
    simp only [List.flatten_cons] at h
    obtain ⟨e1, e2⟩ := List.append_inj h ((ha x (by simp)).trans (hb y (by simp)).symm)
    rw [e1, flatten_same (fun s hs => ha s (by simp [hs])) (fun s hs => hb s (by simp [hs])) (by simpa using hl) e2]

end Exchange

/-- **C61** Two sides, of the same or of two exchanges, with honest or hostile keys, that end with the same kdf object: they used the same public keys and the same shared secrets in the same
places, in exchanges of the same kind; or the two messages that they hash are a collision. -/
theorem C61_same (E : DhEnv) (hE : E.Fits) (C : Curve Sk Pk) (hS : Sizes C) (e e' : Exchange Sk Pk) {k : Bytes} (h : e.result E C = .ok k) (h' : e'.result E C = .ok k) :
    (∃ m m', e.result E.messages C = .ok (E.salt ++ m) ∧ e'.result E.messages C = .ok (E.salt ++ m') ∧ Collide (E.xof.digest · 168) m m') ∨
    (e.triple = e'.triple ∧ ∃ publics secrets, e.Used C publics secrets ∧ e'.Used C publics secrets) := by
  obtain ⟨ps, ss, h1, h2, h3, h4, h5, h6⟩ := e.result_form hS E h
  obtain ⟨ps', ss', g1, g2, g3, g4, g5, g6⟩ := e'.result_form hS E h'
  have hl : ∀ (e : Exchange Sk Pk) (ss : List Bytes), (∀ s ∈ ss, s.length = 32) → ss.length = (if e.triple then 3 else 2) → ss.flatten.length ≤ 96 := by
    intro e ss hs hn
    have hlen : ss.flatten.length = 32 * ss.length := by
      clear hn
      induction ss with
      | nil => rfl
      | cons s ss ih =>
        rw [List.flatten_cons, List.length_append, ih fun s' hs' => hs s' (by simp [hs']), hs s (by simp), List.length_cons]
        omega
    rw [hlen, hn]
    split <;> omega
  have hdom : ∀ b : Bool, (if b then E.dh3 else E.dh2).length = 8 := by
    intro b
    cases b
    · exact hE.dh2
    · exact hE.dh3
  rcases kdf_eq hE (hdom _) (hdom _) (hl e ss h4 h5) (hl e' ss' g4 g5) h2 g2 with ⟨m, m', e1, e2, hcol⟩ | ⟨_, rfl, e3⟩
  · exact .inl ⟨m, m', h3.trans e1, g3.trans e2, hcol⟩
  · have ht : e.triple = e'.triple := by
      rw [g6] at h6
      cases ha : e.triple <;> cases hb : e'.triple <;> simp_all
    rw [ht] at h5
    have hss := Exchange.flatten_same h4 g4 (h5.trans g5.symm) e3
    subst hss
    exact .inr ⟨ht, ps, ss, h1, g1⟩

/-- The client and the server of an exchange on the toy curve end with the same kdf. -/
example : ∃ k, (Exchange.client2 3 (.key 5) (.bytes (toy.rawPublic 7)) : Exchange UInt8 UInt8).result toyEnv toy = .ok k ∧
    (Exchange.server2 5 7 (.bytes (toy.rawPublic 3)) : Exchange UInt8 UInt8).result toyEnv toy = .ok k := by
  obtain ⟨k, h⟩ := C52_dh2_ok toyEnv toyEnv_fits toy toy_lawful toy_sizes 5 3 7 (x := List.replicate 31 0 ++ [15]) (y := List.replicate 31 0 ++ [21]) (by decide) (by decide)
  exact ⟨k, (by decide +kernel : _ = (Exchange.server2 5 7 (.bytes (toy.rawPublic 3)) : Exchange UInt8 UInt8).result toyEnv toy).trans h, h⟩

/-- So do those of a 3DH exchange. -/
example : ∃ k, (Exchange.client3 9 3 (.key 5) (.bytes (toy.rawPublic 7)) : Exchange UInt8 UInt8).result toyEnv toy = .ok k ∧
    (Exchange.server3 5 7 (.bytes (toy.rawPublic 9)) (.bytes (toy.rawPublic 3)) : Exchange UInt8 UInt8).result toyEnv toy = .ok k := by
  obtain ⟨k, h⟩ := C52_dh3_ok toyEnv toyEnv_fits toy toy_lawful toy_sizes 9 5 3 7 (x := List.replicate 31 0 ++ [15]) (y := List.replicate 31 0 ++ [63]) (z := List.replicate 31 0 ++ [21])
    (by decide) (by decide) (by decide)
  exact ⟨k, (by decide +kernel : _ = (Exchange.server3 5 7 (.bytes (toy.rawPublic 9)) (.bytes (toy.rawPublic 3)) : Exchange UInt8 UInt8).result toyEnv toy).trans h, h⟩

end Aiootp.Keys
