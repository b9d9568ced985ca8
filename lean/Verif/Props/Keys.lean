import Verif.Model.Keys
import Verif.Lemmas.PasscryptMessage
import Verif.Spec.Collision

/-!
C52, C53, C61, C62: key objects and key exchanges.
-/

namespace Aiootp.Keys

open Kdf Canon

variable {Sk Pk : Type}

/-- What is known about the curve: both sides of an exchange get the same (or both get an error), and public keys survive their encoding. -/
structure Lawful (C : Curve Sk Pk) : Prop where
  comm : ∀ a b, C.exchange a (C.publicOf b) = C.exchange b (C.publicOf a)
  raw : ∀ p, C.fromPublic (C.rawPublic p) = .ok p

/-- The sizes of X25519. -/
structure Sizes (C : Curve Sk Pk) : Prop where
  pub : ∀ p, (C.rawPublic p).length = 32
  shared : ∀ a p x, C.exchange a p = .ok x → x.length = 32

/-- The sizes of the hash function and of the constants. -/
structure DhEnv.Fits (E : DhEnv) : Prop where
  block : E.xof.blockSize = 168
  kdf : E.kdfDomain.length = 8
  dh2 : E.dh2.length = 8
  dh3 : E.dh3.length = 8

/-- With the identity in place of the hash function: an exchange that is run with it returns the message that it hashes, after the salt of the class. -/
def DhEnv.messages (E : DhEnv) : DhEnv := { E with xof := { E.xof with digest := fun x _ => x } }

theorem Lawful.bytes {C : Curve Sk Pk} (h : Lawful C) (p : Pk) : C.processPublic (.bytes (C.rawPublic p)) = .ok p := h.raw p

/-! ### a toy curve -/

/-- Secret keys are numbers, the shared key is the product. -/
def toy : Curve UInt8 UInt8 where
  publicOf s := s
  exchange a b := if a * b = 0 then .error .value else .ok (List.replicate 31 0 ++ [a * b])
  sign s b := s :: b
  verify p sig b := sig == p :: b
  rawPublic p := List.replicate 31 0 ++ [p]
  rawSecret s := List.replicate 31 0 ++ [s]
  fromPublic b := if b.length = 32 then .ok (b.getLastD 0) else .error .value
  fromSecret b := if b.length = 32 then .ok (b.getLastD 0) else .error .value

theorem toy_lawful : Lawful toy := by
  refine ⟨fun a b => ?_, fun p => ?_⟩
  · simp only [toy, UInt8.mul_comm]
  · simp [toy]

theorem toy_sizes : Sizes toy := by
  refine ⟨fun p => by simp [toy], fun a p x h => ?_⟩
  simp only [toy] at h
  split at h
  · cases h
  · injection h with h; subst h; simp

def toyEnv : DhEnv := ⟨⟨168, 0, fun b n => b.take n⟩, [1], List.replicate 8 1, List.replicate 8 2, List.replicate 8 3⟩

theorem toyEnv_fits : toyEnv.Fits := ⟨rfl, rfl, rfl, rfl⟩

/-! ### the hash inputs of an exchange -/

theorem hashInput_short {coll coll' : List Bytes} {ds : Nat} {size size' : Option Nat} {key key' x : Bytes} (hk : key.length ≤ 151) (hk' : key'.length ≤ 151)
    (h : hashBytesInput coll 168 ds [0] size (some key) = .ok x) (h' : hashBytesInput coll' 168 ds [0] size' (some key') = .ok x) : key = key' ∧ coll = coll' := by
  have hlen : ∀ k : Bytes, k.length ≤ 151 → (Passcrypt.keyed 168 0 k).length = 168 := by
    intro k hk
    have h1 : (Passcrypt.rawKey 168 0 k).length = k.length + 17 := by simp [Passcrypt.rawKey]
    have h2 : ceilDiv (k.length + 17) 168 = 1 := by unfold ceilDiv; omega
    rw [Passcrypt.keyed, List.length_append, h1, Passcrypt.padding, List.length_replicate, h2]
    omega
  have hb : 0 < 168 ∧ 168 < 256 ^ 8 := by decide
  have e : key = key' := by
    simp only [hashBytesInput, keyPrefix, bind_eq_ok] at h h'
    obtain ⟨p, hp, _, _, q, _, hx⟩ := h
    obtain ⟨p', hp', _, _, q', _, hx'⟩ := h'
    obtain ⟨_, rfl⟩ := (Passcrypt.encodeKey_iff hb).1 hp
    obtain ⟨_, rfl⟩ := (Passcrypt.encodeKey_iff hb).1 hp'
    injection hx with hx
    injection hx' with hx'
    rw [← hx'] at hx
    exact Passcrypt.keyed_inj (by decide) (List.append_inj hx (by rw [hlen _ hk, hlen _ hk'])).1
  subst e
  exact ⟨rfl, (C05_same_key_length_partial h h' rfl).2.2.2⟩

theorem kdf_eq {E : DhEnv} (hE : E.Fits) {dom dom' : Bytes} {data data' : List Bytes} {key key' y : Bytes} (hd : dom.length = 8) (hd' : dom'.length = 8)
    (hk : key.length ≤ 96) (hk' : key'.length ≤ 96) (h : E.kdf dom data key = .ok y) (h' : E.kdf dom' data' key' = .ok y) :
    (∃ x x', E.messages.kdf dom data key = .ok (E.salt ++ x) ∧ E.messages.kdf dom' data' key' = .ok (E.salt ++ x') ∧ Collide (E.xof.digest · 168) x x') ∨
      (dom = dom' ∧ data = data' ∧ key = key') := by
  have hm : ∀ {dom : Bytes} {data : List Bytes} {key x : Bytes}, hashBytesInput (E.kdfDomain :: dom :: data) 168 E.xof.digestSize [0] (some 168) (some (key ++ dom)) = .ok x →
      E.messages.kdf dom data key = .ok (E.salt ++ x) := by
    intro dom data key x hx
    simp only [DhEnv.kdf, DhEnv.messages, initialPayload, hashBytes, hE.block, hx, bind, Except.bind]
  simp only [DhEnv.kdf, initialPayload, hashBytes, bind_eq_ok, hE.block] at h h'
  obtain ⟨d, ⟨x, hx, hd1⟩, hy⟩ := h
  obtain ⟨d', ⟨x', hx', hd1'⟩, hy'⟩ := h'
  injection hy with hy
  injection hy' with hy'
  injection hd1 with hd1
  injection hd1' with hd1'
  have he : d = d' := List.append_cancel_left (hy.trans hy'.symm)
  by_cases hxx : x = x'
  · right
    subst hxx
    obtain ⟨h1, h2⟩ := hashInput_short (by simp [hd]; omega) (by simp [hd']; omega) hx hx'
    injection h2 with _ h2
    injection h2 with h2 h3
    refine ⟨h2, h3, ?_⟩
    subst h2
    exact List.append_cancel_right h1
  · exact .inl ⟨x, x', hm hx, hm hx', hxx, hd1.trans (he.trans hd1'.symm)⟩

theorem kdf_total {E : DhEnv} (hE : E.Fits) {dom : Bytes} {data : List Bytes} {key : Bytes} (hd : dom.length = 8) (hk : key.length ≤ 96)
    (hdata : data.length ≤ 4 ∧ ∀ i ∈ data, i.length = 32) : ∃ y, E.kdf dom data key = .ok y := by
  have hb : 0 < 168 ∧ 168 < 256 ^ 8 := by decide
  have h1 : encodeKey (key ++ dom) 168 [0] = .ok (Passcrypt.keyed 168 0 (key ++ dom)) := by
    refine (Passcrypt.encodeKey_iff hb).2 ⟨⟨?_, by simp [hd]; omega⟩, rfl⟩
    intro e
    have : (key ++ dom).length = 0 := by rw [e]; rfl
    simp [hd] at this
  have h2 : ∃ p, canonicalPack (beDigits 8 168 :: E.kdfDomain :: dom :: data) 168 [0] 8 = .ok p := by
    refine ⟨_, (Passcrypt.canonicalPack_iff hb).2 ⟨⟨by simp; omega, ?_⟩, rfl⟩⟩
    intro i hi
    simp only [List.mem_cons] at hi
    rcases hi with rfl | rfl | rfl | hi
    · simp
    · rw [hE.kdf]; decide
    · rw [hd]; decide
    · rw [hdata.2 i hi]; decide
  obtain ⟨p, h2⟩ := h2
  have h3 : toBytesBE 8 168 = .ok (beDigits 8 168) := by rw [toBytesBE, if_pos (by decide)]
  refine ⟨E.salt ++ E.xof.digest (Passcrypt.keyed 168 0 (key ++ dom) ++ p) 168, ?_⟩
  · have h4 : sizeOr (some 168) E.xof.digestSize = 168 := rfl
    simp only [DhEnv.kdf, initialPayload, hashBytes, hashBytesInput, keyPrefix, hE.block, h1, h4, h3, h2, bind, Except.bind]

/-! ### C52 -/

/-- **C52** 2DH: the server gets what the client sent, the client gets what the server sent. Then both have the same kdf, or both calls raise the same exception. -/
theorem C52_dh2 (E : DhEnv) (C : Curve Sk Pk) (hC : Lawful C) (identity clientKey serverKey : Sk) (peer : Given Pk) (hp : C.processPublic peer = .ok (C.publicOf identity)) :
    ∃ m m', (({} : Client2 Sk Pk).send C clientKey peer).2 = .ok m ∧
      ((Server2.mk (KeyObj.generated C identity) none none).receive C E serverKey (.bytes m)).1.send C = .ok m' ∧
      ((({} : Client2 Sk Pk).send C clientKey peer).1.receive C E (.bytes m')).2 =
        ((Server2.mk (KeyObj.generated C identity) none none).receive C E serverKey (.bytes m)).2 := by
  refine ⟨C.rawPublic (C.publicOf clientKey), C.rawPublic (C.publicOf serverKey), ?_, ?_, ?_⟩
  · simp [Client2.send, hp, KeyObj.publicBytes, KeyObj.generated]
  · simp [Server2.receive, hC.bytes, Server2.send, KeyObj.publicBytes, KeyObj.generated]
  · simp only [Client2.send, hp, Client2.receive, Server2.receive, hC.bytes, Option.isSome_none, Bool.false_eq_true, if_false,
      Client2.derive, Server2.derive, KeyObj.exchange, KeyObj.generated, KeyObj.publicBytes, hC.comm clientKey identity, hC.comm clientKey serverKey, bind, Except.bind]

/-- **C52** 2DH succeeds if the shared keys are not zero. -/
theorem C52_dh2_ok (E : DhEnv) (hE : E.Fits) (C : Curve Sk Pk) (hC : Lawful C) (hS : Sizes C) (identity clientKey serverKey : Sk)
    {x y : Bytes} (hx : C.exchange identity (C.publicOf clientKey) = .ok x) (hy : C.exchange serverKey (C.publicOf clientKey) = .ok y) :
    ∃ kdf, ((Server2.mk (KeyObj.generated C identity) none none).receive C E serverKey (.bytes (C.rawPublic (C.publicOf clientKey)))).2 = .ok kdf := by
  simp only [Server2.receive, hC.bytes, Option.isSome_none, Bool.false_eq_true, if_false,
    Server2.derive, KeyObj.exchange, KeyObj.generated, KeyObj.publicBytes, hx, hy, bind, Except.bind]
  refine kdf_total hE hE.dh2 ?_ ⟨by simp, ?_⟩
  · simp [hS.shared _ _ _ hx, hS.shared _ _ _ hy]
  · intro i hi
    simp only [List.mem_cons, List.not_mem_nil, or_false] at hi
    rcases hi with rfl | rfl | rfl <;> exact hS.pub _

/-- **C52** 3DH: the same with an identity key on both sides. -/
theorem C52_dh3 (E : DhEnv) (C : Curve Sk Pk) (hC : Lawful C) (clientId serverId clientKey serverKey : Sk) (peer : Given Pk)
    (hp : C.processPublic peer = .ok (C.publicOf serverId)) :
    ∃ i m m', ((Client3.mk (KeyObj.generated C clientId) none none none).send C clientKey peer).2 = .ok (i, m) ∧
      ((Server3.mk (KeyObj.generated C serverId) none none none).receive C E serverKey (.bytes i) (.bytes m)).1.send C = .ok m' ∧
      (((Client3.mk (KeyObj.generated C clientId) none none none).send C clientKey peer).1.receive C E (.bytes m')).2 =
        ((Server3.mk (KeyObj.generated C serverId) none none none).receive C E serverKey (.bytes i) (.bytes m)).2 := by
  refine ⟨C.rawPublic (C.publicOf clientId), C.rawPublic (C.publicOf clientKey), C.rawPublic (C.publicOf serverKey), ?_, ?_, ?_⟩
  · simp [Client3.send, hp, KeyObj.publicBytes, KeyObj.generated, bind, Except.bind]
  · simp [Server3.receive, hC.bytes, Server3.send, KeyObj.publicBytes, KeyObj.generated]
  · simp only [Client3.send, hp, Client3.receive, Server3.receive, hC.bytes, Option.isSome_none, Bool.false_eq_true, if_false,
      Client3.derive, Server3.derive, KeyObj.exchange, KeyObj.generated, KeyObj.publicBytes, hC.comm clientKey serverId, hC.comm clientKey serverKey,
      hC.comm clientId serverKey, bind, Except.bind]

/-- **C52** 3DH succeeds if the shared keys are not zero. -/
theorem C52_dh3_ok (E : DhEnv) (hE : E.Fits) (C : Curve Sk Pk) (hC : Lawful C) (hS : Sizes C) (clientId serverId clientKey serverKey : Sk)
    {x y z : Bytes} (hx : C.exchange serverId (C.publicOf clientKey) = .ok x) (hy : C.exchange serverKey (C.publicOf clientId) = .ok y)
    (hz : C.exchange serverKey (C.publicOf clientKey) = .ok z) :
    ∃ kdf, ((Server3.mk (KeyObj.generated C serverId) none none none).receive C E serverKey (.bytes (C.rawPublic (C.publicOf clientId)))
      (.bytes (C.rawPublic (C.publicOf clientKey)))).2 = .ok kdf := by
  simp only [Server3.receive, hC.bytes, Option.isSome_none, Bool.false_eq_true, if_false,
    Server3.derive, KeyObj.exchange, KeyObj.generated, KeyObj.publicBytes, hx, hy, hz, bind, Except.bind]
  refine kdf_total hE hE.dh3 ?_ ⟨by simp, ?_⟩
  · simp [hS.shared _ _ _ hx, hS.shared _ _ _ hy, hS.shared _ _ _ hz]
  · intro i hi
    simp only [List.mem_cons, List.not_mem_nil, or_false] at hi
    rcases hi with rfl | rfl | rfl | rfl <;> exact hS.pub _

example : ∃ m m' kdf, (({} : Client2 UInt8 UInt8).send toy 3 (.key 5)).2 = .ok m ∧
    ((Server2.mk (KeyObj.generated toy 5) none none).receive toy toyEnv 7 (.bytes m)).1.send toy = .ok m' ∧
    ((({} : Client2 UInt8 UInt8).send toy 3 (.key 5)).1.receive toy toyEnv (.bytes m')).2 = .ok kdf := by
  obtain ⟨m, m', h1, h2, h3⟩ := C52_dh2 toyEnv toy toy_lawful 5 3 7 (.key 5) rfl
  obtain ⟨kdf, h4⟩ := C52_dh2_ok toyEnv toyEnv_fits toy toy_lawful toy_sizes 5 3 7 (x := List.replicate 31 0 ++ [15]) (y := List.replicate 31 0 ++ [21]) (by decide) (by decide)
  have hm : m = toy.rawPublic 3 := by
    have : (({} : Client2 UInt8 UInt8).send toy 3 (.key 5)).2 = .ok (toy.rawPublic 3) := rfl
    rw [this] at h1
    injection h1 with h1
    exact h1.symm
  subst hm
  exact ⟨_, m', kdf, h1, h2, h3.trans h4⟩

example : ∃ kdf, ((Server3.mk (KeyObj.generated toy 5) none none none).receive toy toyEnv 7 (.bytes (toy.rawPublic 9)) (.bytes (toy.rawPublic 3))).2 = .ok kdf :=
  C52_dh3_ok toyEnv toyEnv_fits toy toy_lawful toy_sizes 9 5 3 7 (x := List.replicate 31 0 ++ [15]) (y := List.replicate 31 0 ++ [63]) (z := List.replicate 31 0 ++ [21])
    (by decide) (by decide) (by decide)

/-! ### C53 -/

namespace KeyObj

theorem step_fixed {C : Curve Sk Pk} {k : KeyObj Sk Pk} {p : Pk} (h : k.pub = some p) (op : Op Sk Pk) : (k.step C op).1 = k ∧ ∃ e, (k.step C op).2 = .error e := by
  cases op <;> simp [step, importSecret, importPublic, generate, h]

theorem run_fixed {C : Curve Sk Pk} {k : KeyObj Sk Pk} {p : Pk} (h : k.pub = some p) (ops : List (Op Sk Pk)) : k.run C ops = k := by
  induction ops with
  | nil => rfl
  | cons op ops ih => simp only [run, (step_fixed h op).1, ih]

theorem results_fixed {C : Curve Sk Pk} {k : KeyObj Sk Pk} {p : Pk} (h : k.pub = some p) (ops : List (Op Sk Pk)) :
    ∀ r ∈ k.results C ops, ∃ e, r = .error e := by
  induction ops with
  | nil => simp [results]
  | cons op ops ih =>
    simp only [results, (step_fixed h op).1, List.mem_cons, forall_eq_or_imp]
    exact ⟨(step_fixed h op).2, ih⟩

theorem run_append {C : Curve Sk Pk} (ops ops' : List (Op Sk Pk)) : ∀ k : KeyObj Sk Pk, k.run C (ops ++ ops') = (k.run C ops).run C ops' := by
  induction ops with
  | nil => intro k; rfl
  | cons op ops ih => intro k; simp only [List.cons_append, run, ih]

/-- The public key belongs to the secret key. -/
def Paired (C : Curve Sk Pk) (k : KeyObj Sk Pk) : Prop := ∀ s, k.secret = some s → k.pub = some (C.publicOf s)

theorem step_paired {C : Curve Sk Pk} {k : KeyObj Sk Pk} (h : Paired C k) (op : Op Sk Pk) : Paired C (k.step C op).1 := by
  have hs : ∀ g, Paired C (k.importSecret C g).1 := by
    intro g
    unfold importSecret
    split
    · exact h
    · split
      · exact h
      · intro s hs
        injection hs with hs
        rw [← hs]
  cases op with
  | importSecret g => exact hs g
  | generate s => exact hs _
  | importPublic g =>
    simp only [step, importPublic]
    split
    · exact h
    · split <;> (intro s hs; cases hs)
  | setattr _ => exact h
  | delattr _ => exact h
  | init => exact h

end KeyObj

/-- **C53** From a new key object, after any history: the public key belongs to the secret key, if there is one. Once there is a public key, nothing
changes it or the secret key, and every further operation raises. -/
theorem C53_write_once (C : Curve Sk Pk) (ops : List (KeyObj.Op Sk Pk)) :
    (∀ s, (({} : KeyObj Sk Pk).run C ops).secret = some s → (({} : KeyObj Sk Pk).run C ops).pub = some (C.publicOf s)) ∧
    ∀ p, (({} : KeyObj Sk Pk).run C ops).pub = some p → ∀ more,
      (({} : KeyObj Sk Pk).run C (ops ++ more)) = ({} : KeyObj Sk Pk).run C ops ∧
      ∀ r ∈ (({} : KeyObj Sk Pk).run C ops).results C more, ∃ e, r = .error e := by
  constructor
  · have : ∀ ops (k : KeyObj Sk Pk), KeyObj.Paired C k → KeyObj.Paired C (k.run C ops) := by
      intro ops
      induction ops with
      | nil => intro k h; exact h
      | cons op ops ih => intro k h; exact ih _ (KeyObj.step_paired h op)
    exact this ops {} (by intro s hs; cases hs)
  · intro p hp more
    rw [KeyObj.run_append, KeyObj.run_fixed hp]
    exact ⟨rfl, KeyObj.results_fixed hp more⟩

/-- **C53** Importing keys into a new object: it holds what was imported, or nothing if the argument is refused. -/
theorem C53_imports (C : Curve Sk Pk) :
    (∀ s, (({} : KeyObj Sk Pk).run C [.importSecret (.key s)]) = ⟨some s, some (C.publicOf s)⟩ ∧ (({} : KeyObj Sk Pk).run C [.generate s]) = ⟨some s, some (C.publicOf s)⟩) ∧
    (∀ p, (({} : KeyObj Sk Pk).run C [.importPublic (.key p)]) = ⟨none, some p⟩) ∧
    (∀ b s, C.fromSecret b = .ok s → (({} : KeyObj Sk Pk).run C [.importSecret (.bytes b)]) = ⟨some s, some (C.publicOf s)⟩) ∧
    (∀ b e, C.fromSecret b = .error e → (({} : KeyObj Sk Pk).run C [.importSecret (.bytes b)]) = {}) ∧
    (∀ b p, C.fromPublic b = .ok p → (({} : KeyObj Sk Pk).run C [.importPublic (.bytes b)]) = ⟨none, some p⟩) ∧
    (∀ b e, C.fromPublic b = .error e → (({} : KeyObj Sk Pk).run C [.importPublic (.bytes b)]) = {}) := by
  refine ⟨fun s => ⟨rfl, rfl⟩, fun p => rfl, ?_, ?_, ?_, ?_⟩
  all_goals
    intro b x h
    simp [KeyObj.run, KeyObj.step, KeyObj.importSecret, KeyObj.importPublic, Curve.processSecret, Curve.processPublic, h]

example : (({} : KeyObj UInt8 UInt8).run toy [.importPublic .other, .importSecret (.bytes [1]), .generate 4, .importSecret (.key 9), .importPublic (.key 8), .init]) = ⟨some 4, some 4⟩ := rfl

/-! ### C61: the transcript is bound -/

/-- **C61** 2DH with an adversary in between, who delivers any keys `x` and `y`: if both sides derive the same kdf, then the server received what the client
sent, the client received what the server sent, and the client meant this server; or the two messages that the client and the server hash are a collision. -/
theorem C61_dh2_bound (E : DhEnv) (hE : E.Fits) (C : Curve Sk Pk) (hS : Sizes C) (identity clientKey serverKey : Sk) (peer x y : Given Pk) {k : Bytes}
    (hc : ((({} : Client2 Sk Pk).send C clientKey peer).1.receive C E y).2 = .ok k)
    (hs : ((Server2.mk (KeyObj.generated C identity) none none).receive C E serverKey x).2 = .ok k) :
    (∃ m m', ((({} : Client2 Sk Pk).send C clientKey peer).1.receive C E.messages y).2 = .ok (E.salt ++ m) ∧
      ((Server2.mk (KeyObj.generated C identity) none none).receive C E.messages serverKey x).2 = .ok (E.salt ++ m') ∧ Collide (E.xof.digest · 168) m m') ∨
    ∃ p q r, C.processPublic peer = .ok p ∧ C.processPublic x = .ok q ∧ C.processPublic y = .ok r ∧
      C.rawPublic p = C.rawPublic (C.publicOf identity) ∧ C.rawPublic q = C.rawPublic (C.publicOf clientKey) ∧ C.rawPublic r = C.rawPublic (C.publicOf serverKey) := by
  cases hp : C.processPublic peer with
  | error e => simp [Client2.send, hp, Client2.receive] at hc
  | ok p =>
    cases hy : C.processPublic y with
    | error e => simp [Client2.send, hp, Client2.receive, hy] at hc
    | ok r =>
      cases hx : C.processPublic x with
      | error e => simp [Server2.receive, hx] at hs
      | ok q =>
        simp only [Client2.send, hp, Client2.receive, hy, Server2.receive, hx, Option.isSome_none, Bool.false_eq_true, if_false, Client2.derive, Server2.derive,
          KeyObj.exchange, KeyObj.generated, KeyObj.publicBytes, bind_eq_ok] at hc hs
        obtain ⟨a, ha, b, hb, _, h1, hc⟩ := hc
        obtain ⟨a', ha', b', hb', _, h2, _, h3, hs⟩ := hs
        injection h1 with h1
        injection h2 with h2
        injection h3 with h3
        subst h1 h2 h3
        have l1 := hS.shared _ _ _ ha
        have l2 := hS.shared _ _ _ hb
        have l3 := hS.shared _ _ _ ha'
        have l4 := hS.shared _ _ _ hb'
        refine (kdf_eq hE hE.dh2 hE.dh2 (by simp; omega) (by simp; omega) hc hs).imp ?_ ?_
        · rintro ⟨m, m', hm, hm', hcol⟩
          refine ⟨m, m', ?_, ?_, hcol⟩
          · simp only [Client2.send, hp, Client2.receive, hy, Option.isSome_none, Bool.false_eq_true, if_false, Client2.derive, KeyObj.exchange, KeyObj.generated, KeyObj.publicBytes, ha, hb,
              bind, Except.bind]
            exact hm
          · simp only [Server2.receive, hx, Option.isSome_none, Bool.false_eq_true, if_false, Server2.derive, KeyObj.exchange, KeyObj.generated, KeyObj.publicBytes, ha', hb', bind,
              Except.bind]
            exact hm'
        rintro ⟨_, h, _⟩
        injection h with e1 h
        injection h with e2 h
        injection h with e3 h
        exact ⟨p, q, r, rfl, rfl, rfl, e2, e1.symm, e3⟩

/-- **C61** 3DH with an adversary in between: the same, and the server has the identity key of this client. -/
theorem C61_dh3_bound (E : DhEnv) (hE : E.Fits) (C : Curve Sk Pk) (hS : Sizes C) (clientId serverId clientKey serverKey : Sk) (peer w x y : Given Pk) {k : Bytes}
    (hc : (((Client3.mk (KeyObj.generated C clientId) none none none).send C clientKey peer).1.receive C E y).2 = .ok k)
    (hs : ((Server3.mk (KeyObj.generated C serverId) none none none).receive C E serverKey w x).2 = .ok k) :
    (∃ m m', (((Client3.mk (KeyObj.generated C clientId) none none none).send C clientKey peer).1.receive C E.messages y).2 = .ok (E.salt ++ m) ∧
      ((Server3.mk (KeyObj.generated C serverId) none none none).receive C E.messages serverKey w x).2 = .ok (E.salt ++ m') ∧ Collide (E.xof.digest · 168) m m') ∨
    ∃ p o q r, C.processPublic peer = .ok p ∧ C.processPublic w = .ok o ∧ C.processPublic x = .ok q ∧ C.processPublic y = .ok r ∧
      C.rawPublic p = C.rawPublic (C.publicOf serverId) ∧ C.rawPublic o = C.rawPublic (C.publicOf clientId) ∧
      C.rawPublic q = C.rawPublic (C.publicOf clientKey) ∧ C.rawPublic r = C.rawPublic (C.publicOf serverKey) := by
  cases hp : C.processPublic peer with
  | error e => simp [Client3.send, hp, Client3.receive] at hc
  | ok p =>
    cases hy : C.processPublic y with
    | error e => simp [Client3.send, hp, Client3.receive, hy] at hc
    | ok r =>
      cases hw : C.processPublic w with
      | error e => simp [Server3.receive, hw] at hs
      | ok o =>
        cases hx : C.processPublic x with
        | error e => simp [Server3.receive, hw, hx] at hs
        | ok q =>
          simp only [Client3.send, hp, Client3.receive, hy, Server3.receive, hw, hx, Option.isSome_none, Bool.false_eq_true, if_false, Client3.derive, Server3.derive,
            KeyObj.exchange, KeyObj.generated, KeyObj.publicBytes, bind_eq_ok] at hc hs
          obtain ⟨a, ha, b, hb, c, hcc, _, h1, _, h1', hc⟩ := hc
          obtain ⟨a', ha', b', hb', c', hcc', _, h2, _, h3, hs⟩ := hs
          injection h1 with h1
          injection h1' with h1'
          injection h2 with h2
          injection h3 with h3
          subst h1 h1' h2 h3
          have l1 := hS.shared _ _ _ ha
          have l2 := hS.shared _ _ _ hb
          have l3 := hS.shared _ _ _ ha'
          have l4 := hS.shared _ _ _ hb'
          have l5 := hS.shared _ _ _ hcc
          have l6 := hS.shared _ _ _ hcc'
          refine (kdf_eq hE hE.dh3 hE.dh3 (by simp; omega) (by simp; omega) hc hs).imp ?_ ?_
          · rintro ⟨m, m', hm, hm', hcol⟩
            refine ⟨m, m', ?_, ?_, hcol⟩
            · simp only [Client3.send, hp, Client3.receive, hy, Option.isSome_none, Bool.false_eq_true, if_false, Client3.derive, KeyObj.exchange, KeyObj.generated, KeyObj.publicBytes, ha, hb,
                hcc, bind, Except.bind]
              exact hm
            · simp only [Server3.receive, hw, hx, Option.isSome_none, Bool.false_eq_true, if_false, Server3.derive, KeyObj.exchange, KeyObj.generated, KeyObj.publicBytes, ha', hb', hcc', bind,
                Except.bind]
              exact hm'
          rintro ⟨_, h, _⟩
          injection h with e1 h
          injection h with e2 h
          injection h with e3 h
          injection h with e4 h
          exact ⟨p, o, q, r, rfl, rfl, rfl, rfl, e3, e1.symm, e2.symm, e4⟩

/-- **C61** A 2DH and a 3DH exchange never derive the same kdf, unless the two messages that are hashed are a collision. -/
theorem C61_kinds_differ (E : DhEnv) (hE : E.Fits) (hd : E.dh2 ≠ E.dh3) (C : Curve Sk Pk) (hS : Sizes C) (s : Server2 Sk Pk) (s' : Server3 Sk Pk) (fresh fresh' : Sk)
    (x w y : Given Pk) {k : Bytes} (h : (s.receive C E fresh x).2 = .ok k) (h' : (s'.receive C E fresh' w y).2 = .ok k) :
    ∃ m m', (s.receive C E.messages fresh x).2 = .ok (E.salt ++ m) ∧ (s'.receive C E.messages fresh' w y).2 = .ok (E.salt ++ m') ∧ Collide (E.xof.digest · 168) m m' := by
  have hex : ∀ (o : KeyObj Sk Pk) p z, o.exchange C p = .ok z → z.length = 32 := by
    intro o p z hz
    unfold KeyObj.exchange at hz
    split at hz
    · cases hz
    · exact hS.shared _ _ _ hz
  have get : ∀ {k : Bytes}, (s.receive C E fresh x).2 = .ok k → ∃ data key, key.length ≤ 96 ∧ E.kdf E.dh2 data key = .ok k ∧
      (s.receive C E.messages fresh x).2 = E.messages.kdf E.dh2 data key := by
    intro k h
    simp only [Server2.receive] at h ⊢
    split at h
    · cases h
    rename_i h1
    split at h
    · cases h
    split at h
    · cases h
    rename_i q hq _ _ h2
    simp only [h1, h2, if_false]
    simp only [Server2.derive, bind_eq_ok] at h ⊢
    obtain ⟨a, ha, b, hb, c, hc, d, hd, h⟩ := h
    have l1 := hex _ _ _ ha
    have l2 := hex _ _ _ hb
    exact ⟨_, _, by simp; omega, h, by simp only [ha, hb, hc, hd, bind, Except.bind]; rfl⟩
  have get' : ∀ {k : Bytes}, (s'.receive C E fresh' w y).2 = .ok k → ∃ data key, key.length ≤ 96 ∧ E.kdf E.dh3 data key = .ok k ∧
      (s'.receive C E.messages fresh' w y).2 = E.messages.kdf E.dh3 data key := by
    intro k h
    simp only [Server3.receive] at h ⊢
    split at h
    · cases h
    rename_i h1
    split at h
    · cases h
    split at h
    · cases h
    rename_i h2
    split at h
    · cases h
    split at h
    · cases h
    rename_i h3
    simp only [h1, h2, h3, if_false]
    simp only [Server3.derive, bind_eq_ok] at h ⊢
    obtain ⟨a, ha, b, hb, e, he, c, hc, d, hd, h⟩ := h
    have l1 := hex _ _ _ ha
    have l2 := hex _ _ _ hb
    have l3 := hex _ _ _ he
    exact ⟨_, _, by simp; omega, h, by simp only [ha, hb, he, hc, hd, bind, Except.bind]; rfl⟩
  obtain ⟨data, key, hl, hk, hm⟩ := get h
  obtain ⟨data', key', hl', hk', hm'⟩ := get' h'
  rcases kdf_eq hE hE.dh2 hE.dh3 hl hl' hk hk' with ⟨m, m', e, e', hcol⟩ | ⟨e, _⟩
  · exact ⟨m, m', hm.trans e, hm'.trans e', hcol⟩
  · exact absurd e hd

/-! ### C62: exchange objects are used once -/

/-- A kdf was returned. -/
def DhResult.isKdf : DhResult → Bool
  | .derived (.ok _) => true
  | _ => false

/-- The object cannot derive a kdf any more. -/
def DhObj.Spent : DhObj Sk Pk → Prop
  | .client2 c => c.peerEph.isSome = true
  | .server2 s => s.myEph.isSome = true
  | .client3 c => c.peerEph.isSome = true
  | .server3 s => s.myEph.isSome = true

theorem spent_step {E : DhEnv} {C : Curve Sk Pk} {o : DhObj Sk Pk} (h : o.Spent) (call : DhCall Sk Pk) :
    (o.step E C call).1.Spent ∧ (o.step E C call).2.isKdf = false := by
  cases o with
  | client2 c =>
    simp only [DhObj.Spent] at h
    cases call with
    | send fresh g =>
      simp only [DhObj.step, DhObj.Spent, Client2.send, DhResult.isKdf, and_true]
      split
      · exact h
      · split
        · exact h
        · split <;> exact h
    | receive fresh g g' =>
      simp only [DhObj.step, DhObj.Spent, Client2.receive]
      split
      · split
        · exact ⟨h, rfl⟩
        · simp only [h, if_true]; exact ⟨trivial, rfl⟩
      · exact ⟨h, rfl⟩
  | server2 s =>
    simp only [DhObj.Spent] at h
    cases call with
    | send fresh g => exact ⟨h, rfl⟩
    | receive fresh g g' => simp [DhObj.step, DhObj.Spent, Server2.receive, h, DhResult.isKdf]
  | client3 c =>
    simp only [DhObj.Spent] at h
    cases call with
    | send fresh g =>
      simp only [DhObj.step, DhObj.Spent, Client3.send, DhResult.isKdf, and_true]
      split
      · exact h
      · split
        · exact h
        · split <;> exact h
    | receive fresh g g' =>
      simp only [DhObj.step, DhObj.Spent, Client3.receive]
      split
      · split
        · exact ⟨h, rfl⟩
        · simp only [h, if_true]; exact ⟨trivial, rfl⟩
      · exact ⟨h, rfl⟩
  | server3 s =>
    simp only [DhObj.Spent] at h
    cases call with
    | send fresh g => exact ⟨h, rfl⟩
    | receive fresh g g' => simp [DhObj.step, DhObj.Spent, Server3.receive, h, DhResult.isKdf]

theorem kdf_spends {E : DhEnv} {C : Curve Sk Pk} {o : DhObj Sk Pk} {call : DhCall Sk Pk} (h : (o.step E C call).2.isKdf = true) : (o.step E C call).1.Spent := by
  cases o with
  | client2 c =>
    cases call with
    | send fresh g => cases h
    | receive fresh g g' =>
      cases he : c.myEph with
      | none => simp [DhObj.step, Client2.receive, he, DhResult.isKdf] at h
      | some k =>
        cases hp : c.peerId with
        | none => simp [DhObj.step, Client2.receive, he, hp, DhResult.isKdf] at h
        | some p =>
          cases hg : C.processPublic g' with
          | error e => simp [DhObj.step, Client2.receive, he, hp, hg, DhResult.isKdf] at h
          | ok q =>
            simp only [DhObj.step, DhObj.Spent, Client2.receive, he, hp, hg]
            split
            · assumption
            · rfl
  | server2 s =>
    cases call with
    | send fresh g => cases h
    | receive fresh g g' =>
      simp only [DhObj.step, DhObj.Spent, Server2.receive]
      split
      · assumption
      · split
        · rfl
        · split <;> rfl
  | client3 c =>
    cases call with
    | send fresh g => cases h
    | receive fresh g g' =>
      cases he : c.myEph with
      | none => simp [DhObj.step, Client3.receive, he, DhResult.isKdf] at h
      | some k =>
        cases hp : c.peerId with
        | none => simp [DhObj.step, Client3.receive, he, hp, DhResult.isKdf] at h
        | some p =>
          cases hg : C.processPublic g' with
          | error e => simp [DhObj.step, Client3.receive, he, hp, hg, DhResult.isKdf] at h
          | ok q =>
            simp only [DhObj.step, DhObj.Spent, Client3.receive, he, hp, hg]
            split
            · assumption
            · rfl
  | server3 s =>
    cases call with
    | send fresh g => cases h
    | receive fresh g g' =>
      simp only [DhObj.step, DhObj.Spent, Server3.receive]
      split
      · assumption
      · split
        · rfl
        · split
          · rfl
          · split
            · rfl
            · split <;> rfl

theorem spent_results {E : DhEnv} {C : Curve Sk Pk} (calls : List (DhCall Sk Pk)) : ∀ {o : DhObj Sk Pk}, o.Spent → (o.results E C calls).filter DhResult.isKdf = [] := by
  induction calls with
  | nil => intro o _; rfl
  | cons call calls ih =>
    intro o h
    simp only [DhObj.results, List.filter_cons, (spent_step h call).2, ih (spent_step (E := E) (C := C) h call).1]
    rfl

/-- **C62** An exchange object returns at most one kdf, in every sequence of calls. -/
theorem C62_one_kdf (E : DhEnv) (C : Curve Sk Pk) (calls : List (DhCall Sk Pk)) : ∀ o : DhObj Sk Pk, ((o.results E C calls).filter DhResult.isKdf).length ≤ 1 := by
  induction calls with
  | nil => intro o; exact Nat.zero_le _
  | cons call calls ih =>
    intro o
    simp only [DhObj.results, List.filter_cons]
    by_cases h : (o.step E C call).2.isKdf = true
    · rw [if_pos h, spent_results calls (kdf_spends h)]
      exact Nat.le_refl _
    · rw [if_neg h]; exact ih _

/-- Every later `send` that succeeds returns `m`. -/
def DhObj.Fixed (C : Curve Sk Pk) (m : List Bytes) : DhObj Sk Pk → Prop
  | .client2 c => c.peerId.isSome = true
  | .server2 s => ∃ k x, s.myEph = some k ∧ k.publicBytes C = .ok x ∧ m = [x]
  | .client3 c => c.peerId.isSome = true
  | .server3 s => ∃ k x, s.myEph = some k ∧ k.publicBytes C = .ok x ∧ m = [x]

theorem fixed_step {E : DhEnv} {C : Curve Sk Pk} {m : List Bytes} {o : DhObj Sk Pk} (h : o.Fixed C m) (call : DhCall Sk Pk) :
    (o.step E C call).1.Fixed C m ∧ ∀ b, (o.step E C call).2 = .sent (.ok b) → b = m := by
  cases o with
  | client2 c =>
    simp only [DhObj.Fixed] at h
    cases call with
    | send fresh g =>
      simp only [DhObj.step, DhObj.Fixed, Client2.send]
      split
      · exact ⟨h, by intro b hb; cases hb⟩
      · rw [if_pos h]; exact ⟨h, by intro b hb; cases hb⟩
    | receive fresh g g' =>
      refine ⟨?_, by intro b hb; cases hb⟩
      simp only [DhObj.step, DhObj.Fixed, Client2.receive]
      split
      · split
        · exact h
        · split <;> exact h
      · exact h
  | server2 s =>
    obtain ⟨k, x, hk, hx, rfl⟩ := h
    cases call with
    | send fresh g =>
      refine ⟨⟨k, x, hk, hx, rfl⟩, ?_⟩
      intro b hb
      simp only [DhObj.step, Server2.send, hk, hx, Except.map, DhResult.sent.injEq, Except.ok.injEq] at hb
      exact hb.symm
    | receive fresh g g' =>
      refine ⟨?_, by intro b hb; cases hb⟩
      simp only [DhObj.step, Server2.receive, hk, Option.isSome_some, if_true]
      exact ⟨k, x, hk, hx, rfl⟩
  | client3 c =>
    simp only [DhObj.Fixed] at h
    cases call with
    | send fresh g =>
      simp only [DhObj.step, DhObj.Fixed, Client3.send]
      split
      · exact ⟨h, by intro b hb; cases hb⟩
      · rw [if_pos h]; exact ⟨h, by intro b hb; cases hb⟩
    | receive fresh g g' =>
      refine ⟨?_, by intro b hb; cases hb⟩
      simp only [DhObj.step, DhObj.Fixed, Client3.receive]
      split
      · split
        · exact h
        · split <;> exact h
      · exact h
  | server3 s =>
    obtain ⟨k, x, hk, hx, rfl⟩ := h
    cases call with
    | send fresh g =>
      refine ⟨⟨k, x, hk, hx, rfl⟩, ?_⟩
      intro b hb
      simp only [DhObj.step, Server3.send, hk, hx, Except.map, DhResult.sent.injEq, Except.ok.injEq] at hb
      exact hb.symm
    | receive fresh g g' =>
      refine ⟨?_, by intro b hb; cases hb⟩
      simp only [DhObj.step, Server3.receive, hk, Option.isSome_some, if_true]
      exact ⟨k, x, hk, hx, rfl⟩

theorem sent_fixes {E : DhEnv} {C : Curve Sk Pk} {m : List Bytes} {o : DhObj Sk Pk} {call : DhCall Sk Pk} (h : (o.step E C call).2 = .sent (.ok m)) :
    (o.step E C call).1.Fixed C m := by
  cases o with
  | client2 c =>
    cases call with
    | receive fresh g g' => cases h
    | send fresh g =>
      simp only [DhObj.step, DhObj.Fixed, Client2.send] at h ⊢
      split
      · rename_i e; rw [e] at h; cases h
      · split
        · assumption
        · split <;> rfl
  | server2 s =>
    cases call with
    | receive fresh g g' => cases h
    | send fresh g =>
      simp only [DhObj.step, Server2.send] at h ⊢
      split at h
      · cases h
      · rename_i k hk
        cases hx : k.publicBytes C with
        | error e => rw [hx] at h; cases h
        | ok x =>
          simp only [hx, Except.map, DhResult.sent.injEq, Except.ok.injEq] at h
          exact ⟨k, x, hk, hx, h.symm⟩
  | client3 c =>
    cases call with
    | receive fresh g g' => cases h
    | send fresh g =>
      simp only [DhObj.step, DhObj.Fixed, Client3.send] at h ⊢
      split
      · rename_i e; rw [e] at h; cases h
      · split
        · assumption
        · split <;> rfl
  | server3 s =>
    cases call with
    | receive fresh g g' => cases h
    | send fresh g =>
      simp only [DhObj.step, Server3.send] at h ⊢
      split at h
      · cases h
      · rename_i k hk
        cases hx : k.publicBytes C with
        | error e => rw [hx] at h; cases h
        | ok x =>
          simp only [hx, Except.map, DhResult.sent.injEq, Except.ok.injEq] at h
          exact ⟨k, x, hk, hx, h.symm⟩

theorem fixed_results {E : DhEnv} {C : Curve Sk Pk} {m : List Bytes} (calls : List (DhCall Sk Pk)) :
    ∀ {o : DhObj Sk Pk}, o.Fixed C m → ∀ b, .sent (.ok b) ∈ o.results E C calls → b = m := by
  induction calls with
  | nil => intro o _ b hb; cases hb
  | cons call calls ih =>
    intro o h b hb
    simp only [DhObj.results, List.mem_cons] at hb
    rcases hb with hb | hb
    · exact (fixed_step h call).2 b hb.symm
    · exact ih (fixed_step h call).1 b hb

/-- **C62** An exchange object never sends two different public keys. -/
theorem C62_one_key (E : DhEnv) (C : Curve Sk Pk) (calls : List (DhCall Sk Pk)) : ∀ (o : DhObj Sk Pk) (a b : List Bytes),
    .sent (.ok a) ∈ o.results E C calls → .sent (.ok b) ∈ o.results E C calls → a = b := by
  induction calls with
  | nil => intro o a b ha; cases ha
  | cons call calls ih =>
    intro o a b ha hb
    simp only [DhObj.results, List.mem_cons] at ha hb
    rcases ha with ha | ha
    · rcases hb with hb | hb
      · rw [← ha] at hb
        injection hb with hb
        injection hb with hb
        exact hb.symm
      · exact (fixed_results calls (sent_fixes ha.symm) b hb).symm
    · rcases hb with hb | hb
      · exact fixed_results calls (sent_fixes hb.symm) a ha
      · exact ih _ a b ha hb

/-- **C62** Beside the property: a server that is given a malformed key is spent, although it has derived nothing; a client is not, and can receive again. -/
theorem C62_malformed_key (E : DhEnv) (C : Curve Sk Pk) (b : Bytes) {e : Err} (hb : C.fromPublic b = .error e) :
    (∀ (id : KeyObj Sk Pk) (fresh fresh' : Sk) (g : Given Pk), ((Server2.mk id none none).receive C E fresh (.bytes b)).2 = .error e ∧
      (((Server2.mk id none none).receive C E fresh (.bytes b)).1.receive C E fresh' g).2 = .error .permission) ∧
    (∀ (c : Client2 Sk Pk) k p, c.myEph = some k → c.peerId = some p → (c.receive C E (.bytes b)) = (c, .error e)) := by
  refine ⟨fun id fresh fresh' g => ?_, fun c k p hk hp => ?_⟩
  · simp [Server2.receive, Curve.processPublic, hb]
  · simp [Client2.receive, hk, hp, Curve.processPublic, hb]

example : (((DhObj.server2 ⟨KeyObj.generated toy 5, none, none⟩).results toyEnv toy
    [.send 1 .other, .receive 7 .other (.bytes (toy.rawPublic 3)), .send 1 .other, .receive 8 .other (.bytes (toy.rawPublic 9)), .send 2 .other]).filter DhResult.isKdf).length = 1 := by
  decide +kernel

end Aiootp.Keys
