import Verif.Props.Keys

/-
C82: signatures made and checked with key objects.
-/

namespace Aiootp.Keys

open Kdf Canon

variable {Sk Pk : Type}

/-- What is known about signatures: what a key signs, its public key accepts; public and secret keys survive their encodings. -/
structure Signs (C : Curve Sk Pk) : Prop where
  accepts : ∀ s m, C.verify (C.publicOf s) (C.sign s m) m = true
  rawPublic : ∀ p, C.fromPublic (C.rawPublic p) = .ok p
  rawSecret : ∀ s, C.fromSecret (C.rawSecret s) = .ok s

theorem toy_signs : Signs toy := ⟨fun s m => by simp [toy], fun p => by simp [toy], fun s => by simp [toy]⟩

/-- **C82** Whatever was done with a key object before: if it can sign, everybody accepts the signature. The object itself does, an object that imported
the public bytes does, one that imported the public key does, one that imported the secret bytes does, and any object at all does, if it is told to use the
signer's public key or its bytes. -/
theorem C82_signatures_accepted (C : Curve Sk Pk) (hC : Signs C) (history : List (KeyObj.Op Sk Pk)) (m sig : Bytes)
    (hs : (({} : KeyObj Sk Pk).run C history).sign C m = .ok sig) :
    (({} : KeyObj Sk Pk).run C history).verify C sig m none = .ok () ∧
    ∃ p b, (({} : KeyObj Sk Pk).run C history).pub = some p ∧ (({} : KeyObj Sk Pk).run C history).publicBytes C = .ok b ∧
      (({} : KeyObj Sk Pk).importPublic C (.bytes b)).1.verify C sig m none = .ok () ∧
      (({} : KeyObj Sk Pk).importPublic C (.key p)).1.verify C sig m none = .ok () ∧
      (∀ s, (({} : KeyObj Sk Pk).run C history).secret = some s → (({} : KeyObj Sk Pk).importSecret C (.bytes (C.rawSecret s))).1.verify C sig m none = .ok ()) ∧
      ∀ other : KeyObj Sk Pk, other.verify C sig m (some (.bytes b)) = .ok () ∧ other.verify C sig m (some (.key p)) = .ok () := by
  have hpair := (C53_write_once C history).1
  revert hs hpair
  generalize ({} : KeyObj Sk Pk).run C history = k
  intro hs hpair
  unfold KeyObj.sign at hs
  cases hk : k.secret with
  | none => rw [hk] at hs; cases hs
  | some s =>
    rw [hk] at hs
    injection hs with hs
    subst hs
    have hp := hpair s hk
    have hv := hC.accepts s m
    have hr := hC.rawPublic (C.publicOf s)
    have ok : ∀ x : KeyObj Sk Pk, x.pub = some (C.publicOf s) → x.verify C (C.sign s m) m none = .ok () := by
      intro x hx
      simp only [KeyObj.verify, hx]
      show (if C.verify (C.publicOf s) (C.sign s m) m = true then (.ok () : Except Err Unit) else .error .invalidSignature) = .ok ()
      rw [if_pos hv]
    refine ⟨ok k hp, C.publicOf s, C.rawPublic (C.publicOf s), hp, by simp [KeyObj.publicBytes, hp], ok _ ?_, ok _ ?_, fun s' hs' => ok _ ?_, fun other => ⟨?_, ?_⟩⟩
    · simp [KeyObj.importPublic, Curve.processPublic, hr]
    · simp [KeyObj.importPublic, Curve.processPublic]
    · injection hs' with hs'
      subst hs'
      simp [KeyObj.importSecret, Curve.processSecret, hC.rawSecret s]
    · simp only [KeyObj.verify, Curve.processPublic, hr]
      show (if C.verify (C.publicOf s) (C.sign s m) m = true then (.ok () : Except Err Unit) else .error .invalidSignature) = .ok ()
      rw [if_pos hv]
    · simp only [KeyObj.verify, Curve.processPublic]
      show (if C.verify (C.publicOf s) (C.sign s m) m = true then (.ok () : Except Err Unit) else .error .invalidSignature) = .ok ()
      rw [if_pos hv]

/-- The key that a check uses, as documented: the argument if there is one, else the object's own public key. -/
inductive Uses (C : Curve Sk Pk) (own : Option Pk) : Option (Given Pk) → Pk → Prop where
  | own {p} : own = some p → Uses C own none p
  | object {p} : Uses C own (some (.key p)) p
  | bytes {b p} : C.fromPublic b = .ok p → Uses C own (some (.bytes b)) p

/-- **C82** `verify` returns just for signatures which the key in use accepts: the argument overrides the object's key, whether or not it has one. A
signature that it does not accept raises `InvalidSignature`, and nothing else does. -/
theorem C82_verify_uses (C : Curve Sk Pk) (k : KeyObj Sk Pk) (sig m : Bytes) (arg : Option (Given Pk)) :
    (k.verify C sig m arg = .ok () ↔ ∃ p, Uses C k.pub arg p ∧ C.verify p sig m = true) ∧
    ((∃ p, Uses C k.pub arg p ∧ C.verify p sig m = false) → k.verify C sig m arg = .error .invalidSignature) ∧
    (arg = none → k.pub = none → k.verify C sig m arg = .error .attribute) ∧
    (arg = some .other → k.verify C sig m arg = .error .type) ∧
    (∀ b e, arg = some (.bytes b) → C.fromPublic b = .error e → k.verify C sig m arg = .error e) := by
  have main : ∀ p, Uses C k.pub arg p → k.verify C sig m arg = if C.verify p sig m = true then .ok () else .error .invalidSignature := by
    intro p hp
    cases hp with
    | own h => simp only [KeyObj.verify, h]; rfl
    | object => rfl
    | bytes h => simp only [KeyObj.verify, Curve.processPublic, h]; rfl
  refine ⟨⟨fun h => ?_, fun ⟨p, hp, hv⟩ => by rw [main p hp, if_pos hv]⟩, fun ⟨p, hp, hv⟩ => by rw [main p hp, hv]; rfl, ?_, ?_, ?_⟩
  · have key : ∃ p, Uses C k.pub arg p := by
      match arg with
      | none =>
        cases hk : k.pub with
        | none => simp only [KeyObj.verify, hk] at h; cases h
        | some p => exact ⟨p, .own rfl⟩
      | some (.key p) => exact ⟨p, .object⟩
      | some (.bytes b) =>
        cases hb : C.fromPublic b with
        | error e => simp only [KeyObj.verify, Curve.processPublic, hb] at h; cases h
        | ok p => exact ⟨p, .bytes hb⟩
      | some .other => cases h
    obtain ⟨p, hp⟩ := key
    refine ⟨p, hp, ?_⟩
    rw [main p hp] at h
    split at h
    · assumption
    · cases h
  · rintro rfl hk
    simp only [KeyObj.verify, hk]; rfl
  · rintro rfl; rfl
  · rintro b e rfl hb
    simp only [KeyObj.verify, Curve.processPublic, hb]; rfl

/-- **C82** An object signs with the secret key it was given first, for good: after one successful import, no further history changes what `sign` returns or
what `verify` accepts. An object that has no secret key, because nothing or only a public key was imported, raises `AttributeError`. -/
theorem C82_signer_fixed (C : Curve Sk Pk) (history more : List (KeyObj.Op Sk Pk)) (m : Bytes) :
    (∀ p, (({} : KeyObj Sk Pk).run C history).pub = some p →
      (({} : KeyObj Sk Pk).run C (history ++ more)).sign C m = (({} : KeyObj Sk Pk).run C history).sign C m ∧
      ∀ sig arg, (({} : KeyObj Sk Pk).run C (history ++ more)).verify C sig m arg = (({} : KeyObj Sk Pk).run C history).verify C sig m arg) ∧
    (∀ s, (({} : KeyObj Sk Pk).run C (.importSecret (.key s) :: more)).sign C m = .ok (C.sign s m)) ∧
    (∀ p, (({} : KeyObj Sk Pk).run C (.importPublic (.key p) :: more)).sign C m = .error .attribute) ∧
    ((({} : KeyObj Sk Pk).run C history).secret = none → (({} : KeyObj Sk Pk).run C history).sign C m = .error .attribute) := by
  refine ⟨fun p hp => ?_, fun s => ?_, fun p => ?_, fun h => by simp [KeyObj.sign, h]⟩
  · rw [((C53_write_once C history).2 p hp more).1]
    exact ⟨rfl, fun _ _ => rfl⟩
  · have := KeyObj.run_fixed (C := C) (k := ⟨some s, some (C.publicOf s)⟩) rfl more
    simp only [KeyObj.run, KeyObj.step, KeyObj.importSecret, Curve.processSecret] at this ⊢
    rw [if_neg (by simp), this]
    rfl
  · have := KeyObj.run_fixed (C := C) (k := ⟨none, some p⟩) rfl more
    simp only [KeyObj.run, KeyObj.step, KeyObj.importPublic, Curve.processPublic] at this ⊢
    rw [if_neg (by simp), this]
    rfl

example : (({} : KeyObj UInt8 UInt8).run toy [.importPublic .other, .generate 4, .init]).sign toy [1, 2] = .ok [4, 1, 2] ∧
    (({} : KeyObj UInt8 UInt8).run toy [.importPublic (.key 9)]).verify toy [4, 1, 2] [1, 2] (some (.bytes (toy.rawPublic 4))) = .ok () ∧
    (({} : KeyObj UInt8 UInt8).run toy [.importPublic (.key 9)]).verify toy [4, 1, 2] [1, 2] none = .error .invalidSignature := by
  decide +kernel

end Aiootp.Keys
