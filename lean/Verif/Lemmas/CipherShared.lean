import Verif.Model.CipherShared

/-
Calls that change only hash objects of their own, and what they return whatever the others do.
-/

namespace Aiootp.Cipher

open Prog

/-- The hash objects at some references. -/
abbrev View := Ref → Option Hasher

/-- `v` after the object at `a` became `h`. -/
def View.put (v : View) (a : Ref) (h : Hasher) : View := fun b => if b = a then some h else v b

theorem View.put_self (v : View) (a : Ref) (h : Hasher) : v.put a h a = some h := by simp [View.put]

theorem View.put_other {v : View} {a b : Ref} {h : Hasher} (hb : b ≠ a) : v.put a h b = v b := by simp [View.put, hb]

/-- What a call sees: its own objects and those that nobody changes. -/
def sees (base own : View) (a : Ref) (h : Hasher) : Prop := own a = some h ∨ (own a = none ∧ base a = some h)

/-- The call changes only objects of its own, and `Q` is true at its end, whatever references new objects get. -/
def Prog.Ends {α : Type} (base : View) : Prog α → View → (Except Err α → View → Prop) → Prop
  | .done r, own, Q => Q r own
  | .copy a next, own, Q => ∃ h, sees base own a h ∧ ∀ b, own b = none → base b = none → (next b).Ends base (own.put b h) Q
  | .update a data next, own, Q => ∃ h, own a = some h ∧ next.Ends base (own.put a { h with absorbed := h.absorbed ++ data }) Q
  | .digest a size next, own, Q => ∃ h, sees base own a h ∧ (next (h.xof.digest h.absorbed size)).Ends base own Q

namespace Prog

variable {α β : Type} {base : View}

theorem Ends.mono {p : Prog α} {own : View} {Q R : Except Err α → View → Prop} (h : p.Ends base own Q) (hq : ∀ r v, Q r v → R r v) : p.Ends base own R := by
  induction p generalizing own with
  | done r => exact hq _ _ h
  | copy a next ih =>
    obtain ⟨c, hc, h⟩ := h
    exact ⟨c, hc, fun b h1 h2 => ih b (h b h1 h2)⟩
  | update a data next ih =>
    obtain ⟨c, hc, h⟩ := h
    exact ⟨c, hc, ih h⟩
  | digest a size next ih =>
    obtain ⟨c, hc, h⟩ := h
    exact ⟨c, hc, ih _ h⟩

theorem Ends.bind {p : Prog α} {f : α → Prog β} {own : View} {Q : Except Err β → View → Prop}
    (h : p.Ends base own fun r v => match r with
      | .error e => Q (.error e) v
      | .ok x => (f x).Ends base v Q) : (p >>= f).Ends base own Q := by
  show (p.bind f).Ends base own Q
  induction p generalizing own with
  | done r =>
    cases r with
    | error e => exact h
    | ok x => exact h
  | copy a next ih =>
    obtain ⟨c, hc, h⟩ := h
    exact ⟨c, hc, fun b h1 h2 => ih b (h b h1 h2)⟩
  | update a data next ih =>
    obtain ⟨c, hc, h⟩ := h
    exact ⟨c, hc, ih h⟩
  | digest a size next ih =>
    obtain ⟨c, hc, h⟩ := h
    exact ⟨c, hc, ih _ h⟩

/-- A computation without hash objects, then the rest. -/
theorem ends_lift {x : Except Err α} {f : α → Prog β} {own : View} {Q : Except Err β → View → Prop}
    (he : ∀ e, x = .error e → Q (.error e) own) (ho : ∀ y, x = .ok y → (f y).Ends base own Q) : (lift x >>= f).Ends base own Q := by
  refine Ends.bind ?_
  cases x with
  | error e => exact he e rfl
  | ok y => exact ho y rfl

theorem ends_copied {a : Ref} {h : Hasher} {f : Ref → Prog β} {own : View} {Q : Except Err β → View → Prop} (ha : sees base own a h)
    (hf : ∀ b, own b = none → base b = none → (f b).Ends base (own.put b h) Q) : (copied a >>= f).Ends base own Q := ⟨h, ha, hf⟩

theorem ends_updated {a : Ref} {h : Hasher} {data : Bytes} {f : Unit → Prog β} {own : View} {Q : Except Err β → View → Prop} (ha : own a = some h)
    (hf : (f ()).Ends base (own.put a { h with absorbed := h.absorbed ++ data }) Q) : (updated a data >>= f).Ends base own Q := ⟨h, ha, hf⟩

theorem ends_digested {a : Ref} {h : Hasher} {size : Nat} {f : Bytes → Prog β} {own : View} {Q : Except Err β → View → Prop} (ha : own a = some h)
    (hf : (f (h.xof.digest h.absorbed size)).Ends base own Q) : (digested a size >>= f).Ends base own Q := ⟨h, .inl ha, hf⟩

theorem ends_pure {x : α} {own : View} {Q : Except Err α → View → Prop} (h : Q (.ok x) own) : (pure x : Prog α).Ends base own Q := h

end Prog

/-! ### sessions -/

/-- The stream-hmac object `o` stands for `s`; its hash object is at `a` as long as it has one. -/
structure Stands (a : Ref) (m : Bytes) (o : ShmacObj) (s : Shmac) : Prop where
  ivGiven : o.ivGiven = s.ivGiven
  mode : o.mode = s.mode
  finalized : o.finalized = s.finalized
  mac : (o.mac = some a ∧ s.mac = some m) ∨ (o.mac = none ∧ s.mac = none)
  previous : o.previous = s.previous
  current : o.current = s.current
  result : o.result = s.result
  perm : o.perm = s.perm

/-- What the call `p` does is what the functional model says, with other objects of the call untouched: at the end the result is `r`, and if that is a value,
`ok` relates it to the one of the call. -/
def Agrees {α β : Type} (base : View) (p : Prog α) (own : View) (r : Except Err β) (ok : α → β → View → Prop) : Prop :=
  p.Ends base own fun x v => match x, r with
    | .error e, .error e' => e = e'
    | .ok y, .ok z => ok y z v
    | _, _ => False

namespace Agrees

variable {α β γ δ : Type} {base own : View}

theorem bind {p : Prog α} {r : Except Err β} {ok : α → β → View → Prop} {f : α → Prog γ} {g : β → Except Err δ} {ok' : γ → δ → View → Prop}
    (h : Agrees base p own r ok) (hf : ∀ y z v, ok y z v → Agrees base (f y) v (g z) ok') : Agrees base (p >>= f) own (r >>= g) ok' := by
  refine Prog.Ends.bind (Prog.Ends.mono h ?_)
  intro x v hx
  cases x with
  | error e =>
    cases r with
    | error e' => exact hx
    | ok z => exact hx.elim
  | ok y =>
    cases r with
    | error e' => exact hx.elim
    | ok z => exact hf y z v hx

theorem pure {x : α} {y : β} {ok : α → β → View → Prop} (h : ok x y own) : Agrees base (Pure.pure x : Prog α) own (Pure.pure y) ok := h

/-- The same computation without hash objects on both sides. -/
theorem same {x : Except Err α} {f : α → Prog γ} {g : α → Except Err δ} {ok' : γ → δ → View → Prop}
    (hf : ∀ y, x = .ok y → Agrees base (f y) own (g y) ok') : Agrees base (lift x >>= f) own (x >>= g) ok' := by
  refine Prog.ends_lift ?_ ?_
  · rintro e rfl; rfl
  · rintro y rfl; exact hf y rfl

theorem ofLift {x : Except Err α} {ok : α → α → View → Prop} (h : ∀ y, x = .ok y → ok y y own) : Agrees base (lift x) own x ok := by
  cases x with
  | error e => rfl
  | ok y => exact h y rfl

theorem copied {a : Ref} {h : Hasher} {f : Ref → Prog γ} {r : Except Err δ} {ok : γ → δ → View → Prop} (ha : sees base own a h)
    (hf : ∀ b, own b = none → base b = none → Agrees base (f b) (own.put b h) r ok) : Agrees base (Prog.copied a >>= f) own r ok :=
  Prog.ends_copied ha hf

theorem updated {a : Ref} {x : Xof} {m data : Bytes} {f : Unit → Prog γ} {r : Except Err δ} {ok : γ → δ → View → Prop} (ha : own a = some ⟨x, m⟩)
    (hf : Agrees base (f ()) (own.put a ⟨x, m ++ data⟩) r ok) : Agrees base (Prog.updated a data >>= f) own r ok :=
  Prog.ends_updated ha hf

theorem digested {a : Ref} {x : Xof} {m : Bytes} {size : Nat} {f : Bytes → Prog γ} {r : Except Err δ} {ok : γ → δ → View → Prop} (ha : own a = some ⟨x, m⟩)
    (hf : Agrees base (f (x.digest m size)) own r ok) : Agrees base (Prog.digested a size >>= f) own r ok :=
  Prog.ends_digested ha hf

theorem mono {p : Prog α} {r : Except Err β} {ok ok' : α → β → View → Prop} (h : Agrees base p own r ok) (hk : ∀ y z v, ok y z v → ok' y z v) : Agrees base p own r ok' := by
  refine Prog.Ends.mono h ?_
  intro x v hx
  cases x with
  | error e => cases r <;> exact hx
  | ok y =>
    cases r with
    | error e' => exact hx
    | ok z => exact hk _ _ _ hx

theorem known {p : Prog α} {r : Except Err β} {ok : α → β → View → Prop} (h : Agrees base p own r ok) : Agrees base p own r fun y z v => ok y z v ∧ r = .ok z := by
  refine Prog.Ends.mono h ?_
  intro x v hx
  cases x with
  | error e => cases r <;> exact hx
  | ok y =>
    cases r with
    | error e' => exact hx
    | ok z => exact ⟨hx, rfl⟩

end Agrees

/-! ### keyed hash objects -/

/-- `v` is `own` with new objects. -/
def View.Grows (own v : View) : Prop := ∀ a h, own a = some h → v a = some h

theorem View.Grows.refl (own : View) : own.Grows own := fun _ _ h => h

theorem View.Grows.trans {u v w : View} (h : u.Grows v) (h' : v.Grows w) : u.Grows w := fun a c hc => h' a c (h a c hc)

theorem View.put_put (v : View) (a : Ref) (h h' : Hasher) : (v.put a h).put a h' = v.put a h' := by
  funext b
  by_cases hb : b = a <;> simp [View.put, hb]

theorem View.grows_put {own : View} {a : Ref} (ha : own a = none) (h : Hasher) : own.Grows (own.put a h) := by
  intro b c hb
  rw [View.put_other]
  · exact hb
  · rintro rfl
    rw [ha] at hb
    cases hb

theorem sees_grows {base own v : View} (hg : ∀ a, own a = none → v a = none ∨ base a = none) (hv : own.Grows v) {a : Ref} {h : Hasher} (hs : sees base own a h) :
    sees base v a h := by
  rcases hs with hs | ⟨hn, hb⟩
  · exact .inl (hv a h hs)
  · rcases hg a hn with h1 | h1
    · exact .inr ⟨h1, hb⟩
    · rw [h1] at hb; cases hb

/-- New objects have references that nobody had. -/
structure Extends (base own v : View) : Prop where
  grows : own.Grows v
  fresh : ∀ a, own a = none → v a = none ∨ base a = none

namespace Extends

variable {base own v w : View}

theorem refl (base own : View) : Extends base own own := ⟨View.Grows.refl own, fun _ h => .inl h⟩

theorem trans (h : Extends base own v) (h' : Extends base v w) : Extends base own w :=
  ⟨h.grows.trans h'.grows, fun a ha => (h.fresh a ha).elim (h'.fresh a) .inr⟩

theorem put {a : Ref} (ha : own a = none) (hb : base a = none) (h : Hasher) : Extends base own (own.put a h) :=
  ⟨View.grows_put ha h, fun b hn => by
    by_cases hba : b = a
    · exact .inr (hba ▸ hb)
    · exact .inl (by rw [View.put_other hba]; exact hn)⟩

theorem sees (h : Extends base own v) {a : Ref} {c : Hasher} (hs : Cipher.sees base own a c) : Cipher.sees base v a c := sees_grows h.fresh h.grows hs

end Extends

theorem agrees_keyed {base own : View} {k : KdfConfig} {factory : Ref} (hf : sees base own factory ⟨k.xof, k.factory⟩) (key : Bytes) :
    Agrees base (k.keyedObj factory key) own (k.keyed key) fun b m v => Extends base own v ∧ own b = none ∧ v b = some ⟨k.xof, m⟩ := by
  unfold KdfConfig.keyedObj KdfConfig.keyed
  refine Agrees.copied hf fun b h1 h2 => Agrees.same fun e _ => Agrees.updated (View.put_self _ _ _) ?_
  rw [View.put_put]
  exact Agrees.pure ⟨Extends.put h1 h2 _, h1, View.put_self _ _ _⟩

theorem agrees_session {base own : View} {k : KdfConfig} {kdf : Ref} {c : Bytes} (hf : sees base own kdf ⟨k.xof, c⟩) (summary : Bytes) :
    Agrees base (k.newSessionObj kdf summary) own (k.newSessionCopy c summary) fun b m v => Extends base own v ∧ own b = none ∧ v b = some ⟨k.xof, m⟩ := by
  unfold KdfConfig.newSessionObj KdfConfig.newSessionCopy
  refine Agrees.copied hf fun b h1 h2 => Agrees.same fun e _ => Agrees.updated (View.put_self _ _ _) ?_
  rw [View.put_put]
  exact Agrees.pure ⟨Extends.put h1 h2 _, h1, View.put_self _ _ _⟩

/-! ### stream-hmacs -/

/-- The stream-hmac object `o` with the hash object at `a` stands for `s`. Objects at other references are those of `u`. -/
def Live (E : Env) (a : Ref) (u v : View) (o : ShmacObj) (s : Shmac) : Prop :=
  (∃ m, v a = some ⟨E.shmacKdf.xof, m⟩ ∧ Stands a m o s) ∧ ∀ b, b ≠ a → v b = u b

theorem agrees_new {base own : View} (E : Env) (configId : Nat) {mac : Ref} {m : Bytes} (hm : own mac = some ⟨E.shmacKdf.xof, m⟩) (ivGiven : Bool) :
    Agrees base (ShmacObj.new E configId mac ivGiven) own (Shmac.new E configId m ivGiven) fun o s v => v = own ∧ Stands mac m o s := by
  unfold ShmacObj.new Shmac.new
  refine Agrees.same fun keyBytes _ => Agrees.digested hm (Agrees.same fun perm _ => Agrees.pure ⟨rfl, ?_⟩)
  exact ⟨rfl, rfl, rfl, .inl ⟨rfl, rfl⟩, rfl, rfl, rfl, rfl⟩

theorem agrees_forEncryption {base own : View} {a : Ref} {m : Bytes} {o : ShmacObj} {s : Shmac} (h : Stands a m o s) :
    Agrees base o.forEncryption own s.forEncryption fun o' s' v => v = own ∧ Stands a m o' s' := by
  unfold ShmacObj.forEncryption Shmac.forEncryption
  rw [h.mode, h.ivGiven]
  refine Agrees.same fun _ _ => Agrees.same fun _ _ => Agrees.pure ⟨rfl, ?_⟩
  exact ⟨rfl, rfl, h.finalized, h.mac, h.previous, h.current, h.result, h.perm⟩

theorem agrees_forDecryption {base own : View} {a : Ref} {m : Bytes} {o : ShmacObj} {s : Shmac} (h : Stands a m o s) :
    Agrees base o.forDecryption own s.forDecryption fun o' s' v => v = own ∧ Stands a m o' s' := by
  unfold ShmacObj.forDecryption Shmac.forDecryption
  rw [h.mode, h.ivGiven]
  refine Agrees.same fun _ _ => Agrees.same fun _ _ => Agrees.pure ⟨rfl, ?_⟩
  exact ⟨rfl, rfl, h.finalized, h.mac, h.previous, h.current, h.result, h.perm⟩

theorem agrees_attr_mac {base own : View} {a : Ref} {m : Bytes} {o : ShmacObj} {s : Shmac} (h : Stands a m o s) {γ δ : Type} {f : Ref → Prog γ} {g : Bytes → Except Err δ}
    {ok : γ → δ → View → Prop} (hf : o.mac = some a → s.mac = some m → Agrees base (f a) own (g m) ok) : Agrees base (lift (attr o.mac) >>= f) own (attr s.mac >>= g) ok := by
  rcases h.mac with ⟨h1, h2⟩ | ⟨h1, h2⟩
  · rw [h1, h2]; exact hf h1 h2
  · rw [h1, h2]; exact rfl

theorem agrees_update {base own : View} {E : Env} {a : Ref} {m : Bytes} {o : ShmacObj} {s : Shmac} (hm : own a = some ⟨E.shmacKdf.xof, m⟩) (h : Stands a m o s)
    (block : Bytes) : Agrees base (o.update E block) own (s.update E block) fun o' s' v => Live E a own v o' s' := by
  unfold ShmacObj.update Shmac.update
  rw [h.mode, h.current]
  refine Agrees.same fun _ _ => agrees_attr_mac h fun h1 _ => Agrees.updated hm (Agrees.same fun c _ => Agrees.digested (View.put_self _ _ _) (Agrees.pure ?_))
  exact ⟨⟨_, View.put_self _ _ _, ⟨h.ivGiven, rfl, h.finalized, .inl ⟨h1, rfl⟩, rfl, rfl, h.result, h.perm⟩⟩, fun b hb => View.put_other hb⟩

theorem agrees_finalize {base own : View} {E : Env} {a : Ref} {m : Bytes} {o : ShmacObj} {s : Shmac} (hm : own a = some ⟨E.shmacKdf.xof, m⟩) (h : Stands a m o s) :
    Agrees base (o.finalize E) own (s.finalize E) fun x y _ => x.1 = y.1 ∧ x.2.result = y.2.result := by
  unfold ShmacObj.finalize Shmac.finalize
  rw [h.finalized]
  exact Agrees.same fun _ _ => agrees_attr_mac h fun _ _ => Agrees.digested hm (Agrees.pure ⟨rfl, rfl⟩)

theorem agrees_testShmac {base own : View} {o : ShmacObj} {s : Shmac} (h : o.result = s.result) (t : Bytes) :
    Agrees base (o.testShmac t) own (s.testShmac t) fun _ _ _ => True := by
  unfold ShmacObj.testShmac Shmac.testShmac Shmac.getResult
  rw [h]
  exact Agrees.same fun _ _ => Agrees.ofLift fun _ _ => trivial

/-! ### ciphers -/

/-- The class `H` does with hash objects what the cipher `C` of the functional model does with what they have absorbed. `factories` says that the factories of the
other hash functions are there, `usable` that they can be keyed with the key, `keyed` that the other references of a cipher object are to hash objects with this key,
`rel` what the references of a session with its hash object at `a` are to. -/
structure Refines {ρ σ κ : Type} (H : CipherClass ρ σ) (C : Cipher κ) where
  env : H.toEnv = C.toEnv
  configId : H.configId = C.configId
  factories : View → Prop
  factories_mono : ∀ {base base'}, (∀ a h, base a = some h → base' a = some h) → factories base → factories base'
  usable : Bytes → Prop
  keyed : (Ref → Hasher → Prop) → ρ → Bytes → Prop
  keyed_mono : ∀ {S S' o key}, (∀ a h, S a h → S' a h) → keyed S o key → keyed S' o key
  rel : Ref → σ → κ → View → Prop
  keyOthers : ∀ {base own key}, factories base → Extends base (fun _ => none) own → usable key →
    Agrees base (H.keyOthers key) own (.ok ()) fun o _ v => Extends base own v ∧ keyed (sees base v) o key
  session : ∀ {base own o key a h} (summary), keyed (sees base own) o key → own a = some h →
    Agrees base (H.sessionOthers o summary) own (C.sessionKdfs key summary) fun k k' v => Extends base own v ∧ rel a k k' v
  turn : ∀ {base own a m o s k k'} (block), own a = some ⟨C.shmacKdf.xof, m⟩ → Stands a m o s → rel a k k' own →
    Agrees base (H.turn o k block) own (C.turn s k' block) fun x y v =>
      x.1 = y.1 ∧ (∃ m, v a = some ⟨C.shmacKdf.xof, m⟩ ∧ Stands a m x.2.1 y.2.1) ∧ rel a x.2.2 y.2.2 v

/-! ### shake-permute ciphers -/

theorem agrees_permuteEncipher {base own : View} {E : Env} {a : Ref} {m : Bytes} {o : ShmacObj} {s : Shmac} (hm : own a = some ⟨E.shmacKdf.xof, m⟩)
    (h : Stands a m o s) (block : Bytes) : Agrees base (permuteEncipherObj E o block) own (permuteEncipher E s block) fun x y v => x.1 = y.1 ∧ Live E a own v x.2 y.2 := by
  unfold permuteEncipherObj permuteEncipher
  rw [h.current, h.perm]
  exact Agrees.same fun _ _ => Agrees.same fun _ _ => Agrees.same fun _ _ => Agrees.bind (agrees_update hm h _) fun _ _ _ hv => Agrees.pure ⟨rfl, hv⟩

theorem agrees_permuteDecipher {base own : View} {E : Env} {a : Ref} {m : Bytes} {o : ShmacObj} {s : Shmac} (hm : own a = some ⟨E.shmacKdf.xof, m⟩)
    (h : Stands a m o s) (block : Bytes) : Agrees base (permuteDecipherObj E o block) own (permuteDecipher E s block) fun x y v => x.1 = y.1 ∧ Live E a own v x.2 y.2 := by
  unfold permuteDecipherObj permuteDecipher
  rw [h.current, h.perm]
  exact Agrees.same fun _ _ => Agrees.same fun _ _ => Agrees.same fun _ _ => Agrees.bind (agrees_update hm h _) fun _ _ _ hv => Agrees.pure ⟨rfl, hv⟩

def permuteRefines (E : Env) (factory : Ref) : Refines (permuteClass E factory) (permuteCipher E) where
  env := rfl
  configId := rfl
  factories := fun _ => True
  factories_mono := fun _ _ => trivial
  usable := fun _ => True
  keyed := fun _ _ _ => True
  keyed_mono := fun _ _ => trivial
  rel := fun _ _ _ _ => True
  keyOthers := fun {base own _} _ _ _ => Agrees.pure ⟨Extends.refl base own, trivial⟩
  session := fun {base own _ _ _ _} _ _ _ => Agrees.pure ⟨Extends.refl base own, trivial⟩
  turn := by
    intro base own a m o s k k' block hm h _
    show Agrees base (permuteTurnObj E o k block) own (permuteTurn E s k' block) _
    unfold permuteTurnObj permuteTurn
    rw [h.mode]
    rcases s.mode with _ | _ | _
    · exact rfl
    · exact Agrees.bind (agrees_permuteEncipher hm h block) fun x y v hv => Agrees.pure ⟨hv.1, hv.2.1, trivial⟩
    · exact Agrees.bind (agrees_permuteDecipher hm h block) fun x y v hv => Agrees.pure ⟨hv.1, hv.2.1, trivial⟩

/-! ### dual-output ciphers -/

/-- The left and right hash objects of a session hold what the functional model says, and they and the one at `a` are different. -/
structure DualRel (E : DualEnv) (a : Ref) (k : DualRefs) (k' : DualKeys) (v : View) : Prop where
  started : k.started = k'.started
  left : v k.left = some ⟨E.leftKdf.xof, k'.left⟩
  right : v k.right = some ⟨E.rightKdf.xof, k'.right⟩
  left_ne : k.left ≠ a
  right_ne : k.right ≠ a
  ne : k.left ≠ k.right

theorem DualRel.frame {E : DualEnv} {a : Ref} {k : DualRefs} {k' : DualKeys} {u v : View} (h : DualRel E a k k' u) (hv : ∀ b, b ≠ a → v b = u b) : DualRel E a k k' v :=
  ⟨h.started, by rw [hv _ h.left_ne, h.left], by rw [hv _ h.right_ne, h.right], h.left_ne, h.right_ne, h.ne⟩

theorem agrees_keystream {base own : View} {E : DualEnv} {a : Ref} {k : DualRefs} {k' : DualKeys} (h : DualRel E a k k' own) (r : Bytes) {γ δ : Type}
    {f : Bytes → Prog γ} {e : Except Err δ} {ok : γ → δ → View → Prop}
    (hf : ∀ v, v a = own a → DualRel E a k (keystream E k' r).2 v → Agrees base (f (keystream E k' r).1) v e ok) : Agrees base (keystreamObj E k r >>= f) own e ok := by
  have hr : (own.put k.left ⟨E.leftKdf.xof, k'.left ++ E.leftSlice r⟩) k.right = some ⟨E.rightKdf.xof, k'.right⟩ := by rw [View.put_other h.ne.symm, h.right]
  have key := Agrees.updated (base := base) h.left (data := E.leftSlice r) (r := e) (ok := ok)
    (f := fun _ => updated k.right (E.rightSlice r) >>= fun _ => digested k.left E.cfg.shmacBlocksize >>= fun left => digested k.right E.cfg.shmacBlocksize >>= fun right =>
      f (left ++ right))
  refine key (Agrees.updated hr (Agrees.digested (x := E.leftKdf.xof) (m := k'.left ++ E.leftSlice r) ?_
    (Agrees.digested (x := E.rightKdf.xof) (m := k'.right ++ E.rightSlice r) (View.put_self _ _ _) (hf _ ?_ ?_))))
  · rw [View.put_other h.ne, View.put_self]
  · rw [View.put_other h.right_ne.symm, View.put_other h.left_ne.symm]
  · exact ⟨h.started, by rw [View.put_other h.ne, View.put_self]; rfl, by rw [View.put_self]; rfl, h.left_ne, h.right_ne, h.ne⟩

theorem agrees_dualEncipher {base own : View} {E : DualEnv} {a : Ref} {m : Bytes} {o : ShmacObj} {s : Shmac} (hm : own a = some ⟨E.shmacKdf.xof, m⟩)
    (h : Stands a m o s) (block key : Bytes) :
    Agrees base (dualEncipherObj E o block key) own (dualEncipher E s block key) fun x y v => x.1 = y.1 ∧ Live E.toEnv a own v x.2 y.2 := by
  unfold dualEncipherObj dualEncipher
  exact Agrees.same fun _ _ => Agrees.bind (agrees_update hm h _) fun _ _ _ hv => Agrees.pure ⟨rfl, hv⟩

theorem agrees_dualDecipher {base own : View} {E : DualEnv} {a : Ref} {m : Bytes} {o : ShmacObj} {s : Shmac} (hm : own a = some ⟨E.shmacKdf.xof, m⟩)
    (h : Stands a m o s) (block key : Bytes) :
    Agrees base (dualDecipherObj E o block key) own (dualDecipher E s block key) fun x y v => x.1 = y.1 ∧ Live E.toEnv a own v x.2 y.2 := by
  unfold dualDecipherObj dualDecipher
  exact Agrees.bind (agrees_update hm h _) fun _ _ _ hv => Agrees.same fun _ _ => Agrees.pure ⟨rfl, hv⟩

/-- What a turn leaves. -/
def AfterTurn (E : DualEnv) (a : Ref) (x : Bytes × ShmacObj × DualRefs) (y : Bytes × Shmac × DualKeys) (v : View) : Prop :=
  x.1 = y.1 ∧ (∃ m, v a = some ⟨E.shmacKdf.xof, m⟩ ∧ Stands a m x.2.1 y.2.1) ∧ DualRel E a x.2.2 y.2.2 v

theorem agrees_uniqueCipher {base own : View} {E : DualEnv} {a : Ref} {m : Bytes} {o : ShmacObj} {s : Shmac} {k : DualRefs} {k' : DualKeys}
    (hm : own a = some ⟨E.shmacKdf.xof, m⟩) (h : Stands a m o s) (hk : DualRel E a k k' own) (block : Bytes) :
    Agrees base (uniqueCipherObj E o k block) own (uniqueCipher E s k' block) (AfterTurn E a) := by
  unfold uniqueCipherObj uniqueCipher
  rw [h.current, h.perm]
  refine Agrees.same fun _ _ => Agrees.same fun mh _ => agrees_attr_mac h fun h1 h2 => Agrees.same fun c _ => Agrees.updated hm (Agrees.digested (View.put_self _ _ _) ?_)
  refine agrees_keystream (hk.frame fun b hb => View.put_other hb) _ fun v hv hk' => Agrees.same fun _ _ => ?_
  rw [View.put_self] at hv
  refine Agrees.bind (agrees_update (s := { s with mac := some _ }) hv ⟨h.ivGiven, h.mode, h.finalized, .inl ⟨h1, rfl⟩, h.previous, h.current, h.result, h.perm⟩ _)
    fun o' s' w hw => Agrees.pure ⟨rfl, hw.1, ?_⟩
  have := hk'.frame hw.2
  exact ⟨rfl, this.left, this.right, this.left_ne, this.right_ne, this.ne⟩

theorem agrees_uniqueDecipher {base own : View} {E : DualEnv} {a : Ref} {m : Bytes} {o : ShmacObj} {s : Shmac} {k : DualRefs} {k' : DualKeys}
    (hm : own a = some ⟨E.shmacKdf.xof, m⟩) (h : Stands a m o s) (hk : DualRel E a k k' own) (block : Bytes) :
    Agrees base (uniqueDecipherObj E o k block) own (uniqueDecipher E s k' block) (AfterTurn E a) := by
  unfold uniqueDecipherObj uniqueDecipher
  rw [h.current, h.perm]
  refine Agrees.same fun _ _ => Agrees.same fun mh _ => agrees_attr_mac h fun h1 h2 => Agrees.same fun c _ => Agrees.updated hm (Agrees.digested (View.put_self _ _ _) ?_)
  refine agrees_keystream (hk.frame fun b hb => View.put_other hb) _ fun v hv hk' => Agrees.same fun _ _ => ?_
  rw [View.put_self] at hv
  refine Agrees.bind (agrees_update (s := { s with mac := some _ }) hv ⟨h.ivGiven, h.mode, h.finalized, .inl ⟨h1, rfl⟩, h.previous, h.current, h.result, h.perm⟩ _)
    fun o' s' w hw => Agrees.pure ⟨rfl, hw.1, ?_⟩
  have := hk'.frame hw.2
  exact ⟨rfl, this.left, this.right, this.left_ne, this.right_ne, this.ne⟩

theorem agrees_ratchetKey {base own : View} {a : Ref} {m : Bytes} {o : ShmacObj} {s : Shmac} (h : Stands a m o s) {γ δ : Type} {f : Bytes → Prog γ} {g : Bytes → Except Err δ}
    {ok : γ → δ → View → Prop} (hf : ∀ r, Agrees base (f r) own (g r) ok) : Agrees base (ratchetKeyObj o >>= f) own (ratchetKey s >>= g) ok := by
  refine Agrees.bind (ok := fun x y v => x = y ∧ v = own) ?_ ?_
  · unfold ratchetKeyObj ratchetKey
    rw [h.current, h.previous]
    exact Agrees.same fun _ _ => Agrees.same fun _ _ => Agrees.pure ⟨rfl, rfl⟩
  · rintro x _ _ ⟨rfl, rfl⟩; exact hf x

theorem agrees_dualTurn {base own : View} {E : DualEnv} {a : Ref} {m : Bytes} {o : ShmacObj} {s : Shmac} {k : DualRefs} {k' : DualKeys}
    (hm : own a = some ⟨E.shmacKdf.xof, m⟩) (h : Stands a m o s) (hk : DualRel E a k k' own) (block : Bytes) :
    Agrees base (dualTurnObj E o k block) own (dualTurn E s k' block) (AfterTurn E a) := by
  unfold dualTurnObj dualTurn
  rw [h.mode, hk.started]
  rcases hs : k'.started with _ | _
  · rcases s.mode with _ | _ | _
    · exact rfl
    · exact agrees_uniqueCipher hm h hk block
    · exact agrees_uniqueDecipher hm h hk block
  · rcases s.mode with _ | _ | _
    · exact rfl
    · refine agrees_ratchetKey h fun r => agrees_keystream hk r fun v hv hk' => ?_
      exact Agrees.bind (agrees_dualEncipher (hv.trans hm) h block _) fun x y w hw => Agrees.pure ⟨hw.1, hw.2.1, hk'.frame hw.2.2⟩
    · refine agrees_ratchetKey h fun r => agrees_keystream hk r fun v hv hk' => ?_
      exact Agrees.bind (agrees_dualDecipher (hv.trans hm) h block _) fun x y w hw => Agrees.pure ⟨hw.1, hw.2.1, hk'.frame hw.2.2⟩

theorem Extends.of_empty {base own : View} (h : Extends base (fun _ => none) own) {a : Ref} {c : Hasher} (hb : base a = some c) : Cipher.sees base own a c :=
  h.sees (.inr ⟨rfl, hb⟩)

def dualRefines (E : DualEnv) (factory leftFactory rightFactory : Ref) : Refines (dualClass E factory leftFactory rightFactory) (dualCipher E) where
  env := rfl
  configId := rfl
  factories := fun base => base leftFactory = some ⟨E.leftKdf.xof, E.leftKdf.factory⟩ ∧ base rightFactory = some ⟨E.rightKdf.xof, E.rightKdf.factory⟩
  factories_mono := fun h hf => ⟨h _ _ hf.1, h _ _ hf.2⟩
  usable := fun key => (∃ x, E.leftKdf.keyed key = .ok x) ∧ ∃ x, E.rightKdf.keyed key = .ok x
  keyed := fun S o key => (∃ x, E.leftKdf.keyed key = .ok x ∧ S o.1 ⟨E.leftKdf.xof, x⟩) ∧ ∃ x, E.rightKdf.keyed key = .ok x ∧ S o.2 ⟨E.rightKdf.xof, x⟩
  keyed_mono := fun h hk => ⟨hk.1.imp fun _ hx => ⟨hx.1, h _ _ hx.2⟩, hk.2.imp fun _ hx => ⟨hx.1, h _ _ hx.2⟩⟩
  rel := fun a k k' v => DualRel E a k k' v
  keyOthers := by
    intro base own key hf he hu
    obtain ⟨⟨x, hx⟩, y, hy⟩ := hu
    show Agrees base (E.leftKdf.keyedObj leftFactory key >>= fun left => E.rightKdf.keyedObj rightFactory key >>= fun right => pure (left, right)) own
      ((Except.ok x : Except Err Bytes) >>= fun _ => (Except.ok y : Except Err Bytes) >>= fun _ => pure ()) _
    rw [← hx, ← hy]
    refine Agrees.bind (agrees_keyed (he.of_empty hf.1) key).known fun l ml v hl => Agrees.bind (agrees_keyed (he.trans hl.1.1 |>.of_empty hf.2) key).known fun r mr w hr =>
      Agrees.pure ⟨hl.1.1.trans hr.1.1, ⟨ml, hl.2, .inl (hr.1.1.grows _ _ hl.1.2.2)⟩, mr, hr.2, .inl hr.1.2.2⟩
  session := by
    intro base own o key a h summary hk ha
    obtain ⟨⟨x, hx, sx⟩, y, hy, sy⟩ := hk
    show Agrees base (E.leftKdf.newSessionObj o.1 summary >>= fun left => E.rightKdf.newSessionObj o.2 summary >>= fun right => pure (DualRefs.mk left right false)) own
      (E.leftKdf.keyed key >>= fun left => E.rightKdf.keyed key >>= fun right => E.leftKdf.newSessionCopy left summary >>= fun left =>
        E.rightKdf.newSessionCopy right summary >>= fun right => pure (DualKeys.mk left right false)) _
    rw [hx, hy]
    show Agrees base _ own (E.leftKdf.newSessionCopy x summary >>= fun left => E.rightKdf.newSessionCopy y summary >>= fun right => pure (DualKeys.mk left right false)) _
    refine Agrees.bind (agrees_session sx summary) fun l ml v hl => Agrees.bind (agrees_session (hl.1.sees sy) summary) fun r mr w hr =>
      Agrees.pure ⟨hl.1.trans hr.1, rfl, hr.1.grows _ _ hl.2.2, hr.2.2, ?_, ?_, ?_⟩
    · intro e
      rw [← e, hl.2.1] at ha
      cases ha
    · intro e
      have := hl.1.grows _ _ ha
      rw [← e, hr.2.1] at this
      cases this
    · intro e
      have h1 := hl.2.2
      have h2 := hr.2.1
      simp only at e
      rw [e, h2] at h1
      cases h1
  turn := fun block hm h hk => agrees_dualTurn hm h hk block

/-! ### calls -/

/-- The hash objects of a cipher object have this key. -/
def ObjKeyed {ρ σ κ : Type} {H : CipherClass ρ σ} {C : Cipher κ} (R : Refines H C) (S : Ref → Hasher → Prop) (obj : CipherObj ρ) (key : Bytes) : Prop :=
  testKeyValidity key = .ok () ∧ (∃ x, C.shmacKdf.keyed key = .ok x ∧ S obj.shmac ⟨C.shmacKdf.xof, x⟩) ∧ R.keyed S obj.others key

section

variable {ρ σ κ : Type} {H : CipherClass ρ σ} {C : Cipher κ} (R : Refines H C) {base own : View}

/-- A session object with its hash object at `a` stands for a session. -/
def SessionRel (a : Ref) (x : SessionObj σ) (y : Cipher.Session κ) (v : View) : Prop :=
  (∃ m, v a = some ⟨C.shmacKdf.xof, m⟩ ∧ Stands a m x.shmac y.shmac) ∧ R.rel a x.keys y.keys v

theorem agrees_make {key : Bytes} (hf : R.factories base) (hs : base H.factory = some ⟨C.shmacKdf.xof, C.shmacKdf.factory⟩) (he : Extends base (fun _ => none) own)
    (hu : R.usable key) (ht : testKeyValidity key = .ok ()) (hk : ∃ x, C.shmacKdf.keyed key = .ok x) :
    Agrees base (H.make key) own (.ok ()) fun obj _ v => Extends base own v ∧ ObjKeyed R (sees base v) obj key := by
  obtain ⟨x, hx⟩ := hk
  unfold CipherClass.make
  rw [R.env]
  show Agrees base _ own ((Except.ok () : Except Err Unit) >>= fun _ => (Except.ok x : Except Err Bytes) >>= fun _ => (Except.ok () : Except Err Unit) >>= fun _ => pure ()) _
  rw [ht, ← hx]
  refine Agrees.same fun _ _ => Agrees.bind (agrees_keyed (he.of_empty hs) key).known fun l ml v hl => Agrees.bind (R.keyOthers hf (he.trans hl.1.1) hu) fun o _ w ho => ?_
  exact Agrees.pure ⟨hl.1.1.trans ho.1, ht, ⟨ml, hl.2, .inl (ho.1.grows _ _ hl.1.2.2)⟩, ho.2⟩

theorem agrees_startSession {obj : CipherObj ρ} {key : Bytes} (ho : ObjKeyed R (sees base own) obj key) (b : SaltAADIV) (d : Direction) :
    Agrees base (H.startSession obj b d) own (C.startSession key b d) fun x y v => ∃ a, SessionRel R a x y v := by
  obtain ⟨ht, ⟨x, hx, sx⟩, ho⟩ := ho
  unfold CipherClass.startSession Cipher.startSession
  rw [ht, hx, R.env, R.configId]
  refine Agrees.same fun summary _ => Agrees.bind (agrees_session sx summary) fun a m v hv => ?_
  refine Agrees.bind (R.session summary (R.keyed_mono (fun _ _ => hv.1.sees) ho) hv.2.2) fun k k' w hw => ?_
  have hm := hw.1.grows _ _ hv.2.2
  refine Agrees.bind (agrees_new C.toEnv C.configId hm _) fun o s u hu => ?_
  obtain ⟨rfl, hst⟩ := hu
  cases d with
  | encryption => exact Agrees.bind (agrees_forEncryption hst) fun o' s' u' hu' => Agrees.pure ⟨a, ⟨m, hu'.1 ▸ hm, hu'.2⟩, hu'.1 ▸ hw.2⟩
  | decryption => exact Agrees.bind (agrees_forDecryption hst) fun o' s' u' hu' => Agrees.pure ⟨a, ⟨m, hu'.1 ▸ hm, hu'.2⟩, hu'.1 ▸ hw.2⟩

theorem agrees_run {a : Ref} (blocks : List Bytes) : ∀ {own : View} {x : SessionObj σ} {y : Cipher.Session κ}, SessionRel R a x y own →
    Agrees base (H.run x blocks) own (C.run y blocks) fun x y v => x.1 = y.1 ∧ SessionRel R a x.2 y.2 v := by
  induction blocks with
  | nil => intro own x y h; exact Agrees.pure ⟨rfl, h⟩
  | cons block blocks ih =>
    intro own x y h
    obtain ⟨⟨m, hm, hst⟩, hr⟩ := h
    unfold CipherClass.run Cipher.run
    refine Agrees.bind (R.turn block hm hst hr) fun p q v hv => ?_
    refine Agrees.bind (ih (x := ⟨p.2.1, p.2.2⟩) (y := ⟨q.2.1, q.2.2⟩) ⟨hv.2.1, hv.2.2⟩) fun r s w hw => Agrees.pure ⟨?_, hw.2⟩
    rw [hv.1, hw.1]

theorem agrees_bytesEncrypt {obj : CipherObj ρ} {key : Bytes} (ho : ObjKeyed R (sees base own) obj key) (d : Draws) (salt : Option Bytes) (aad data : Bytes) :
    Agrees base (H.bytesEncrypt obj d salt aad data) own (C.bytesEncrypt key d salt aad data) fun x y _ => x = y := by
  unfold CipherClass.bytesEncrypt Cipher.bytesEncrypt
  rw [R.env]
  refine Agrees.same fun bundle _ => Agrees.bind (agrees_startSession R ho bundle _) fun x y v hv => Agrees.same fun padded _ => ?_
  obtain ⟨a, hv⟩ := hv
  refine Agrees.bind (agrees_run R _ hv) fun p q w hw => ?_
  obtain ⟨hb, ⟨m, hm, hst⟩, _⟩ := hw
  refine Agrees.bind (agrees_finalize hm hst) fun r s _ hr => Agrees.pure ?_
  rw [hb, hr.1]

theorem agrees_bytesDecrypt {obj : CipherObj ρ} {key : Bytes} (ho : ObjKeyed R (sees base own) obj key) (saltDraw : Bytes) (now : Int) (ttl : Option Int) (aad data : Bytes) :
    Agrees base (H.bytesDecrypt obj saltDraw now ttl aad data) own (C.bytesDecrypt key saltDraw now ttl aad data) fun x y _ => x = y := by
  unfold CipherClass.bytesDecrypt Cipher.bytesDecrypt
  rw [R.env]
  refine Agrees.same fun parts _ => Agrees.same fun bundle _ => Agrees.bind (agrees_startSession R ho bundle _) fun x y v hv => ?_
  obtain ⟨a, hv⟩ := hv
  refine Agrees.bind (agrees_run R _ hv) fun p q w hw => ?_
  obtain ⟨hb, ⟨m, hm, hst⟩, _⟩ := hw
  refine Agrees.bind (agrees_finalize hm hst) fun r s _ hr => Agrees.bind (agrees_testShmac hr.2 _) fun _ _ _ _ => ?_
  rw [hb]
  exact Agrees.ofLift fun _ _ => rfl

end

end Aiootp.Cipher
