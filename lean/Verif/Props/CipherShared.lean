import Verif.Lemmas.CipherCalls
import Verif.Props.Cipher

/-
C103: any number of threads and coroutines that use the same cipher objects at the same time.
-/

namespace Aiootp.Cipher

open Prog

/-! ### specification -/

/-- The key of a call's cipher object, if `keys` are those of the shared ones. -/
def Source.key (keys : List Bytes) : Source → Except Err Bytes
  | .shared i => attr keys[i]?
  | .fresh key => .ok key

/-- What a call returns or raises if there is no other, as a function of its arguments and draws. -/
def CipherCall.expected {κ : Type} (C : Cipher κ) (keys : List Bytes) : CipherCall → Except Err Bytes
  | .encrypt on d salt aad data => do C.bytesEncrypt (← on.key keys) d salt aad data
  | .decrypt on saltDraw now ttl aad data => do C.bytesDecrypt (← on.key keys) saltDraw now ttl aad data

/-- A key that the constructor accepts: long enough, and with a length that fits into eight bytes. -/
def KeyFits (key : Bytes) : Prop := minKeyBytes ≤ key.length ∧ key.length < 256 ^ 8

/-- If the call makes a cipher object, then with a key that the constructor accepts. -/
def CipherCall.Fit : CipherCall → Prop
  | .encrypt (.fresh key) .. => KeyFits key
  | .decrypt (.fresh key) .. => KeyFits key
  | _ => True

/-- The first `n` turns of an endless schedule. -/
def turns (schedule : Nat → Nat) (n : Nat) : List Nat := (List.range n).map schedule

/-- Cipher objects of the class `H` with these keys serve any number of calls at once: whatever the schedule, a call that has ended has ended as if it were alone, and a
call that gets turns again and again ends. -/
def ServesAll {ρ σ κ : Type} (H : CipherClass ρ σ) (C : Cipher κ) (heap : List Hasher) (keys : List Bytes) : Prop :=
  ∃ objs heap', (H.makeAll keys).alone heap = (.ok objs, heap') ∧
    ∀ calls : List CipherCall, (∀ c ∈ calls, c.Fit) → ∀ i call, calls[i]? = some call →
      let w : Calls := ⟨heap', calls.map (·.start H objs)⟩
      (∀ schedule r, (w.run schedule).result i = some r → r = call.expected C keys) ∧
      ∀ schedule : Nat → Nat, (∀ n, ∃ m, n ≤ m ∧ schedule m = i) → ∃ n, (w.run (turns schedule n)).result i = some (call.expected C keys)

/-! ### proofs -/

section

variable {ρ σ κ : Type} {H : CipherClass ρ σ} {C : Cipher κ} (R : Refines H C)

/-- A key with which every hash object of a cipher object can be keyed. -/
structure Keyable (key : Bytes) : Prop where
  valid : testKeyValidity key = .ok ()
  keyed : ∃ x, C.shmacKdf.keyed key = .ok x
  others : R.usable key

theorem agrees_makeAll {base : View} (hf : R.factories base) (hs : base H.factory = some ⟨C.shmacKdf.xof, C.shmacKdf.factory⟩) (keys : List Bytes) :
    ∀ {own : View}, Extends base (fun _ => none) own → (∀ key ∈ keys, Keyable R key) →
      Agrees base (H.makeAll keys) own (.ok ()) fun objs _ v => Extends base own v ∧ List.Forall₂ (ObjKeyed R (sees base v)) objs keys := by
  induction keys with
  | nil => intro own he _; exact Agrees.pure ⟨Extends.refl base own, .nil⟩
  | cons key keys ih =>
    intro own he hk
    have h1 := hk key (List.mem_cons_self ..)
    show Agrees base (H.make key >>= fun obj => H.makeAll keys >>= fun objs => pure (obj :: objs)) own
      ((Except.ok () : Except Err Unit) >>= fun _ => (Except.ok () : Except Err Unit) >>= fun _ => pure ()) _
    refine Agrees.bind (agrees_make R hf hs he h1.others h1.valid h1.keyed) fun obj _ v hv => ?_
    refine Agrees.bind (ih (he.trans hv.1) fun k hk' => hk k (List.mem_cons_of_mem _ hk')) fun objs _ w hw => Agrees.pure ⟨hv.1.trans hw.1, .cons ?_ hw.2⟩
    obtain ⟨h3, ⟨x, hx, sx⟩, h4⟩ := hv.2
    exact ⟨h3, ⟨x, hx, hw.1.sees sx⟩, R.keyed_mono (fun _ _ => hw.1.sees) h4⟩

theorem forall₂_get {α β : Type} {P : α → β → Prop} {l : List α} {l' : List β} (h : List.Forall₂ P l l') : ∀ i : Nat,
    (l[i]? = none ∧ l'[i]? = none) ∨ ∃ x y, l[i]? = some x ∧ l'[i]? = some y ∧ P x y := by
  induction h with
  | nil => intro i; exact .inl ⟨by simp, by simp⟩
  | cons hx _ ih =>
    intro i
    cases i with
    | zero => exact .inr ⟨_, _, rfl, rfl, hx⟩
    | succ i => simpa using ih i

/-- Getting the cipher object of a call. -/
theorem agrees_source {base : View} (hf : R.factories base) (hs : base H.factory = some ⟨C.shmacKdf.xof, C.shmacKdf.factory⟩) {objs : List (CipherObj ρ)} {keys : List Bytes}
    (ho : List.Forall₂ (ObjKeyed R (sees base fun _ => none)) objs keys) (on : Source) (hk : ∀ key, on = .fresh key → Keyable R key) :
    Agrees base (on.obj H objs) (fun _ => none) (on.key keys) fun obj key v => ObjKeyed R (sees base v) obj key := by
  cases on with
  | shared i =>
    rcases forall₂_get ho i with ⟨h1, h2⟩ | ⟨x, y, h1, h2, h3⟩
    · show Agrees base (lift (attr objs[i]?)) _ (attr keys[i]?) _
      rw [h1, h2]; exact rfl
    · show Agrees base (lift (attr objs[i]?)) _ (attr keys[i]?) _
      rw [h1, h2]; exact h3
  | fresh key =>
    have h1 := hk key rfl
    have := agrees_make R hf hs (Extends.refl base fun _ => none) h1.others h1.valid h1.keyed
    refine Prog.Ends.mono this ?_
    intro x v hx
    cases x with
    | error e => exact hx
    | ok y => exact hx.2

theorem agrees_call {base : View} (hf : R.factories base) (hs : base H.factory = some ⟨C.shmacKdf.xof, C.shmacKdf.factory⟩) {objs : List (CipherObj ρ)} {keys : List Bytes}
    (ho : List.Forall₂ (ObjKeyed R (sees base fun _ => none)) objs keys) (hu : ∀ key, KeyFits key → Keyable R key) {call : CipherCall} (hc : call.Fit) :
    (call.start H objs).Ends base (fun _ => none) fun r _ => r = call.expected C keys := by
  have fin : ∀ {p : Prog Bytes} {e : Except Err Bytes}, Agrees base p (fun _ => none) e (fun x y _ => x = y) → p.Ends base (fun _ => none) fun r _ => r = e := by
    intro p e h
    refine Prog.Ends.mono h ?_
    intro x v hx
    cases x <;> cases e <;> simp_all
  cases call with
  | encrypt on d salt aad data =>
    refine fin (Agrees.bind (agrees_source R hf hs ho on ?_) fun obj key v hv => agrees_bytesEncrypt R hv d salt aad data)
    rintro key rfl; exact hu key hc
  | decrypt on saltDraw now ttl aad data =>
    refine fin (Agrees.bind (agrees_source R hf hs ho on ?_) fun obj key v hv => agrees_bytesDecrypt R hv saltDraw now ttl aad data)
    rintro key rfl; exact hu key hc

theorem serves_all {heap : List Hasher} (hf : R.factories fun a => heap[a]?) (hs : heap[H.factory]? = some ⟨C.shmacKdf.xof, C.shmacKdf.factory⟩) {keys : List Bytes}
    (hu : ∀ key, KeyFits key → Keyable R key) (hk : ∀ key ∈ keys, KeyFits key) : ServesAll H C heap keys := by
  obtain ⟨v, hq, hc⟩ := Covers.alone (H.makeAll keys) (heap := heap) (base := fun a => heap[a]?) (own := fun _ => none) ⟨fun _ _ h => h, fun _ _ h => (nomatch h), fun _ h => absurd rfl h⟩
    (agrees_makeAll R hf hs keys (Extends.refl _ _) fun key h => hu key (hk key h))
  cases hx : ((H.makeAll keys).alone heap).1 with
  | error e => rw [hx] at hq; exact hq.elim
  | ok objs =>
    rw [hx] at hq
    obtain ⟨_, hobjs⟩ := hq
    refine ⟨objs, ((H.makeAll keys).alone heap).2, Prod.ext hx rfl, ?_⟩
    intro calls hfit i call hcall w
    let base : View := fun a => ((H.makeAll keys).alone heap).2[a]?
    have hobjs' : List.Forall₂ (ObjKeyed R (sees base fun _ => none)) objs keys := by
      refine hobjs.imp ?_
      intro obj key ⟨h1, ⟨x, hx, sx⟩, h3⟩
      have up : ∀ a h, sees (fun a => heap[a]?) v a h → sees base (fun _ => none) a h := fun a h hh => .inr ⟨rfl, sees_heap hc.base_heap hc.own_heap hh⟩
      exact ⟨h1, ⟨x, hx, up _ _ sx⟩, R.keyed_mono up h3⟩
    have hf' : R.factories base := R.factories_mono hc.base_heap hf
    have hs' : base H.factory = some ⟨C.shmacKdf.xof, C.shmacKdf.factory⟩ := hc.base_heap _ _ hs
    have inv : Calls.Inv base (fun j => (calls[j]?.map fun c => c.expected C keys).getD (.error .attribute)) w fun _ _ => none := by
      refine ⟨fun _ _ h => h, fun _ _ _ h => (nomatch h), fun _ _ h => absurd rfl h, fun _ _ _ _ => .inl rfl, ?_⟩
      intro j p hp
      simp only [w, List.getElem?_map, Option.map_eq_some_iff] at hp
      obtain ⟨c, hc, rfl⟩ := hp
      rw [hc]
      exact agrees_call R hf' hs' hobjs' hu (hfit c (List.mem_of_getElem? hc))
    have safe : ∀ schedule r, (w.run schedule).result i = some r → r = call.expected C keys := by
      intro schedule r hr
      obtain ⟨owns, h⟩ := inv.run schedule
      have := h.result hr
      rw [hcall] at this
      exact this
    refine ⟨safe, ?_⟩
    intro schedule hfair
    obtain ⟨n, r, _, hr⟩ := w.ends_fair schedule i hfair (call.start H objs) 0 (by simp [w, Calls.run, hcall])
    have hres : (w.run (turns schedule n)).result i = some r := by
      unfold Calls.result turns
      rw [hr]
    exact ⟨n, by rw [hres, safe _ r hres]⟩

end

theorem KeyFits.valid {key : Bytes} (h : KeyFits key) : testKeyValidity key = .ok () ∧ key ≠ [] ∧ key.length < 256 ^ 8 := by
  refine ⟨?_, ?_, h.2⟩
  · unfold testKeyValidity raiseIf
    rw [if_neg (Nat.not_lt.2 h.1)]
  · rintro rfl
    exact absurd h.1 (by decide)

/-- C103 for `Slick256` and every other shake-permute cipher. The factory is a hash object of the module. -/
theorem C103_permute {E : Env} (hw : E.shmacKdf.WF) {heap : List Hasher} {factory : Ref} (hf : heap[factory]? = some ⟨E.shmacKdf.xof, E.shmacKdf.factory⟩) {keys : List Bytes}
    (hk : ∀ key ∈ keys, KeyFits key) : ServesAll (permuteClass E factory) (permuteCipher E) heap keys :=
  serves_all (permuteRefines E factory) trivial hf (fun _ h => ⟨h.valid.1, hw.keyed_ok h.valid.2.1 h.valid.2.2, trivial⟩) hk

/-- C103 for `Chunky2048` and every other dual-output cipher. -/
theorem C103_dual {E : DualEnv} (hw : E.shmacKdf.WF) (hl : E.leftKdf.WF) (hr : E.rightKdf.WF) {heap : List Hasher} {factory leftFactory rightFactory : Ref}
    (hf : heap[factory]? = some ⟨E.shmacKdf.xof, E.shmacKdf.factory⟩) (hlf : heap[leftFactory]? = some ⟨E.leftKdf.xof, E.leftKdf.factory⟩)
    (hrf : heap[rightFactory]? = some ⟨E.rightKdf.xof, E.rightKdf.factory⟩) {keys : List Bytes} (hk : ∀ key ∈ keys, KeyFits key) :
    ServesAll (dualClass E factory leftFactory rightFactory) (dualCipher E) heap keys :=
  serves_all (dualRefines E factory leftFactory rightFactory) ⟨hlf, hrf⟩ hf
    (fun _ h => ⟨h.valid.1, hw.keyed_ok h.valid.2.1 h.valid.2.2, hl.keyed_ok h.valid.2.1 h.valid.2.2, hr.keyed_ok h.valid.2.1 h.valid.2.2⟩) hk

/-! ### a case -/

theorem CipherCall.expected_shared {κ : Type} (C : Cipher κ) {keys : List Bytes} {i : Nat} {key : Bytes} (h : keys[i]? = some key) (d : Draws) (salt : Option Bytes) (aad data : Bytes) :
    (CipherCall.encrypt (.shared i) d salt aad data).expected C keys = C.bytesEncrypt key d salt aad data := by
  simp only [CipherCall.expected, Source.key, h, attr]
  rfl

theorem sampleKdf_wf : sampleKdf.WF := ⟨⟨_, rfl⟩, by decide, by decide⟩

theorem sampleKey_fits : KeyFits sampleKey := by
  unfold KeyFits sampleKey minKeyBytes
  rw [List.length_replicate]
  exact ⟨by decide, by decide⟩

/-- Two messages encrypted by the first of two cipher objects and one by a new one, and the decryption of anything by the second. -/
def sampleCalls (c : Sizes) (anything : Bytes) : List CipherCall := [
  .encrypt (.shared 0) (sampleDraws c) none [] [1, 2], .encrypt (.shared 0) (sampleDraws c) none [7] [3],
  .encrypt (.fresh sampleKey) (sampleDraws c) none [] [4], .decrypt (.shared 1) [] 1700000 none [] anything]

theorem sampleCalls_fit (c : Sizes) (anything : Bytes) : ∀ call ∈ sampleCalls c anything, call.Fit := by
  intro call h
  simp only [sampleCalls, List.mem_cons, List.not_mem_nil, or_false] at h
  rcases h with rfl | rfl | rfl | rfl
  · exact trivial
  · exact trivial
  · exact sampleKey_fits
  · exact trivial

/-- With the factories in a module of three hash objects, the four calls take turns; the second ends after finitely many turns, with what it returns if it is alone. -/
example (anything : Bytes) : ∃ objs heap, ((dualClass sampleChunky 0 1 2).makeAll [sampleKey, sampleKey]).alone (List.replicate 3 ⟨sampleXof, [1, 2, 3]⟩) = (.ok objs, heap) ∧
    ∃ n, ((Calls.mk heap ((sampleCalls sampleChunky.cfg anything).map (·.start (dualClass sampleChunky 0 1 2) objs))).run (turns (· % 4) n)).result 1 =
      some ((dualCipher sampleChunky).bytesEncrypt sampleKey (sampleDraws sampleChunky.cfg) none [7] [3]) := by
  obtain ⟨objs, heap, h, hc⟩ := C103_dual (E := sampleChunky) sampleKdf_wf sampleKdf_wf sampleKdf_wf (heap := List.replicate 3 ⟨sampleXof, [1, 2, 3]⟩) (factory := 0) (leftFactory := 1)
    (rightFactory := 2) rfl rfl rfl (keys := [sampleKey, sampleKey]) (by intro key hk; simp only [List.mem_cons, List.not_mem_nil, or_false, or_self] at hk; exact hk ▸ sampleKey_fits)
  rw [← CipherCall.expected_shared _ (keys := [sampleKey, sampleKey]) (i := 0) rfl]
  exact ⟨objs, heap, h, (hc _ (sampleCalls_fit _ anything) 1 _ rfl).2 _ fun n => ⟨4 * n + 1, by omega, by show (4 * n + 1) % 4 = 1; omega⟩⟩

example (anything : Bytes) : ∃ objs heap, ((permuteClass sampleSlick 0).makeAll [sampleKey, sampleKey]).alone [⟨sampleXof, [1, 2, 3]⟩] = (.ok objs, heap) ∧
    ∃ n, ((Calls.mk heap ((sampleCalls sampleSlick.cfg anything).map (·.start (permuteClass sampleSlick 0) objs))).run (turns (· % 4) n)).result 1 =
      some ((permuteCipher sampleSlick).bytesEncrypt sampleKey (sampleDraws sampleSlick.cfg) none [7] [3]) := by
  obtain ⟨objs, heap, h, hc⟩ := C103_permute (E := sampleSlick) sampleKdf_wf (heap := [⟨sampleXof, [1, 2, 3]⟩]) (factory := 0) rfl (keys := [sampleKey, sampleKey])
    (by intro key hk; simp only [List.mem_cons, List.not_mem_nil, or_false, or_self] at hk; exact hk ▸ sampleKey_fits)
  rw [← CipherCall.expected_shared _ (keys := [sampleKey, sampleKey]) (i := 0) rfl]
  exact ⟨objs, heap, h, (hc _ (sampleCalls_fit _ anything) 1 _ rfl).2 _ fun n => ⟨4 * n + 1, by omega, by show (4 * n + 1) % 4 = 1; omega⟩⟩

end Aiootp.Cipher
