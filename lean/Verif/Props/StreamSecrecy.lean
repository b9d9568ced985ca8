import Verif.Lemmas.StreamSecrecyRun
import Verif.Props.Secrecy

/-
C98: what streams say about what they encrypt.
-/

namespace Aiootp.Secrecy

open Oracle Cipher Cipher.Cipher Perm

variable {K : Nat}

/-- The question for a block id. -/
theorem idInput_inj {E : Env} {d d' X X' : Bytes} {n : Nat} (h : d.length = n) (h' : d'.length = n) (e : idInput E d X = idInput E d' X') : d = d' := by
  unfold idInput at e
  rw [List.append_cancel_left_eq] at e
  simp only [List.append_assoc] at e
  exact (List.append_inj e (h.trans h'.symm)).1

theorem constants_apart {f g x : Bytes} (hl : f.length = g.length) (hne : f ≠ g) (w w' : Bytes) (h : f ++ w = x) : g ++ w' ≠ x := by
  rintro rfl
  exact hne (List.append_inj h hl).1

/-! ### the shake-permute ciphers -/

def permutePlan (K : Nat) (E : Env) : Plan K Unit where
  c := E.cfg
  i := E.cfg.blocksize
  permOf := permFrom E E.cfg.blocksize
  step := permuteStep E.cfg
  mac0 := sessionOf E.shmacKdf
  keys0 := fun _ => ()
  inv := fun r j m _ => exactly (sessionOf E.shmacKdf r) (E.cfg.shmacBlocksize * j) m
  past := fun r j => under (sessionOf E.shmacKdf r) (E.cfg.shmacBlocksize * j)
  mid := fun r j => under (sessionOf E.shmacKdf r) (E.cfg.shmacBlocksize * j)
  idq := idInput E

theorem permutePlan_ok {E : Env} (h : PermuteSetup E) (hK : E.cfg.primerKeyBytes (5 * E.cfg.blocksize) ≤ K) (hl : E.blockIdKdf.factory.length = E.shmacKdf.factory.length)
    (hne : E.blockIdKdf.factory ≠ E.shmacKdf.factory) : (permutePlan K E).OK := by
  have u := h.usable
  refine ⟨u.accepted, fun {r} _ => permute_machine h hK _, fun {r} _ => ⟨⟨[], (List.append_nil _).symm, rfl⟩, ⟨[], (List.append_nil _).symm, Nat.zero_le _⟩⟩, fun {r r'} hv hv' hlen hn j j' q => ?_, fun h1 h2 e => idInput_inj h1 h2 e,
    fun {r} hv j d X => ?_⟩
  · rintro ⟨w, rfl, _⟩ ⟨w', e, _⟩
    exact sessions_apart u.env.kdf h.salt_lt h.iv_lt hv hv' hlen hn w w' e
  · rintro ⟨w, e, _⟩
    obtain ⟨w', e'⟩ := sessionOf_key (k := E.shmacKdf) u.env.kdf h.salt_lt h.iv_lt hv
    rw [e', List.append_assoc, List.append_assoc] at e
    exact constants_apart hl hne _ _ e rfl

theorem permutePlan_runs {E : Env} (h : PermuteSetup E) (hs : Streamable E.cfg) (hK : E.cfg.primerKeyBytes (5 * E.cfg.blocksize) ≤ K) (hid : E.cfg.blockIdBytes ≤ K) (known : Xof)
    (D : Finset Bytes) (T : Hash D K) :
    (permutePlan K E).Runs (permuteCipher { E with shmacKdf := { E.shmacKdf with xof := T.xof known }, blockIdKdf := { E.blockIdKdf with xof := T.xof known } }) T known := by
  have h1 : PermuteSetup { E with blockIdKdf := { E.blockIdKdf with xof := T.xof known } } :=
    ⟨h.accepted, h.permutation, h.blocksize, h.pad, h.tag_pos, h.tag_le, h.salt_lt, h.iv_lt⟩
  have h2 := rehash_setup h1 (T.xof known)
  refine ⟨⟨permuteSound _ h2.permuteWF⟩, h2.usable, hs, rfl, rfl, rfl, rfl, rfl, fun _ _ => rfl, hK, hid, fun r => permute_turns h1 known T _, fun {r} hv => ?_⟩
  obtain ⟨summary, kdf, a1, a2, a3⟩ := sessionOf_ok (k := E.shmacKdf) h.usable.env.kdf h.salt_lt h.iv_lt hv
  exact ⟨summary, kdf, a1, a2, a3, rfl⟩

/-- **C98**. Streams of the shake-permute ciphers say nothing but sizes about what they encrypt, if the constant of the block ids is as long as that of the stream-hmac and different. -/
theorem C98_permute {E : Env} (h : PermuteSetup E) (hs : Streamable E.cfg) (hK : E.cfg.primerKeyBytes (5 * E.cfg.blocksize) ≤ K) (hid : E.cfg.blockIdBytes ≤ K)
    (hl : E.blockIdKdf.factory.length = E.shmacKdf.factory.length) (hne : E.blockIdKdf.factory ≠ E.shmacKdf.factory) :
    StreamsHide E.cfg [E.shmacKdf.factory] E.blockIdKdf.factory K fun x ask n =>
      streaming (permuteCipher { E with shmacKdf := { E.shmacKdf with xof := x }, blockIdKdf := { E.blockIdKdf with xof := x } }) ask n [] [] := by
  refine streams_hide (permutePlan_ok h hK hl hne) (fun known D T => permutePlan_runs h hs hK hid known D T) ?_ ?_
  · rintro r hv j q ⟨w, rfl, _⟩
    obtain ⟨w', e⟩ := sessionOf_key (k := E.shmacKdf) h.usable.env.kdf h.salt_lt h.iv_lt hv
    exact ⟨E.shmacKdf.factory, by simp, w' ++ w, by rw [e]; simp only [List.append_assoc]⟩
  · intro d X
    exact ⟨_, rfl⟩

/-! ### the dual output ciphers -/

def dualPlan (K : Nat) (E : DualEnv) (n : Nat) : Plan K DualKeys where
  c := E.cfg
  i := E.cfg.innerHeaderBytes
  permOf := permFrom E.toEnv E.cfg.innerHeaderBytes
  step := dualStep E
  mac0 := sessionOf E.shmacKdf
  keys0 := fun r => ⟨sessionOf E.leftKdf r, sessionOf E.rightKdf r, false⟩
  inv := fun r => DualInv E n (sessionOf E.shmacKdf r) (sessionOf E.leftKdf r) (sessionOf E.rightKdf r)
  past := fun r => dualPast E n (sessionOf E.shmacKdf r) (sessionOf E.leftKdf r) (sessionOf E.rightKdf r)
  mid := fun r => dualMid E n (sessionOf E.shmacKdf r) (sessionOf E.leftKdf r) (sessionOf E.rightKdf r)
  idq := idInput E.toEnv

section
variable {E : DualEnv} (h : DualSetup E)
include h

theorem dual_begins {r : Request} (hv : r.Valid E.cfg) : (∃ w, sessionOf E.shmacKdf r = E.shmacKdf.factory ++ (r.key ++ w)) ∧
    (∃ w, sessionOf E.leftKdf r = E.leftKdf.factory ++ (r.key ++ w)) ∧ ∃ w, sessionOf E.rightKdf r = E.rightKdf.factory ++ (r.key ++ w) := by
  obtain ⟨a, ha⟩ := sessionOf_key (k := E.shmacKdf) h.usable.env.kdf h.salt_lt h.iv_lt hv
  obtain ⟨b, hb⟩ := sessionOf_key (k := E.leftKdf) h.sides.1 h.salt_lt h.iv_lt hv
  obtain ⟨c, hc⟩ := sessionOf_key (k := E.rightKdf) h.sides.2 h.salt_lt h.iv_lt hv
  rw [List.append_assoc] at ha hb hc
  exact ⟨⟨a, ha⟩, ⟨b, hb⟩, ⟨c, hc⟩⟩

theorem dual_apart {n : Nat} (hsep : Separated E n) {r r' : Request} (hv : r.Valid E.cfg) (hv' : r'.Valid E.cfg) :
    Apart (sessionOf E.shmacKdf r) (sessionOf E.leftKdf r') ∧ Apart (sessionOf E.shmacKdf r) (sessionOf E.rightKdf r') ∧ Apart (sessionOf E.leftKdf r) (sessionOf E.rightKdf r') := by
  have diff : ∀ {f g x y : Bytes}, f.length = g.length → f ≠ g → (∃ w, x = f ++ w) → (∃ w, y = g ++ w) → Apart x y := by
    rintro f g _ _ hl hne ⟨w, rfl⟩ ⟨w', rfl⟩ v v' e
    rw [List.append_assoc, List.append_assoc] at e
    exact hne (List.append_inj e hl).1
  obtain ⟨⟨a, ha⟩, ⟨b, hb⟩, _⟩ := dual_begins h hv
  obtain ⟨_, ⟨b', hb'⟩, ⟨c', hc'⟩⟩ := dual_begins h hv'
  exact ⟨diff hsep.left_length.symm hsep.left_ne ⟨_, ha⟩ ⟨_, hb'⟩, diff hsep.right_length.symm hsep.right_ne ⟨_, ha⟩ ⟨_, hc'⟩,
    diff (hsep.left_length.trans hsep.right_length.symm) hsep.sides_ne ⟨_, hb⟩ ⟨_, hc'⟩⟩

theorem dualPlan_ok {n : Nat} (hsep : Separated E n) (hK : E.cfg.primerKeyBytes (5 * E.cfg.innerHeaderBytes) ≤ K) (hl : E.blockIdKdf.factory.length = E.shmacKdf.factory.length)
    (h1 : E.blockIdKdf.factory ≠ E.shmacKdf.factory) (h2 : E.blockIdKdf.factory ≠ E.leftKdf.factory) (h3 : E.blockIdKdf.factory ≠ E.rightKdf.factory) : (dualPlan K E n).OK := by
  have u := h.usable
  refine ⟨u.accepted, fun {r} hv => dual_machine h hsep.bytes hsep.pos hK (dual_apart h hsep hv hv).1 (dual_apart h hsep hv hv).2.1 (dual_apart h hsep hv hv).2.2,
    fun {r} _ => ⟨⟨rfl, ⟨[], (List.append_nil _).symm, rfl⟩, ⟨[], (List.append_nil _).symm, rfl⟩, ⟨[], (List.append_nil _).symm, rfl⟩⟩, .inl ⟨[], (List.append_nil _).symm, Nat.zero_le _⟩⟩, fun {r r'} hv hv' hlen hn j j' q => ?_,
    fun h1 h2 e => idInput_inj h1 h2 e, fun {r} hv j d X => ?_⟩
  · have same : ∀ {k : KdfConfig}, k.WF → ∀ w w', sessionOf k r ++ w ≠ sessionOf k r' ++ w' := fun hk => sessions_apart hk h.salt_lt h.iv_lt hv hv' hlen hn
    have ap := dual_apart h hsep hv hv'
    have ap' := dual_apart h hsep hv' hv
    rintro (⟨w, rfl, _⟩ | ⟨w, rfl, _⟩ | ⟨w, rfl, _⟩) (⟨w', e, _⟩ | ⟨w', e, _⟩ | ⟨w', e, _⟩)
    · exact same u.env.kdf w w' e
    · exact ap.1 w w' e
    · exact ap.2.1 w w' e
    · exact ap'.1 w' w e.symm
    · exact same h.sides.1 w w' e
    · exact ap.2.2 w w' e
    · exact ap'.2.1 w' w e.symm
    · exact ap'.2.2 w' w e.symm
    · exact same h.sides.2 w w' e
  · obtain ⟨⟨a, ha⟩, ⟨b, hb⟩, ⟨c, hc⟩⟩ := dual_begins h hv
    rintro (⟨w, e, _⟩ | ⟨w, e, _⟩ | ⟨w, e, _⟩)
    · rw [ha, List.append_assoc] at e
      exact constants_apart hl h1 _ _ e rfl
    · rw [hb, List.append_assoc] at e
      exact constants_apart (hl.trans hsep.left_length.symm) h2 _ _ e rfl
    · rw [hc, List.append_assoc] at e
      exact constants_apart (hl.trans hsep.right_length.symm) h3 _ _ e rfl

theorem dualPlan_runs {n : Nat} (hs : Streamable E.cfg) (hK : E.cfg.primerKeyBytes (5 * E.cfg.innerHeaderBytes) ≤ K) (hid : E.cfg.blockIdBytes ≤ K) (known : Xof)
    (D : Finset Bytes) (T : Hash D K) :
    (dualPlan K E n).Runs (dualCipher { E with
      shmacKdf := { E.shmacKdf with xof := T.xof known }, blockIdKdf := { E.blockIdKdf with xof := T.xof known }, leftKdf := { E.leftKdf with xof := T.xof known },
      rightKdf := { E.rightKdf with xof := T.xof known } }) T known := by
  have h1 : DualSetup { E with blockIdKdf := { E.blockIdKdf with xof := T.xof known } } :=
    ⟨h.accepted, h.permutation, h.blocksize, h.pad, h.left_pad, h.right_pad, h.left_lt, h.tag_pos, h.tag_le, h.salt_lt, h.iv_lt⟩
  have h2 := rehashDual_setup h1 (T.xof known)
  refine ⟨⟨dualSound _ h2.wf h2.sides.1 h2.sides.2⟩, h2.usable, hs, rfl, rfl, rfl, rfl, rfl, fun _ _ => rfl, hK, hid, fun r => ?_, fun {r} hv => ?_⟩
  · intro j m p d perm k b hi
    exact @dual_turns K _ h1 n hK D known T (sessionOf E.shmacKdf r) (sessionOf E.leftKdf r) (sessionOf E.rightKdf r) j m p d perm k b ⟨hi.1, hi.2, hi.3, hi.4⟩
  obtain ⟨summary, kdf, a1, a2, a3⟩ := sessionOf_ok (k := E.shmacKdf) h.usable.env.kdf h.salt_lt h.iv_lt hv
  obtain ⟨summary', kdfl, l1, l2, l3⟩ := sessionOf_ok (k := E.leftKdf) h.sides.1 h.salt_lt h.iv_lt hv
  obtain ⟨summary'', kdfr, r1, r2, r3⟩ := sessionOf_ok (k := E.rightKdf) h.sides.2 h.salt_lt h.iv_lt hv
  rw [a1] at l1 r1
  cases l1; cases r1
  refine ⟨summary, kdf, a1, a2, a3, ?_⟩
  simp only [dualCipher, bind_eq_ok]
  exact ⟨_, l2, _, r2, _, l3, _, r3, rfl⟩

end

/-- **C98**. Streams of the dual output ciphers say nothing but sizes about what they encrypt, if the constants of their four hash objects are different and as long as one another, and each
ratchet key gives as many bytes to the left one as to the right one. -/
theorem C98_dual {E : DualEnv} (h : DualSetup E) (hs : Streamable E.cfg) {n : Nat} (hK : E.cfg.primerKeyBytes (5 * E.cfg.innerHeaderBytes) ≤ K) (hid : E.cfg.blockIdBytes ≤ K)
    (hli : E.blockIdKdf.factory.length = E.shmacKdf.factory.length) (hll : E.leftKdf.factory.length = E.shmacKdf.factory.length)
    (hlr : E.rightKdf.factory.length = E.shmacKdf.factory.length) (i1 : E.blockIdKdf.factory ≠ E.shmacKdf.factory) (i2 : E.blockIdKdf.factory ≠ E.leftKdf.factory)
    (i3 : E.blockIdKdf.factory ≠ E.rightKdf.factory) (h1 : E.shmacKdf.factory ≠ E.leftKdf.factory) (h2 : E.shmacKdf.factory ≠ E.rightKdf.factory)
    (h3 : E.leftKdf.factory ≠ E.rightKdf.factory) (hn0 : 0 < n)
    (hn : ∀ r : Bytes, r.length = 2 * E.cfg.shmacBlocksize → (E.leftSlice r).length = n ∧ (E.rightSlice r).length = n) :
    StreamsHide E.cfg [E.shmacKdf.factory, E.leftKdf.factory, E.rightKdf.factory] E.blockIdKdf.factory K fun x ask n =>
      streaming (dualCipher { E with
        shmacKdf := { E.shmacKdf with xof := x }, blockIdKdf := { E.blockIdKdf with xof := x }, leftKdf := { E.leftKdf with xof := x }, rightKdf := { E.rightKdf with xof := x } }) ask n [] [] := by
  have hsep : Separated E n := ⟨hll, hlr, h1, h2, h3, hn0, hn⟩
  refine streams_hide (dualPlan_ok h hsep hK hli i1 i2 i3) (fun known D T => dualPlan_runs h hs hK hid known D T) ?_ ?_
  · intro r hv
    obtain ⟨⟨a, ha⟩, ⟨b, hb⟩, ⟨c, hc⟩⟩ := dual_begins h hv
    rintro j q (⟨w, rfl, _⟩ | ⟨w, rfl, _⟩ | ⟨w, rfl, _⟩)
    · exact ⟨E.shmacKdf.factory, by simp, a ++ w, by rw [ha]; simp only [List.append_assoc]⟩
    · exact ⟨E.leftKdf.factory, by simp, b ++ w, by rw [hb]; simp only [List.append_assoc]⟩
    · exact ⟨E.rightKdf.factory, by simp, c ++ w, by rw [hc]; simp only [List.append_assoc]⟩
  · intro d X
    exact ⟨_, rfl⟩

/-! ### examples -/

/-- Acts of few bytes. -/
theorem atMost_of_le {c : Sizes} {ask : Streamer} {m : Nat} (h : ∀ seen, (ask seen).bytes c ≤ m) : ∀ (n : Nat) (seen : List Shown) (bytes : Nat), n * m ≤ bytes → ask.AtMost c n seen bytes
  | 0, _, _, _ => trivial
  | n + 1, seen, bytes, hb => by
    have := h seen
    rw [Nat.succ_mul] at hb
    exact ⟨by omega, fun shown => atMost_of_le h n _ _ (by omega)⟩

/-- The bytes of the packets seen last. -/
def lastBytes (seen : List Shown) : Bytes :=
  match seen.getLast? with
  | some (.made packets _ _) => (packets.map fun p => p.1 ++ p.2).flatten
  | _ => []

/-- Someone who has two streams made at the same time, and has bytes that they choose by what they have seen encrypted in the one and in the other. -/
def sampleStreamer (c : Sizes) (data : List Shown → Bytes) : Streamer := fun seen =>
  if seen.length < 2 then .start sampleKey (sampleDraws c) none (beDigits 4 seen.length)
  else if seen.length < 90 then (if seen.length % 3 = 2 then .call (seen.length % 2) (.pull 2) else .call (seen.length % 2) (.buffer (data seen)))
  else .call (seen.length % 2) .finalize

theorem sampleStreamer_fair {c : Sizes} (h : c.timestampBytes = 4) (data : List Shown → Bytes) : (sampleStreamer c data).Fair c 100 := by
  have hreq : ∀ seen r, (sampleStreamer c data seen).request = some r → seen.length < 2 ∧ r = ⟨sampleKey, sampleDraws c, none, beDigits 4 seen.length, []⟩ := by
    intro seen r hr
    unfold sampleStreamer at hr
    split at hr
    · next hlt => exact ⟨hlt, (Option.some.inj hr).symm⟩
    · split at hr
      · split at hr <;> cases hr
      · cases hr
  refine ⟨fun seen r hr => ?_, fun seen seen' r r' hr hr' => ?_, fun seen more r r' hne hlen hr hr' => ?_⟩
  · obtain ⟨_, rfl⟩ := hreq seen r hr
    exact ⟨(by decide : 64 ≤ sampleKey.length), (by decide : sampleKey.length < 256 ^ 8), sampleDraws_fit c h, List.length_replicate, by simp only [length_beDigits]; decide⟩
  · rw [(hreq seen r hr).2, (hreq seen' r' hr').2]
  · obtain ⟨h1, rfl⟩ := hreq seen r hr
    obtain ⟨h2, rfl⟩ := hreq _ r' hr'
    intro e
    unfold Request.nonce at e
    simp only [Prod.mk.injEq] at e
    have e2 := congrArg fromBE e.2.2.1
    rw [fromBE_beDigits_of_lt (by omega), fromBE_beDigits_of_lt (by omega), List.length_append] at e2
    have : 0 < more.length := List.length_pos_iff.2 hne
    omega

theorem sampleStreamer_alike (c : Sizes) {data data' : List Shown → Bytes} (h : ∀ seen, (data seen).length = (data' seen).length) (seen : List Shown) :
    (sampleStreamer c data seen).Alike (sampleStreamer c data' seen) := by
  unfold sampleStreamer
  split
  · exact ⟨rfl, rfl⟩
  · split
    · split
      · exact ⟨rfl, rfl⟩
      · exact ⟨rfl, h seen⟩
    · exact ⟨rfl, rfl⟩

theorem sampleStreamer_atMost (c : Sizes) {data : List Shown → Bytes} (h : ∀ seen, (data seen).length = 100) {N : Nat} (hN : 100 * (100 + (c.innerHeaderBytes + c.paddingFrame)) ≤ N * c.blocksize) :
    (sampleStreamer c data).AtMost c 100 [] (N * c.blocksize) := by
  refine atMost_of_le (m := 100 + (c.innerHeaderBytes + c.paddingFrame)) (fun seen => ?_) 100 [] _ hN
  unfold sampleStreamer
  split
  · simp only [Act.bytes]; omega
  · split
    · split
      · simp [Act.bytes]
      · simp only [Act.bytes, h]; omega
    · simp [Act.bytes]

def sampleChosen (seen : List Shown) : Bytes := (lastBytes seen ++ List.replicate 100 1).take 100

theorem sampleChosen_length (seen : List Shown) : (sampleChosen seen).length = 100 := by
  unfold sampleChosen
  rw [List.length_take, List.length_append, List.length_replicate]
  omega

/-- The samples have a constant of their own for block ids. -/
def sampleSlickIds : Env := { sampleSlick with blockIdKdf := { sampleSlick.blockIdKdf with factory := [10, 11, 12] } }

theorem sampleSlickIds_setup : PermuteSetup sampleSlickIds :=
  have h := sampleSlick_setup
  ⟨h.accepted, h.permutation, h.blocksize, h.pad, h.tag_pos, h.tag_le, h.salt_lt, h.iv_lt⟩

def sampleDualIds : DualEnv := { sampleDual with blockIdKdf := { sampleDual.blockIdKdf with factory := [10, 11, 12] } }

theorem sampleDualIds_setup : DualSetup sampleDualIds :=
  have h := sampleDual_setup
  ⟨h.accepted, h.permutation, h.blocksize, h.pad, h.left_pad, h.right_pad, h.left_lt, h.tag_pos, h.tag_le, h.salt_lt, h.iv_lt⟩

example := C98_permute (K := 1000) sampleSlickIds_setup sampleSlick_streamable (by decide) (by decide) (by decide) (by decide) sampleXof 100 100000 _ _
  (sampleStreamer_fair rfl sampleChosen) (sampleStreamer_fair rfl fun _ => List.replicate 100 0) (sampleStreamer_alike _ fun seen => by rw [sampleChosen_length, List.length_replicate])
  (sampleStreamer_atMost _ sampleChosen_length (by decide))

example := C98_dual (K := 1000) (n := 168) sampleDualIds_setup sampleChunky_streamable (by decide) (by decide) (by decide) rfl rfl (by decide) (by decide) (by decide) (by decide)
  (by decide) (by decide) (by decide) (fun r hr => ⟨by simp [sampleDualIds, sampleDual, sampleChunky, hr]; decide, by simp [sampleDualIds, sampleDual, sampleChunky, hr]; decide⟩)
  sampleXof 100 100000 _ _ (sampleStreamer_fair rfl sampleChosen) (sampleStreamer_fair rfl fun _ => List.replicate 100 0)
  (sampleStreamer_alike _ fun seen => by rw [sampleChosen_length, List.length_replicate]) (sampleStreamer_atMost _ sampleChosen_length (by decide))

end Aiootp.Secrecy
