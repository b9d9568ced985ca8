import Verif.Lemmas.StreamForgery
import Verif.Spec.PacketForgery

/-
How many hash functions let a packet through that was made up.
-/

namespace Aiootp.Secrecy

open Cipher Cipher.Cipher Perm

variable {K : Nat}

/-! ### packets that are looked at one after the other -/

section
open Classical

/-- The packets of one call are taken up to the first that does not pass. -/
noncomputable def feed (ok : List Packet → Packet → Prop) : List Packet → List Packet → List Packet
  | A, [] => A
  | A, p :: ps => if ok A p then feed ok (A ++ [p]) ps else A

/-- The packets that are looked at, each with those taken before. -/
noncomputable def looks (ok : List Packet → Packet → Prop) : List Packet → List Packet → List (List Packet × Packet)
  | _, [] => []
  | A, p :: ps => (A, p) :: if ok A p then looks ok (A ++ [p]) ps else []

noncomputable def feedAll (ok : List Packet → Packet → Prop) : List Packet → List (List Packet) → List Packet
  | A, [] => A
  | A, g :: gs => feedAll ok (feed ok A g) gs

noncomputable def looksAll (ok : List Packet → Packet → Prop) : List Packet → List (List Packet) → List (List Packet × Packet)
  | _, [] => []
  | A, g :: gs => looks ok A g ++ looksAll ok (feed ok A g) gs

variable {ok ok' : List Packet → Packet → Prop}

theorem feed_prefix : ∀ (g A : List Packet), A <+: feed ok A g
  | [], A => List.prefix_refl A
  | p :: ps, A => by
    unfold feed
    split
    · exact (List.prefix_append A [p]).trans (feed_prefix ps _)
    · exact List.prefix_refl A

theorem feedAll_prefix : ∀ (gs : List (List Packet)) (A : List Packet), A <+: feedAll ok A gs
  | [], A => List.prefix_refl A
  | g :: gs, A => (feed_prefix g A).trans (feedAll_prefix gs _)

theorem looks_length : ∀ (g A : List Packet), (looks ok A g).length ≤ g.length
  | [], _ => Nat.le_refl _
  | p :: ps, A => by
    unfold looks
    split
    · simpa using looks_length ps (A ++ [p])
    · simp

theorem looksAll_length : ∀ (gs : List (List Packet)) (A : List Packet), (looksAll ok A gs).length ≤ (gs.map List.length).sum
  | [], _ => Nat.le_refl _
  | g :: gs, A => by
    simp only [looksAll, List.length_append, List.map_cons, List.sum_cons]
    exact Nat.add_le_add (looks_length g A) (looksAll_length gs _)

/-- Two ways to look at the packets take the same, or there is a first difference. -/
theorem feed_differ (h : ∀ A p, ok A p → ok' A p) : ∀ (g A : List Packet), feed ok' A g = feed ok A g ∨
    ∃ B p, (B, p) ∈ looks ok A g ∧ ok' B p ∧ ¬ ok B p ∧ B ++ [p] <+: feed ok' A g
  | [], _ => .inl rfl
  | p :: ps, A => by
    by_cases h1 : ok A p
    · have h2 := h A p h1
      rw [feed, feed, looks, if_pos h1, if_pos h2, if_pos h1]
      rcases feed_differ h ps (A ++ [p]) with e | ⟨B, q, e1, e2⟩
      · exact .inl e
      · exact .inr ⟨B, q, List.mem_cons_of_mem _ e1, e2⟩
    · by_cases h2 : ok' A p
      · refine .inr ⟨A, p, by rw [looks]; exact List.mem_cons_self, h2, h1, ?_⟩
        rw [feed, if_pos h2]
        exact feed_prefix ps _
      · rw [feed, feed, if_neg h1, if_neg h2]
        exact .inl rfl

theorem feedAll_differ (h : ∀ A p, ok A p → ok' A p) : ∀ (gs : List (List Packet)) (A : List Packet), feedAll ok' A gs = feedAll ok A gs ∨
    ∃ B p, (B, p) ∈ looksAll ok A gs ∧ ok' B p ∧ ¬ ok B p ∧ B ++ [p] <+: feedAll ok' A gs
  | [], _ => .inl rfl
  | g :: gs, A => by
    simp only [feedAll, looksAll]
    rcases feed_differ h g A with e | ⟨B, p, e1, e2, e3, e4⟩
    · rw [e]
      rcases feedAll_differ h gs (feed ok A g) with e' | ⟨B, p, e1, e2⟩
      · exact .inl e'
      · exact .inr ⟨B, p, List.mem_append_right _ e1, e2⟩
    · exact .inr ⟨B, p, List.mem_append_left _ e1, e2, e3, e4.trans (feedAll_prefix gs _)⟩

/-- What was taken before a packet passed too. -/
theorem looks_before {P : List Packet → Prop} (h : ∀ A p, ok A p → P (A ++ [p])) : ∀ (g A : List Packet), P A → P (feed ok A g) ∧ ∀ B p, (B, p) ∈ looks ok A g → P B ∧ p ∈ g
  | [], _, hA => ⟨hA, fun _ _ hm => (List.not_mem_nil hm).elim⟩
  | p :: ps, A, hA => by
    by_cases h1 : ok A p
    · rw [feed, looks, if_pos h1, if_pos h1]
      obtain ⟨e1, e2⟩ := looks_before h ps (A ++ [p]) (h A p h1)
      refine ⟨e1, fun B q hm => ?_⟩
      rcases List.mem_cons.1 hm with e | hm
      · cases e
        exact ⟨hA, List.mem_cons_self⟩
      · exact ⟨(e2 B q hm).1, List.mem_cons_of_mem _ (e2 B q hm).2⟩
    · rw [feed, looks, if_neg h1, if_neg h1]
      refine ⟨hA, fun B q hm => ?_⟩
      rcases List.mem_cons.1 hm with e | hm
      · cases e
        exact ⟨hA, List.mem_cons_self⟩
      · exact (List.not_mem_nil hm).elim

theorem looksAll_before {P : List Packet → Prop} (h : ∀ A p, ok A p → P (A ++ [p])) : ∀ (gs : List (List Packet)) (A : List Packet), P A →
    P (feedAll ok A gs) ∧ ∀ B p, (B, p) ∈ looksAll ok A gs → P B ∧ ∃ g ∈ gs, p ∈ g
  | [], _, hA => ⟨hA, fun _ _ hm => (List.not_mem_nil hm).elim⟩
  | g :: gs, A, hA => by
    simp only [feedAll, looksAll]
    obtain ⟨e1, e2⟩ := looks_before h g A hA
    obtain ⟨f1, f2⟩ := looksAll_before h gs _ e1
    refine ⟨f1, fun B p hm => ?_⟩
    rcases List.mem_append.1 hm with hm | hm
    · exact ⟨(e2 B p hm).1, g, List.mem_cons_self, (e2 B p hm).2⟩
    · obtain ⟨a, g', b, c⟩ := f2 B p hm
      exact ⟨a, g', List.mem_cons_of_mem _ b, c⟩

theorem feed_good : ∀ (good bad A : List Packet), (∀ pre p post, good = pre ++ p :: post → ok (A ++ pre) p) → (∀ p rest, bad = p :: rest → ¬ ok (A ++ good) p) →
    feed ok A (good ++ bad) = A ++ good
  | [], [], A, _, _ => by simp [feed]
  | [], p :: rest, A, _, h => by
    have := h p rest rfl
    rw [List.append_nil] at this
    rw [List.nil_append, feed, if_neg this, List.append_nil]
  | p :: good, bad, A, h, h2 => by
    have h1 : ok A p := by simpa using h [] p good rfl
    rw [List.cons_append, feed, if_pos h1, feed_good good bad (A ++ [p]) (fun pre q post e => by
      have := h (p :: pre) q post (by rw [e]; rfl)
      simpa using this) (fun q rest e => by
      have := h2 q rest e
      simpa using this)]
    simp

end

/-! ### hash functions that are the same but for block ids -/

/-- The same digests, but for inputs that begin with `f`. -/
def SameOff (f : Bytes) (x x' : Xof) : Prop := ∀ m n, ¬ f <+: m → x.digest m n = x'.digest m n

/-- What a cipher hashes to encrypt does not begin with `f`. -/
structure Local {κ : Type} (F : Family κ) (f : Bytes) where
  dom : Bytes → κ → Prop
  off : ∀ {m k}, dom m k → ¬ f <+: m
  same : ∀ {x x' : Xof}, SameOff f x x' → ∀ {g : Bool} {d : Direction} {m p c : Bytes} {perm : Chain} {k : κ} {b : Bytes}, dom m k →
    F.turn x (.live g d m p c perm) k b = F.turn x' (.live g d m p c perm) k b
  next : ∀ {x : Xof} {g : Bool} {d : Direction} {m p c m' p' c' : Bytes} {perm perm' : Chain} {k k' : κ} {b out : Bytes}, dom m k →
    F.turn x (.live g d m p c perm) k b = .ok (out, .live g d m' p' c' perm', k') → m <+: m' → dom m' k'
  start : ∀ {key summary kdf mac : Bytes} {keys : κ}, F.E.shmacKdf.keyed key = .ok kdf → F.E.shmacKdf.newSessionCopy kdf summary = .ok mac → F.sessionKdfs key summary = .ok keys → dom mac keys

section
variable {κ : Type} {F : Family κ} (L : Lawful F) (Z : Local F F.E.blockIdKdf.factory) {x x' : Xof}

theorem stepRel_off (hs : SameOff F.E.blockIdKdf.factory x x') {r r1 : Ratchet κ} {P X : Bytes} (h : r.WF (F.stream x)) (hd : Z.dom r.mac r.keys)
    (hr : StepRel (L.streamSound x) r P X r1) : StepRel (L.streamSound x') r P X r1 ∧ Z.dom r1.mac r1.keys := by
  obtain ⟨X', r2, h2⟩ := step_enc (L.streamSound x') (wf_same x' h) (P := P) hr.plain
  have e0 : (F.stream x).turn (r.session true .encryption).shmac r.keys P = (F.stream x').turn (r.session true .encryption).shmac r.keys P := Z.same hs hd
  have e := e0.symm.trans (hr.enc true)
  rw [h2.enc true] at e
  simp only [Except.ok.injEq, Prod.mk.injEq] at e
  obtain ⟨rfl, e2, e3⟩ := e
  have : r2 = r1 := Ratchet.session_inj (g := true) (h := true) (d := .encryption) (e := .encryption) (by
    unfold Ratchet.session at e2 ⊢
    simp only at e2
    rw [e2, e3])
  subst this
  obtain ⟨w, hw, _⟩ := hr.mac
  exact ⟨h2, Z.next hd (hr.enc true) (by rw [hw]; exact List.prefix_append ..)⟩

theorem path_dom {r r' : Ratchet κ} {Ps : List Bytes} {G : List Packet} (h : Path (L.streamSound x) r Ps G r') (hwf : r.WF (F.stream x)) (hd : Z.dom r.mac r.keys) : Z.dom r'.mac r'.keys := by
  induction h with
  | nil => exact hd
  | cons h1 _ ih => exact ih h1.wf (stepRel_off L Z (x' := x) (fun _ _ _ => rfl) hwf hd h1).2

theorem idInput_block {E : Env} {d d' X X' : Bytes} {n : Nat} (h : d.length = n) (h' : d'.length = n) (e : idInput E d X = idInput E d' X') : X = X' := by
  unfold idInput at e
  rw [List.append_cancel_left_eq] at e
  simp only [List.append_assoc] at e
  have e0 := (List.append_inj e (h.trans h'.symm)).2
  simp only [List.nil_append] at e0
  have e1 := (List.append_inj e0 rfl).2
  have e2 := (List.append_inj e1 rfl).2
  exact (List.append_inj e2 (by rw [length_beDigits, length_beDigits])).2

/-- The digests are the same, but for those of `q`. -/
def SameAll (x x' : Xof) (q : Bytes) : Prop := ∀ m n, m ≠ q → x.digest m n = x'.digest m n

theorem SameAll.off {q f : Bytes} (h : SameAll x x' q) (hq : f <+: q) : SameOff f x x' := fun m n hm => h m n (by rintro rfl; exact hm hq)

/-- A packet that is not among those of a path: the path does not depend on its block id. -/
theorem path_off {c : Bytes} {p : Packet} (hc : c.length = F.E.cfg.shmacBlocksize) (hs : SameAll x x' (idInput F.E c p.2)) (hp : p.1 = blockIdOf (F.stream x).toEnv c p.2)
    {r r' : Ratchet κ} {Ps : List Bytes} {G : List Packet} (h : Path (L.streamSound x) r Ps G r') (hwf : r.WF (F.stream x)) (hd : Z.dom r.mac r.keys) (hG : p ∉ G) :
    Path (L.streamSound x') r Ps G r' := by
  have hoff := hs.off (f := F.E.blockIdKdf.factory) ⟨_, rfl⟩
  induction h with
  | nil => exact .nil _
  | @cons r r1 r' P X Ps G h1 _ ih =>
    obtain ⟨g1, g2⟩ := stepRel_off L Z hoff hwf hd h1
    have hne : idInput F.E r.cur X ≠ idInput F.E c p.2 := by
      intro e
      have e2 := idInput_block (n := F.E.cfg.shmacBlocksize) hwf.cur hc e
      refine hG (List.mem_cons.2 (.inl (Prod.ext ?_ e2.symm)))
      rw [hp]
      show x.digest (idInput F.E c p.2) _ = x.digest (idInput F.E r.cur X) _
      rw [e]
    have e : blockIdOf (F.stream x).toEnv r.cur X = blockIdOf (F.stream x').toEnv r.cur X := hs _ _ hne
    rw [e]
    exact .cons g1 (ih h1.wf g2 fun hm => hG (List.mem_cons_of_mem _ hm))

theorem start_dom {key : Bytes} {b : SaltAADIV} {d : Direction} {s : Session κ} {m : Bytes} (h : (F.at x).startSession key b d = .ok s) (hm : s.shmac.mac = some m) : Z.dom m s.keys := by
  have h' : ∃ kdf summary mac keys s0 s1, F.E.shmacKdf.keyed key = .ok kdf ∧ F.E.shmacKdf.newSessionCopy kdf summary = .ok mac ∧ F.sessionKdfs key summary = .ok keys ∧
      Shmac.new (F.at x).toEnv (F.at x).configId mac (!b.ivIsFresh) = .ok s0 ∧ (match d with | .encryption => s0.forEncryption | .decryption => s0.forDecryption) = .ok s1 ∧ s = ⟨s1, keys⟩ := by
    unfold Cipher.startSession at h
    cases d <;>
    · simp only [bind_eq_ok, pure, Except.pure, Except.ok.injEq] at h
      obtain ⟨_, _, kdf, h1, summary, h2, mac, h3, keys, h4, s0, h5, s1, h6, rfl⟩ := h
      exact ⟨kdf, summary, mac, keys, s0, s1, h1, h3, h4, h5, h6, rfl⟩
  obtain ⟨kdf, summary, mac, keys, s0, s1, h1, h3, h4, h5, h6, rfl⟩ := h'
  have hmac : s0.mac = some mac := by
    unfold Shmac.new at h5
    simp only [bind_eq_ok, pure, Except.pure, Except.ok.injEq] at h5
    obtain ⟨_, _, _, _, rfl⟩ := h5
    rfl
  have h7 : s1.mac = some mac := by
    cases d
    · unfold Shmac.forEncryption at h6
      simp only [bind_eq_ok, pure, Except.pure, Except.ok.injEq] at h6
      obtain ⟨_, _, _, _, rfl⟩ := h6
      exact hmac
    · unfold Shmac.forDecryption at h6
      simp only [bind_eq_ok, pure, Except.pure, Except.ok.injEq] at h6
      obtain ⟨_, _, _, _, rfl⟩ := h6
      exact hmac
  simp only at hm
  rw [h7] at hm
  cases hm
  exact Z.start h1 h3 h4

include L Z in
theorem start_off {q : Bytes} (hs : SameAll x x' q) (hq : F.E.blockIdKdf.factory <+: q) {key : Bytes} {b : SaltAADIV} {d : Direction} {r0 : Ratchet κ} {g : Bool}
    (h : (F.at x).startSession key b d = .ok (r0.session g d)) : (F.at x').startSession key b d = .ok (r0.session g d) := by
  have hd : Z.dom r0.mac r0.keys := start_dom Z h rfl
  rw [← h]
  symm
  refine start_same L (q := q) (k := 0) (fun m n hmn => ?_) fun kdf summary mac g1 g2 g3 e => ?_
  · by_cases hm : m = q
    · obtain rfl : n = 0 := by
        rcases hmn with h | h
        · exact absurd hm h
        · omega
      rw [List.length_eq_zero_iff.1 (x.length_digest m 0), List.length_eq_zero_iff.1 (x'.length_digest m 0)]
    · exact hs m n hm
  · unfold Cipher.startSession at h
    simp only [bind_eq_ok, pure, Except.pure, Except.ok.injEq] at h
    obtain ⟨_, _, kdf', h1, summary', h2, mac', h3, keys, h4, _⟩ := h
    have h1' : F.E.shmacKdf.keyed key = .ok kdf' := h1
    rw [g1] at h1'; cases h1'
    rw [g2] at h2; cases h2
    have h3' : F.E.shmacKdf.newSessionCopy kdf summary = .ok mac' := h3
    rw [g3] at h3'; cases h3'
    exact Z.off (Z.start g1 g3 h4) (e ▸ hq)

include L Z in
/-- What is sent does not depend on the block id of a packet that is not among it. -/
theorem send_off (hst : Streamable F.E.cfg) {c : Bytes} {p : Packet} (hc : c.length = F.E.cfg.shmacBlocksize) (hs : SameAll x x' (idInput F.E c p.2))
    (hp : p.1 = blockIdOf (F.stream x).toEnv c p.2) {r : StreamRequest} (hr : r.Valid F.E.cfg)
    (hnot : ∀ tag G, tag.length = F.E.cfg.shmacBytes → (∀ y ∈ G, Sized F.E.cfg y) → sendAll (F.stream x) r = .ok (tag ++ r.whole.usedSalt ++ r.draws.iv ++ wire G) → p ∉ G) :
    sendAll (F.stream x') r = sendAll (F.stream x) r := by
  have hq : F.E.blockIdKdf.factory <+: idInput F.E c p.2 := ⟨_, rfl⟩
  obtain ⟨r0, G, rf, s1, s2, s3, s4, s5, s6, s7⟩ := sent_form L hst x hr
  obtain ⟨r0', G', rf', t1, t2, t3, t4, t5, t6, t7⟩ := sent_form L hst x' hr
  have e0 : r0' = r0 := by
    have := start_off L Z hs hq s4
    rw [t4] at this
    exact Ratchet.session_inj (Except.ok.inj this)
  subst e0
  have hd : Z.dom r0'.mac r0'.keys := start_dom Z s4 rfl
  have hG : p ∉ G := hnot _ G ((stream_usable L x).length_tag _) s6.sized s7
  obtain ⟨rfl, rfl⟩ := t6.unique (path_off L Z hc hs hp s6 s1 hd hG)
  rw [s7, t7]
  have hmac : rf'.mac ≠ idInput F.E c p.2 := by
    intro e
    exact Z.off (path_dom L Z s6 s1 hd) (e ▸ hq)
  have : Shmac.tagOf (F.stream x).toEnv rf'.mac = Shmac.tagOf (F.stream x').toEnv rf'.mac := by
    unfold Shmac.tagOf
    exact congrArg _ (hs _ _ hmac)
  rw [this]

end

/-! ### recipients -/

section
variable {κ : Type} {C : Cipher.Cipher κ}

theorem path_unique_dec {S : Sound C} {r r1 r2 : Ratchet κ} {Ps Qs : List Bytes} {G H : List Packet} (h : Path S r Ps G r1) (h2 : Path S r Qs H r2) (e : G = H) : r1 = r2 := by
  induction h generalizing Qs H r2 with
  | nil =>
    cases h2 with
    | nil => rfl
    | cons _ _ => cases e
  | cons h1 _ ih =>
    cases h2 with
    | nil => cases e
    | cons h3 h4 =>
      simp only [List.cons.injEq, Prod.mk.injEq] at e
      obtain ⟨⟨_, rfl⟩, e⟩ := e
      obtain ⟨_, rfl⟩ := h1.unique_dec h3
      exact ih h4 e

theorem path_split {S : Sound C} {r r' : Ratchet κ} : ∀ (A : List Packet) {Ps : List Bytes} {B : List Packet}, Path S r Ps (A ++ B) r' → ∃ Qs r1 Rs, Path S r Qs A r1 ∧ Path S r1 Rs B r'
  | [], Ps, _, h => ⟨[], r, Ps, .nil r, h⟩
  | y :: A, _, B, h => by
    cases h with
    | cons h1 h2 =>
      obtain ⟨Qs, r1, Rs, e1, e2⟩ := path_split A h2
      exact ⟨_, r1, Rs, .cons h1 e1, e2⟩

/-- A packet passes after others. -/
def Passable (S : Sound C) (r0 : Ratchet κ) (A : List Packet) (p : Packet) : Prop :=
  Sized C.cfg p ∧ ∃ Ps r, Path S r0 Ps A r ∧ p.1 = blockIdOf C.toEnv r.cur p.2

theorem passable_of_path {S : Sound C} {r0 r' : Ratchet κ} {Ps : List Bytes} {A B : List Packet} {p : Packet} (h : Path S r0 Ps (A ++ p :: B) r') : Passable S r0 A p := by
  obtain ⟨Qs, r1, Rs, e1, e2⟩ := path_split A h
  refine ⟨h.sized p (by simp), Qs, r1, e1, ?_⟩
  cases e2 with
  | cons _ _ => rfl

/-- The packets that a call offers. -/
def offers (c : Sizes) : UnstreamCall → List Packet
  | .buffer data => if data.length % c.packetsize = 0 then (Text.batch c.packetsize data).map fun b => (b.take c.blockIdBytes, b.drop c.blockIdBytes) else []
  | _ => []

theorem offers_wire {c : Sizes} (hp : 0 < c.packetsize) {A : List Packet} (h : ∀ y ∈ A, Sized c y) : offers c (.buffer (wire A)) = A := by
  have hb : Text.batch c.packetsize (wire A) = A.map fun y => y.1 ++ y.2 := by
    unfold wire
    refine batch_of_blocks hp _ fun b hb => ?_
    obtain ⟨y, hy, rfl⟩ := List.mem_map.1 hb
    rw [List.length_append, (h y hy).1, (h y hy).2]
    rfl
  simp only [offers]
  rw [if_pos (by rw [length_wire A h]; exact Nat.mul_mod_right ..), hb, List.map_map]
  refine (List.map_congr_left fun y hy => ?_).trans (List.map_id A)
  simp only [Function.comp_def, id]
  rw [List.take_left' (h y hy).1, List.drop_left' (h y hy).1]

theorem offers_sized {c : Sizes} (hs : Streamable c) (call : UnstreamCall) : (∀ y ∈ offers c call, Sized c y) ∧ ∃ n, c.packetsize * (offers c call).length = n ∧ n ≤ offeredBytes [call] := by
  have hp : 0 < c.packetsize := packetsize_pos hs
  rcases call with data | ⟨now, n⟩ | now
  · by_cases hd : data.length % c.packetsize = 0
    · obtain ⟨A, rfl, hA, _⟩ := exists_wire (c := c) (data.length / c.packetsize) data (by have := Nat.div_add_mod data.length c.packetsize; omega)
      rw [offers_wire hp hA]
      refine ⟨hA, _, rfl, ?_⟩
      simp only [offeredBytes]
      rw [length_wire A hA]
      exact Nat.le_refl _
    · simp [offers, hd]
  · simp [offers]
  · simp [offers]

theorem offered_groups {c : Sizes} (hs : Streamable c) : ∀ calls : List UnstreamCall, c.packetsize * ((calls.map (offers c)).map List.length).sum ≤ offeredBytes calls
  | [] => by simp [offeredBytes]
  | call :: calls => by
    have ih := offered_groups hs calls
    obtain ⟨_, n, h1, h2⟩ := offers_sized hs call
    simp only [List.map_cons, List.sum_cons, Nat.mul_add]
    have h3 : offeredBytes (call :: calls) = offeredBytes [call] + offeredBytes calls := by
      cases call <;> simp [offeredBytes]
    rw [h3, h1]
    exact Nat.add_le_add h2 ih

/-- What a recipient takes. -/
theorem exec_feed {S : Sound C} (hs : Streamable C.cfg) {r0 : Ratchet κ} (hr : r0.WF C) {ttl : Option Int} : ∀ (calls : List UnstreamCall) {Ps outs : List Bytes} {G : List Packet}
    {st : DecipherStream κ}, DecipherStream.Inv S r0 ttl Ps G outs st → (∀ call ∈ calls, call.isFinalize = false) →
    ∃ B, feedAll (Passable S r0) G (calls.map (offers C.cfg)) = G ++ B ∧ acceptedAll calls (st.execAll C calls).1 = wire B
  | [], _, _, _, _, _, _ => ⟨[], by simp [feedAll], rfl⟩
  | call :: calls, Ps, outs, G, st, h, hc => by
    obtain ⟨reply, st', Qs, A, h1, h2, h3, h4⟩ := inv_any hs hr h call (hc _ (by simp))
    obtain ⟨B, e1, e2⟩ := exec_feed hs hr calls h2 fun c hc' => hc c (by simp [hc'])
    have key : feed (Passable S r0) G (offers C.cfg call) = G ++ A := by
      obtain ⟨r, hp, hss⟩ := h.path
      have hpk := packetsize_pos hs
      rcases call with data | ⟨now, n⟩ | now
      · by_cases hd : data = [] ∨ data.length % C.cfg.packetsize ≠ 0
        · have ho : offers C.cfg (.buffer data) = [] := by
            rcases hd with rfl | hd
            · have := offers_wire (c := C.cfg) hpk (A := []) (by simp)
              simpa [wire] using this
            · simp [offers, hd]
          have hw : wire A = [] := by
            rw [← h3]
            simp only [DecipherStream.exec, DecipherStream.bufferData, if_pos hd, Prod.mk.injEq] at h1
            rw [← h1.1]
            rfl
          have hA : A = [] := wire_inj hpk h4 (by simp) (by rw [hw]; rfl)
          rw [ho, hA]
          simp [feed]
        · have hd' : data ≠ [] ∧ data.length % C.cfg.packetsize = 0 := by
            refine ⟨fun h0 => hd (.inl h0), ?_⟩
            by_cases h1 : data.length % C.cfg.packetsize = 0
            · exact h1
            · exact absurd (.inr h1) hd
          obtain ⟨Y, hY, rfl, hsz⟩ := data_packets hs hd'.1 hd'.2
          rw [offers_wire hpk hsz]
          obtain ⟨good, bad, Qs', r', rfl, g2, g3, g4⟩ := DecipherStream.digestData_spec S hs Y r st (hp.wf hr) hss hsz
          have hb := exec_buffer_packets hs h.opened hY hsz
          have hgood : wire good = wire A := by
            rw [← h3]
            cases bad with
            | nil =>
              simp only [DecipherStream.exec, hb, g3 rfl, Prod.mk.injEq] at h1
              rw [← h1.1]
              simp [acceptedBytes]
            | cons y rest =>
              simp only [DecipherStream.exec, hb, (g4 y rest rfl).2, Prod.mk.injEq] at h1
              rw [← h1.1]
              simp only [acceptedBytes]
              rw [wire_append, wire_cons, List.append_assoc y.1]
              symm
              apply List.take_left'
              simp only [List.length_append]
              omega
          have := wire_inj hpk g2.sized h4 hgood
          subst this
          refine feed_good good bad G (fun pre p post e => ?_) fun p rest e => ?_
          · subst e
            refine passable_of_path (B := post) (r' := r') (Ps := Ps ++ Qs') ?_
            have := hp.append g2
            rwa [← List.append_assoc] at this
          · rintro ⟨_, Rs, r2, k1, k2⟩
            have := path_unique_dec k1 (hp.append g2) rfl
            subst this
            exact (g4 p rest e).1 k2
      · have : acceptedBytes (.pull now n) reply = [] := rfl
        rw [this] at h3
        have hA : A = [] := wire_inj hpk h4 (by simp) (by rw [← h3]; rfl)
        rw [hA]
        simp [offers, feed]
      · have := hc (.finalize now) (by simp)
        cases this
    refine ⟨A ++ B, ?_, ?_⟩
    · rw [List.map_cons, feedAll, key, e1, List.append_assoc]
    · simp only [DecipherStream.execAll, acceptedAll, List.zipWith_cons_cons, List.flatten_cons] at e2 ⊢
      rw [h1]
      simp only
      rw [e2, h3, wire_append]

end

/-! ### attempts -/

theorem conversation_sent {ρ : Type} {e : ρ → Except Err Bytes} {ask : List Bytes → ρ} : ∀ (n : Nat) {start l : List Bytes}, conversation e ask n start = .ok l →
    ∀ more seen m rest, l = start ++ more → more = seen ++ m :: rest → e (ask (start ++ seen)) = .ok m
  | 0, start, l, h, more, seen, m, rest, e1, e2 => by
    cases h
    have : more = [] := by simpa using e1
    rw [this] at e2
    simp at e2
  | n + 1, start, l, h, more, seen, m, rest, e1, e2 => by
    simp only [conversation, bind_eq_ok] at h
    obtain ⟨a, ha, h⟩ := h
    obtain ⟨tail, ht⟩ := conversation_prefix n h
    have hm : more = a :: tail := by
      rw [e1, List.append_assoc, List.append_cancel_left_eq] at ht
      exact ht
    rw [hm] at e2
    cases seen with
    | nil =>
      simp only [List.nil_append, List.cons.injEq] at e2
      rw [← e2.1, List.append_nil]
      exact ha
    | cons b seen =>
      simp only [List.cons_append, List.cons.injEq] at e2
      have := conversation_sent n h tail seen m rest ht e2.2
      rw [← e2.1]
      simpa using this

theorem wire_prefix {c : Sizes} (hp : 0 < c.packetsize) {G H : List Packet} {more : Bytes} (hG : ∀ y ∈ G, Sized c y) (hH : ∀ y ∈ H, Sized c y) (e : wire G = wire H ++ more) :
    ∃ R, G = H ++ R := by
  have h1 := length_wire G hG
  have h2 := length_wire H hH
  have h3 := congrArg List.length e
  rw [List.length_append, h1, h2] at h3
  have hle : H.length ≤ G.length := Nat.le_of_mul_le_mul_left (by omega) hp
  refine ⟨G.drop H.length, ?_⟩
  have hG2 : G = G.take H.length ++ G.drop H.length := (List.take_append_drop ..).symm
  have ht : ∀ y ∈ G.take H.length, Sized c y := fun y hy => hG y (List.mem_of_mem_take hy)
  rw [hG2, wire_append] at e
  have e2 := (List.append_inj e (by rw [length_wire _ ht, h2, List.length_take, Nat.min_eq_left hle])).1
  have e3 := wire_inj hp ht hH e2
  conv => lhs; rw [hG2, e3]

section
variable {κ : Type} {F : Family κ} (L : Lawful F) (Z : Local F F.E.blockIdKdf.factory)

/-- What is taken if no packet is made up. -/
def Ideal (c : Sizes) (a : PacketAttempt) (ask : List Bytes → StreamRequest) (l : List Bytes) (A : List Packet) (p : Packet) : Prop :=
  (∀ y ∈ A ++ [p], Sized c y) ∧ a.Begins c ask l (wire (A ++ [p]))

/-- The input whose digest is the block id of a packet after others. -/
def idTarget (F : Family κ) (x : Xof) (a : PacketAttempt) (A : List Packet) (X : Bytes) : Option Bytes :=
  match (F.at x).startSession a.key ⟨a.salt, a.aad, a.iv, false⟩ .decryption with
  | .error _ => none
  | .ok s => match (F.stream x).run s (A.map (·.2)) with
    | .error _ => none
    | .ok r => r.2.shmac.current.map fun c => idInput F.E c X

theorem idTarget_eq {x : Xof} {a : PacketAttempt} {ra r : Ratchet κ} {Ps : List Bytes} {A : List Packet} (X : Bytes)
    (h : (F.at x).startSession a.key ⟨a.salt, a.aad, a.iv, false⟩ .decryption = .ok (ra.session true .decryption)) (hp : Path (L.streamSound x) ra Ps A r) :
    idTarget F x a A X = some (idInput F.E r.cur X) := by
  unfold idTarget
  rw [h]
  simp only [(hp.run true).2]
  rfl

/-- The packet that is looked at as number `k` is made up, and passes. -/
def PassesAt (L : Lawful F) (x : Xof) (ask : List Bytes → StreamRequest) (n : Nat) (forge : PacketForger) (k : Nat) : Prop :=
  ∃ l A p ra Ps r, conversation (sendAll (F.stream x)) ask n [] = .ok l ∧ (looksAll (Ideal F.E.cfg (forge l) ask l) [] ((forge l).calls.map (offers F.E.cfg)))[k]? = some (A, p) ∧
    ra.WF (F.stream x) ∧ (F.at x).startSession (forge l).key ⟨(forge l).salt, (forge l).aad, (forge l).iv, false⟩ .decryption = .ok (ra.session true .decryption) ∧
    Path (L.streamSound x) ra Ps A r ∧ Sized F.E.cfg p ∧ p.1 = blockIdOf (F.stream x).toEnv r.cur p.2 ∧ p ∉ A ∧
    ∀ seen m rest, l = seen ++ m :: rest → ∀ tag G, tag.length = F.E.cfg.shmacBytes → (∀ y ∈ G, Sized F.E.cfg y) → m = tag ++ (ask seen).whole.usedSalt ++ (ask seen).draws.iv ++ wire G → p ∉ G

include L Z in
open Classical in
theorem passes_count (hst : Streamable F.E.cfg) (hK : F.E.cfg.blockIdBytes ≤ K) {ask : List Bytes → StreamRequest} (hask : ∀ seen, (ask seen).Valid F.E.cfg) (forge : PacketForger)
    (known : Xof) (n k : Nat) {D : Finset Bytes} (hD : ∀ c X : Bytes, c.length = F.E.cfg.shmacBlocksize → X.length = F.E.cfg.blocksize → idInput F.E c X ∈ D) :
    count (fun T : Hash D K => PassesAt L (T.xof known) ask n forge k) * 256 ^ F.E.cfg.blockIdBytes ≤ total D K := by
  have hi : 0 + F.E.cfg.blockIdBytes ≤ K := by omega
  let view : Hash D K → Option (D × Digest F.E.cfg.blockIdBytes) := fun T =>
    match conversation (sendAll (F.stream (T.xof known))) ask n [] with
    | .error _ => none
    | .ok l => match (looksAll (Ideal F.E.cfg (forge l) ask l) [] ((forge l).calls.map (offers F.E.cfg)))[k]? with
      | none => none
      | some (A, p) => match idTarget F (T.xof known) (forge l) A p.2 with
        | none => none
        | some q => if h : q ∈ D ∧ p.1.length = F.E.cfg.blockIdBytes then some (⟨q, h.1⟩, ⟨p.1, h.2⟩) else none
  refine count_tag hi _ view fun T hT => ?_
  obtain ⟨l, A, p, ra, Ps, r, h1, h2, h3, h4, h5, h6, h7, h8, h9⟩ := hT
  have hcur : r.cur.length = F.E.cfg.shmacBlocksize := (h5.wf h3).cur
  have hqD : idInput F.E r.cur p.2 ∈ D := hD _ _ hcur h6.2
  refine ⟨⟨_, hqD⟩, ⟨p.1, h6.1⟩, ?_, ?_, fun s => ?_⟩
  · simp only [view, h1, h2, idTarget_eq L p.2 h4 h5]
    rw [dif_pos ⟨hqD, h6.1⟩]
  · show p.1 = _
    rw [h7]
    show (T.xof known).digest (idInput F.E r.cur p.2) F.E.cfg.blockIdBytes = _
    have hlen := (T ⟨_, hqD⟩).2
    unfold Hash.xof piece
    simp only [hqD, dite_true, List.drop_zero]
    rw [List.take_append_of_le_length (by omega)]
  · have hs : SameAll (T.xof known) ((patch _ _ hi T ⟨_, hqD⟩ s).xof known) (idInput F.E r.cur p.2) := fun m n' hm => patch_same hi known T ⟨_, hqD⟩ s m n' (.inl hm)
    have hq : F.E.blockIdKdf.factory <+: idInput F.E r.cur p.2 := ⟨_, rfl⟩
    have hconv : conversation (sendAll (F.stream ((patch _ _ hi T ⟨_, hqD⟩ s).xof known))) ask n [] = .ok l := by
      refine conversation_congr n h1 fun seen m rest e hm => ?_
      refine send_off L Z hst hcur hs h7 (hask seen) fun tag G ht hG hsend => ?_
      rw [hm] at hsend
      exact h9 seen m rest e tag G ht hG (Except.ok.inj hsend)
    have hd : Z.dom ra.mac ra.keys := start_dom Z h4 rfl
    have h4' := start_off L Z hs hq h4
    have h5' := path_off L Z hcur hs h7 h5 h3 hd h8
    simp only [view, hconv, h2, idTarget_eq L p.2 h4' h5']
    rw [dif_pos ⟨hqD, h6.1⟩]

/-- Bytes that begin a stream: so does what they begin with. -/
theorem Begins.of_append {c : Sizes} {a : PacketAttempt} {ask : List Bytes → StreamRequest} {l : List Bytes} {u v : Bytes} (h : a.Begins c ask l (u ++ v)) : a.Begins c ask l u := by
  obtain ⟨seen, m, rest, tag, more, h1, h2, h3, h4, h5⟩ := h
  exact ⟨seen, m, rest, tag, v ++ more, h1, h2, h3, h4, by rw [h5]; simp⟩

theorem Begins.sent {c : Sizes} {a : PacketAttempt} (ha : a.Valid c) {ask : List Bytes → StreamRequest} {l : List Bytes} {before packet more : Bytes}
    (h : a.Begins c ask l (before ++ packet ++ more)) (hd : c.packetsize ∣ before.length) (hn : NeverSent c l packet) : False := by
  obtain ⟨seen, m, rest, tag, rest', h1, h2, h3, h4, h5⟩ := h
  refine hn m (by rw [h1]; simp) (tag ++ a.salt ++ a.iv) before (more ++ rest') (by rw [h5]; simp) ?_ hd
  simp only [List.length_append, h4, ha.salt, ha.iv]

theorem wire_dvd {c : Sizes} {A : List Packet} (h : ∀ y ∈ A, Sized c y) : c.packetsize ∣ (wire A).length := ⟨_, length_wire A h⟩

include L in
/-- What is not made up passes. -/
theorem ideal_passable (hst : Streamable F.E.cfg) {x : Xof} {ask : List Bytes → StreamRequest} (hask : ∀ seen, (ask seen).Valid F.E.cfg) {n : Nat} {l : List Bytes}
    (hl : conversation (sendAll (F.stream x)) ask n [] = .ok l) {a : PacketAttempt} (ha : a.Valid F.E.cfg) {ra : Ratchet κ}
    (hra : (F.at x).startSession a.key ⟨a.salt, a.aad, a.iv, false⟩ .decryption = .ok (ra.session true .decryption)) {A : List Packet} {p : Packet} (h : Ideal F.E.cfg a ask l A p) :
    Passable (L.streamSound x) ra A p := by
  obtain ⟨hs, seen, m, rest, tag, more, h1, h2, h3, h4, h5⟩ := h
  have hm := conversation_sent n hl l seen m rest rfl h1
  rw [List.nil_append] at hm
  obtain ⟨r0, G, rf, s1, s2, s3, s4, s5, s6, s7⟩ := sent_form L hst x (hask seen)
  rw [hm, Except.ok.injEq, h5] at s7
  have hsl : (ask seen).whole.usedSalt.length = F.E.cfg.saltBytes := (hask seen).whole.salt
  have hil : (ask seen).draws.iv.length = F.E.cfg.ivBytes := (hask seen).whole.draws.iv
  have htl := (stream_usable L x).length_tag rf.mac
  simp only [List.append_assoc] at s7
  obtain ⟨_, s7⟩ := List.append_inj s7 (by rw [h4]; exact htl.symm)
  obtain ⟨es, s7⟩ := List.append_inj s7 (by rw [ha.salt, hsl])
  obtain ⟨ei, s7⟩ := List.append_inj s7 (by rw [ha.iv, hil])
  rw [← es, ← ei, h2, h3, hra, Except.ok.injEq] at s5
  obtain rfl := Ratchet.session_inj s5
  obtain ⟨R, rfl⟩ := wire_prefix (packetsize_pos hst) s6.sized hs s7.symm
  refine passable_of_path (B := R) (r' := rf) (Ps := (ask seen).blocks F.E.cfg) ?_
  rw [List.append_assoc] at s6
  exact s6

include L in
theorem succeeds_passes (hst : Streamable F.E.cfg) {x : Xof} {ask : List Bytes → StreamRequest} (hask : ∀ seen, (ask seen).Valid F.E.cfg) {n N : Nat} {forge : PacketForger}
    (hv : ∀ seen, (forge seen).Valid F.E.cfg) (hN : ∀ seen, offeredBytes (forge seen).calls ≤ N * F.E.cfg.packetsize)
    (h : PacketSucceeds F.E.cfg (sendAll (F.stream x)) (takeAll (F.stream x)) ask n forge) : ∃ k ∈ List.range N, PassesAt L x ask n forge k := by
  obtain ⟨l, taken, h1, h2, before, packet, more, h3, ⟨j, h4⟩, h5, h6, h7⟩ := h
  have hpk : 0 < F.E.cfg.packetsize := packetsize_pos hst
  have ha := hv l
  have ha' : StreamAttempt.Valid F.E.cfg ⟨(forge l).key, (forge l).salt, (forge l).aad, (forge l).iv, (forge l).ttl, (forge l).saltDraw, (forge l).calls, 0, []⟩ :=
    ⟨ha.key_ge, ha.key_lt, ha.salt, ha.aad, ha.iv, ha.saltDraw, ha.calls⟩
  obtain ⟨ra, r1, r2, r3, r4, r5⟩ := received_start L x ha'
  have hinit := decipher_inv_init (L.streamSound x) ra (forge l).ttl
  obtain ⟨B, b1, b2⟩ := exec_feed (C := F.stream x) hst r1 (forge l).calls hinit ha.calls
  have hB : taken = wire B := by
    unfold takeAll at h2
    simp only [r5] at h2
    exact (Except.ok.inj h2).symm.trans b2
  rw [List.nil_append] at b1
  have hPA : ∀ A p, Ideal F.E.cfg (forge l) ask l A p → (∀ y ∈ A ++ [p], Sized F.E.cfg y) ∧ (A ++ [p] = [] ∨ (forge l).Begins F.E.cfg ask l (wire (A ++ [p]))) := fun A p h => ⟨h.1, .inr h.2⟩
  obtain ⟨q1, q2⟩ := looksAll_before (P := fun A => (∀ y ∈ A, Sized F.E.cfg y) ∧ (A = [] ∨ (forge l).Begins F.E.cfg ask l (wire A))) hPA ((forge l).calls.map (offers F.E.cfg)) []
    ⟨by simp, .inl rfl⟩
  rcases feedAll_differ (fun A p h => ideal_passable L hst hask h1 ha r4 h) ((forge l).calls.map (offers F.E.cfg)) [] with e | ⟨A, p, e1, e2, e3, e4⟩
  · exfalso
    have e' : feedAll (Passable (L.streamSound x) ra) [] ((forge l).calls.map (offers F.E.cfg)) = B := b1
    rw [← e, e'] at q1
    rcases q1.2 with rfl | hb
    · have := congrArg List.length (h3.symm.trans hB)
      simp only [List.length_append, h5, wire, List.map_nil, List.flatten_nil, List.length_nil] at this
      omega
    · rw [← hB, h3] at hb
      exact Begins.sent ha hb ⟨j, h4⟩ h7
  · obtain ⟨⟨hA, hP⟩, _⟩ := q2 A p e1
    have hp : Sized F.E.cfg p := e2.1
    have hAp : ∀ y ∈ A ++ [p], Sized F.E.cfg y := by
      intro y hy
      rcases List.mem_append.1 hy with hy | hy
      · exact hA y hy
      · rw [List.mem_singleton.1 hy]; exact hp
    have e4' : A ++ [p] <+: B := by
      have e' : feedAll (Passable (L.streamSound x) ra) [] ((forge l).calls.map (offers F.E.cfg)) = B := b1
      rw [← e']
      exact e4
    obtain ⟨R, hR⟩ := e4'
    have hw : before ++ packet ++ more = wire A ++ (p.1 ++ p.2) ++ wire R := by
      rw [← h3, hB, ← hR, wire_append, wire_append]
      simp [wire]
    have hpl : (p.1 ++ p.2).length = F.E.cfg.packetsize := by rw [List.length_append, hp.1, hp.2]; rfl
    have hwA := length_wire A hA
    have hj : j = A.length := by
      rcases Nat.lt_trichotomy j A.length with hlt | he | hgt
      · exfalso
        have hmul : F.E.cfg.packetsize * (j + 1) ≤ F.E.cfg.packetsize * A.length := Nat.mul_le_mul_left _ hlt
        rw [Nat.mul_add, Nat.mul_one] at hmul
        rcases hP with rfl | hb
        · simp at hlt
        · rw [List.append_assoc (wire A)] at hw
          have hpre : before ++ packet <+: wire A := by
            refine List.prefix_of_prefix_length_le ⟨more, hw⟩ (List.prefix_append _ _) ?_
            rw [List.length_append, h4, h5, hwA]
            exact hmul
          obtain ⟨t, ht⟩ := hpre
          rw [← ht] at hb
          exact Begins.sent ha hb ⟨j, h4⟩ h7
      · exact he
      · exfalso
        have hmul : F.E.cfg.packetsize * (A.length + 1) ≤ F.E.cfg.packetsize * j := Nat.mul_le_mul_left _ hgt
        rw [Nat.mul_add, Nat.mul_one] at hmul
        rcases h6 with rfl | hb
        · simp only [List.length_nil] at h4
          omega
        · rw [List.append_assoc before] at hw
          have hpre : wire A ++ (p.1 ++ p.2) <+: before := by
            refine List.prefix_of_prefix_length_le ⟨wire R, hw.symm⟩ (List.prefix_append _ _) ?_
            rw [List.length_append, hpl, h4, hwA]
            exact hmul
          obtain ⟨t, ht⟩ := hpre
          rw [← ht] at hb
          refine e3 ⟨hAp, ?_⟩
          have := Begins.of_append hb
          rw [wire_append]
          simpa [wire] using this
    subst hj
    rw [List.append_assoc, List.append_assoc] at hw
    obtain ⟨hb, hw⟩ := List.append_inj hw (by rw [h4, hwA])
    obtain ⟨hpk2, _⟩ := List.append_inj hw (by rw [h5, hpl])
    rw [hpk2] at h7
    obtain ⟨k, hk, hkk⟩ := List.getElem_of_mem e1
    have hlen := looksAll_length (ok := Ideal F.E.cfg (forge l) ask l) ((forge l).calls.map (offers F.E.cfg)) []
    have hoff := Nat.le_trans (offered_groups hst (forge l).calls) (hN l)
    rw [Nat.mul_comm N] at hoff
    have hsum := Nat.le_of_mul_le_mul_left hoff hpk
    obtain ⟨_, Ps, r, p1, p2⟩ := e2
    refine ⟨k, List.mem_range.2 (Nat.lt_of_lt_of_le hk (Nat.le_trans hlen hsum)), l, A, p, ra, Ps, r, h1, by rw [List.getElem?_eq_getElem hk, hkk], r1, r4, p1, hp, p2, fun hm => ?_, ?_⟩
    · obtain ⟨X, Y, rfl⟩ := List.append_of_mem hm
      rcases hP with hP | hb
      · simp at hP
      · rw [wire_append, wire_cons] at hb
        refine Begins.sent (ask := ask) ha (before := wire X) (packet := p.1 ++ p.2) (more := wire Y) ?_ (wire_dvd fun y hy => hA y (by simp [hy])) h7
        simpa using hb
    · intro seen m rest hl tag G ht hG hm hpG
      obtain ⟨X, Y, rfl⟩ := List.append_of_mem hpG
      have hsl : (ask seen).whole.usedSalt.length = F.E.cfg.saltBytes := (hask seen).whole.salt
      have hil : (ask seen).draws.iv.length = F.E.cfg.ivBytes := (hask seen).whole.draws.iv
      refine h7 m (by rw [hl]; simp) (tag ++ (ask seen).whole.usedSalt ++ (ask seen).draws.iv) (wire X) (wire Y) ?_ ?_ (wire_dvd fun y hy => hG y (by simp [hy]))
      · rw [hm, wire_append, wire_cons]
        simp
      · simp only [List.length_append, ht, hsl, hil]

include L Z in
theorem forged_packets (hst : Streamable F.E.cfg) (hK : F.E.cfg.blockIdBytes ≤ K) :
    PacketsUnforgeable F.E.cfg F.E.blockIdKdf.factory K (fun x => sendAll (F.stream x)) (fun x => takeAll (F.stream x)) := by
  classical
  intro known ask N attempts hask hv hN
  have hfin : (Set.image2 (fun c X => idInput F.E c X) {c : Bytes | c.length = F.E.cfg.shmacBlocksize} {X : Bytes | X.length = F.E.cfg.blocksize}).Finite :=
    (List.finite_length_eq _ _).image2 _ (List.finite_length_eq _ _)
  refine ⟨hfin.toFinset, fun q hq => ?_, fun D hD => ?_⟩
  · obtain ⟨c, _, X, _, rfl⟩ := hfin.mem_toFinset.1 hq
    exact ⟨_, rfl⟩
  · have hany := count_any (D := D) (256 ^ F.E.cfg.blockIdBytes) (fun (p : (Nat × PacketForger) × Nat) (T : Hash D K) => PassesAt L (T.xof known) ask p.1.1 p.1.2 p.2)
      (attempts.product (List.range N)) fun p hp => passes_count L Z hst hK hask p.1.2 known p.1.1 p.2 fun c X hc hX => hD (hfin.mem_toFinset.2 ⟨c, hc, X, hX, rfl⟩)
    have hlen : (attempts.product (List.range N)).length = attempts.length * N := (List.length_product ..).trans (by rw [List.length_range])
    rw [hlen] at hany
    refine Nat.le_trans (Nat.mul_le_mul_right _ (count_mono ?_)) hany
    rintro T ⟨p, hp, hs⟩
    obtain ⟨k, hk, hpass⟩ := succeeds_passes L hst hask (hv p hp) (hN p hp) hs
    exact ⟨(p, k), List.mem_product.2 ⟨hp, hk⟩, hpass⟩

end

end Aiootp.Secrecy
