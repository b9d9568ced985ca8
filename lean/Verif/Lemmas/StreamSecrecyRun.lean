import Verif.Lemmas.StreamSecrecyAgain
import Verif.Props.Stream

/-
The streams of the model are these computations, and what follows for them.
-/

namespace Aiootp.Secrecy

open Oracle Cipher Cipher.Cipher Perm

variable {K : Nat} {κ : Type}

/-! ### which questions are asked -/

/-- The questions of a stream. -/
def questions (A : Plan K κ) (r : Request) : Set Bytes := {q | (∃ j, q ∈ A.past r j) ∨ ∃ d X, q = A.idq d X}

section
variable {A : Plan K κ} (H : A.OK)
include H

theorem emit_out {L : Lazy κ} (h : Core A L) {b : Bytes} (hb : b.length = A.c.blocksize) : (emitT A L b).AllOut fun x => Core A x.2 ∧ Kept L 1 x.2 := by
  refine (block_out H h hb).bind ?_
  intro _ hx _
  exact hx.1

theorem emit_in {L : Lazy κ} (h : Core A L) {b : Bytes} (hb : b.length = A.c.blocksize) : (emitT A L b).AllIn (questions A L.r) := by
  have M := H.machine h.valid
  refine Tree.AllIn.bind ?_ (show (blockT A L b).AllIn _ from ⟨.inl ⟨_, h.mem⟩, fun a => Tree.AllIn.map ?_⟩)
  · intro x
    exact ⟨.inr ⟨_, _, rfl⟩, fun _ => trivial⟩
  obtain ⟨u1, u2, u3⟩ := h.used H a
  exact (M.within h.inv u1 u2 u3 (take_length H a h.valid) hb).mono fun q hq => .inl ⟨_, M.mid_past _ hq⟩

theorem emits_out : ∀ (bs : List Bytes) {L : Lazy κ}, Core A L → (∀ b ∈ bs, b.length = A.c.blocksize) → (emitsT A bs L).AllOut fun x => Core A x.2 ∧ Kept L bs.length x.2
  | [], L, h, _ => ⟨h, .refl L⟩
  | b :: bs, L, h, hb => by
    refine (emit_out H h (hb b (by simp))).bind ?_
    intro x hx
    refine (emits_out bs hx.1 fun y hy => hb y (by simp [hy])).bind ?_
    intro y hy
    refine ⟨hy.1, ?_⟩
    have := hx.2.trans hy.2
    rw [Nat.add_comm] at this
    exact this

theorem emits_in : ∀ (bs : List Bytes) {L : Lazy κ}, Core A L → (∀ b ∈ bs, b.length = A.c.blocksize) → (emitsT A bs L).AllIn (questions A L.r)
  | [], _, _, _ => trivial
  | b :: bs, L, h, hb => by
    refine (emit_in H h (hb b (by simp))).bindOut ?_ (emit_out H h (hb b (by simp)))
    intro x hx
    refine Tree.AllIn.map ?_
    have := emits_in bs hx.1 fun y hy => hb y (by simp [hy])
    rw [hx.2.r] at this
    exact this

omit H in
theorem Core.rebuffer {L : Lazy κ} (h : Core A L) (bs : List Bytes) : Core A { L with buffer := bs } := ⟨h.valid, h.inv, h.mem, h.new, h.perm⟩

theorem exec_out {L : Lazy κ} (h : Fine A L) (act : StreamCall) : (execT A L act).AllOut fun x => Fine A x.2 ∧ x.2.r = L.r := by
  cases act with
  | buffer data =>
    simp only [execT]
    by_cases ht : L.tag = none
    · rw [if_neg (by rw [ht]; simp)]
      exact ⟨h.buffered H ht data, rfl⟩
    · split
      · exact ⟨h, rfl⟩
      · next hn => simp [ht] at hn
  | pull n =>
    obtain ⟨a1, a2, _⟩ := pulled_spec H h n
    refine (emits_out H _ (h.core.rebuffer _) a1).bind ?_
    intro x hx
    rw [a2] at hx
    exact ⟨h.pull H hx.1 hx.2, hx.2.r⟩
  | finalize =>
    simp only [execT]
    by_cases ht : L.tag = none
    · rw [if_neg (by rw [ht]; simp)]
      refine (emits_out H _ (h.core.rebuffer _) (final_spec H h ht).1).bind ?_
      intro x hx a
      exact ⟨Fine.finalized H hx.1 hx.2 _, hx.2.r⟩
    · split
      · exact ⟨h, rfl⟩
      · next hn => simp [ht] at hn

theorem exec_in {L : Lazy κ} (h : Fine A L) (act : StreamCall) : (execT A L act).AllIn (questions A L.r) := by
  cases act with
  | buffer data =>
    simp only [execT]
    split
    · trivial
    · trivial
  | pull n =>
    have := emits_in H _ (h.core.rebuffer (L.buffer.drop (pulled A.c L n))) (pulled_spec H h n).1
    exact this.map
  | finalize =>
    simp only [execT]
    by_cases ht : L.tag = none
    · rw [if_neg (by rw [ht]; simp)]
      have a1 := (final_spec H h ht).1
      have := emits_in H _ (h.core.rebuffer []) a1
      refine this.bindOut ?_ (emits_out H _ (h.core.rebuffer _) a1)
      intro x hx
      refine ⟨.inl ⟨x.2.j, ?_⟩, fun _ => trivial⟩
      have := hx.1.mem
      rw [hx.2.r] at this
      exact this
    · split
      · trivial
      · next hn => simp [ht] at hn

end

section
variable {A : Plan K κ} (H : A.OK) {ask : Streamer} {n0 : Nat} (F : ask.Fair A.c n0)
include H F

theorem game_in : ∀ (n : Nat) {ws : List (Lazy κ)} {seen : List Shown}, World A ask ws seen → seen.length + n = n0 →
    (gameT A ask n ws seen).AllIn {q | (∃ seen r, (ask seen).request = some r ∧ ∃ j, q ∈ A.past r j) ∨ ∃ d X, q = A.idq d X}
  | 0, _, _, _, _ => trivial
  | n + 1, ws, seen, w, hn => by
    rw [gameT]
    cases ha : ask seen with
    | start key draws salt aad =>
      have hr : (ask seen).request = some ⟨key, draws, salt, aad, []⟩ := by rw [ha]; rfl
      exact game_in n (w.start H F hr (by omega) _) (by simp; omega)
    | call k act =>
      simp only [actT]
      cases hk : ws[k]? with
      | none => exact game_in n (w.later _) (by simp; omega)
      | some L =>
        simp only
        rw [tree_map_bind]
        have hmem : L ∈ ws := List.mem_of_getElem? hk
        obtain ⟨h, _, _, _, e⟩ := w.from_ L hmem
        refine ((exec_in H (w.fine L hmem) act).mono ?_).bindOut ?_ (exec_out H (w.fine L hmem) act)
        rotate_left
        · intro x hx
          exact game_in n ((w.set hk hx.1 hx.2).later _) (by simp; omega)
        rintro q (hq | hq)
        · exact .inl ⟨h, _, e, hq⟩
        · exact .inr hq

end

/-! ### the model -/

/-- A cipher of the model with the hash function `T`, and known values of it elsewhere. -/
structure Plan.Runs (A : Plan K κ) (C : Cipher κ) {D : Finset Bytes} (T : Hash D K) (known : Xof) : Prop where
  sound : Nonempty (Sound C)
  usable : Usable C
  streamable : Streamable C.cfg
  cfg : A.c = C.cfg
  i : A.i = C.configId
  permOf : A.permOf = permFrom C.toEnv C.configId
  xof : C.shmacKdf.xof = T.xof known
  idXof : C.blockIdKdf.xof = T.xof known
  idq : ∀ d X, A.idq d X = idInput C.toEnv d X
  primer : C.cfg.primerKeyBytes (5 * C.configId) ≤ K
  id_le : C.cfg.blockIdBytes ≤ K
  turns : ∀ r, Turns C T A.step (A.inv r)
  start : ∀ {r}, r.Valid A.c → ∃ summary kdf, Canon.canonicalPack [r.usedSalt, r.aad, r.draws.iv] 1 [0] 4 = .ok summary ∧ C.shmacKdf.keyed r.key = .ok kdf ∧
    C.shmacKdf.newSessionCopy kdf summary = .ok (A.mac0 r) ∧ C.sessionKdfs r.key summary = .ok (A.keys0 r)

/-- The session of a stream. -/
def Joined (A : Plan K κ) (C : Cipher κ) (L : Lazy κ) (s : Session κ) : Prop :=
  if L.j = 0 then C.startSession L.r.key ⟨L.r.usedSalt, L.r.aad, L.r.draws.iv, true⟩ .encryption = .ok s ∧ L.mac = A.mac0 L.r ∧ L.keys = A.keys0 L.r ∧ s.shmac.result = none
  else s = ⟨.live false .encryption L.mac L.prev (C.shmacKdf.xof.digest L.mac C.cfg.shmacBlocksize) L.perm, L.keys⟩

/-- A stream of the model. -/
structure Linked (A : Plan K κ) (C : Cipher κ) (L : Lazy κ) (st : CipherStream κ) : Prop where
  buffer : st.buffer = L.buffer
  byteCount : st.byteCount = L.byteCount
  closed : st.closed = L.tag.isSome
  extra : st.extra = L.r.draws.extra
  joined : L.tag = none → Joined A C L st.session
  result : st.session.shmac.getResult.toOption = L.tag

section
variable {A : Plan K κ} (H : A.OK) {C : Cipher κ} {D : Finset Bytes} {T : Hash D K} {known : Xof} (R : A.Runs C T known)

theorem Joined.result {L : Lazy κ} {s : Session κ} (h : Joined A C L s) : s.shmac.getResult.toOption = none := by
  unfold Joined at h
  split at h
  · unfold Shmac.getResult
    rw [h.2.2.2]
    rfl
  · rw [h]; rfl

include H R

theorem Joined.session {L : Lazy κ} (hc : Core A L) {s : Session κ} (h : Joined A C L s) (hm : L.mac ∈ D) :
    s = ⟨.live false .encryption L.mac (if L.j = 0 then (Tree.ext T L.mac).1.take A.c.shmacBlocksize else L.prev) ((Tree.ext T L.mac).1.take A.c.shmacBlocksize)
      (if L.j = 0 then A.permOf (Tree.ext T L.mac).1 else L.perm), L.keys⟩ := by
  unfold Joined at h
  rw [R.cfg]
  by_cases hj : L.j = 0
  · rw [if_pos hj] at h
    obtain ⟨h1, h2, h3, _⟩ := h
    obtain ⟨summary, kdf, e1, e2, e3, e4⟩ := R.start hc.valid
    rw [← h2] at e3
    rw [← h3] at e4
    have := start_tree R.xof R.primer R.usable.env (show minKeyBytes ≤ L.r.key.length from hc.valid.key_ge) e1 e2 e3 e4 hm
    rw [this] at h1
    simp only [if_pos hj, R.permOf]
    exact (Except.ok.inj h1).symm
  · rw [if_neg hj] at h
    simp only [if_neg hj]
    have hw := (H.machine hc.valid).wide
    have hd : C.shmacKdf.xof.digest L.mac C.cfg.shmacBlocksize = (Tree.ext T L.mac).1.take C.cfg.shmacBlocksize := by
      rw [R.xof, xof_digest known T hm (by rw [R.cfg] at hw; unfold Sizes.shmacDoubleBlocksize at hw; omega)]
    rw [h, hd]

theorem emit_run {L : Lazy κ} (hc : Core A L) {b : Bytes} (hb : b.length = A.c.blocksize) {s : Session κ} (h : Joined A C L s) (hD : (emitT A L b).AllIn (D : Set Bytes)) :
    ∃ s', C.emit s b = .ok (((emitT A L b).run (Tree.ext T)).1, s') ∧ Joined A C ((emitT A L b).run (Tree.ext T)).2 s' := by
  have M := H.machine hc.valid
  have hblock := Tree.AllIn.left hD
  have hid := Tree.AllIn.right (Tree.ext T) hD
  obtain ⟨hm, hstep⟩ := hblock
  have hstep := Tree.AllIn.left (hstep (Tree.ext T L.mac))
  rw [h.session H R hc hm]
  obtain ⟨u1, u2, u3⟩ := hc.used H (Tree.ext T L.mac)
  have hl := take_length H (Tree.ext T L.mac) hc.valid
  have hout := (M.out hc.inv u1 u2 u3 hl hb).run (Tree.ext T)
  have hturn := R.turns L.r hc.inv u1 (by rw [u2, R.i]) (by rw [u3, R.cfg]) (by rw [hl, R.cfg]) (by rw [hb, R.cfg]) hstep
  have e : (emitT A L b).run (Tree.ext T) = _ := Tree.run_bind _ _ _
  have e' : (blockT A L b).run (Tree.ext T) = _ := Tree.run_map (Tree.ext T) _ (A.step L.mac (if L.j = 0 then (Tree.ext T L.mac).1.take A.c.shmacBlocksize else L.prev)
    ((Tree.ext T L.mac).1.take A.c.shmacBlocksize) (if L.j = 0 then A.permOf (Tree.ext T L.mac).1 else L.perm) L.keys b)
  rw [e'] at hid
  rw [e, e']
  generalize (A.step L.mac (if L.j = 0 then (Tree.ext T L.mac).1.take A.c.shmacBlocksize else L.prev)
    ((Tree.ext T L.mac).1.take A.c.shmacBlocksize) (if L.j = 0 then A.permOf (Tree.ext T L.mac).1 else L.perm) L.keys b).run (Tree.ext T) = x at *
  obtain ⟨X, m', k'⟩ := x
  obtain ⟨hX, _, _, _⟩ := hout
  simp only at *
  obtain ⟨hq, _⟩ := hid
  have hblockid : blockIdOf C.toEnv ((Tree.ext T L.mac).1.take A.c.shmacBlocksize) X = (Tree.ext T (A.idq ((Tree.ext T L.mac).1.take A.c.shmacBlocksize) X)).1.take A.c.blockIdBytes := by
    unfold blockIdOf
    rw [R.idXof, ← R.idq, xof_digest known T hq R.id_le, R.cfg]
  refine ⟨⟨.live false .encryption m' ((Tree.ext T L.mac).1.take A.c.shmacBlocksize) (C.shmacKdf.xof.digest m' C.cfg.shmacBlocksize)
    (if L.j = 0 then A.permOf (Tree.ext T L.mac).1 else L.perm), k'⟩, ?_, ?_⟩
  rotate_left
  · simp only [Tree.run]
    unfold Joined
    rw [if_neg (Nat.succ_ne_zero _)]
  · unfold Cipher.emit
    rw [hturn]
    simp only [bind, Except.bind, pure, Except.pure]
    rw [nextBlockId_eq rfl R.streamable (mac := (Tree.ext T L.mac).1.take A.c.shmacBlocksize) (by simp [Shmac.blockIdMac, Shmac.live, attr]) (by rw [hX, R.cfg]) (.inl rfl)]
    simp only [hblockid, Tree.run]

theorem drain_run {keep : Nat} {rest : List Bytes} : ∀ (bs : List Bytes) {L : Lazy κ} {st : CipherStream κ} {n : Nat}, Core A L → (∀ b ∈ bs, b.length = A.c.blocksize) →
    Joined A C L st.session → st.buffer = bs ++ rest → (bs ≠ [] → keep ≤ rest.length) → bs.length ≤ n → (n = bs.length ∨ rest.length ≤ keep) → (emitsT A bs L).AllIn (D : Set Bytes) →
    ∃ s', CipherStream.drain C keep st n = ((((emitsT A bs L).run (Tree.ext T)).1, none), { st with buffer := rest, session := s' }) ∧ Joined A C ((emitsT A bs L).run (Tree.ext T)).2 s'
  | [], L, st, n, _, _, hj, hbuf, _, _, hn, _ => by
    have hbuf' : st.buffer = rest := hbuf
    have e : { st with buffer := rest, session := st.session } = st := by rw [← hbuf']
    refine ⟨st.session, ?_, hj⟩
    rw [e]
    cases n with
    | zero => rfl
    | succ n =>
      unfold CipherStream.drain
      rcases hn with hn | hn
      · cases hn
      · split
        · rfl
        · rw [if_neg (by rw [hbuf']; omega)]
          rfl
  | b :: bs, L, st, 0, _, _, _, _, _, hle, _, _ => by simp at hle
  | b :: bs, L, st, n + 1, hc, hb, hj, hbuf, hk, hle, hn, hD => by
    have hk' := hk (by simp)
    have h1 := Tree.AllIn.left hD
    have h2 := Tree.AllIn.right (Tree.ext T) (t := emitT A L b) (g := fun x => (emitsT A bs x.2).map fun y => (x.1 :: y.1, y.2)) hD
    have h2 := Tree.AllIn.left h2
    obtain ⟨s1, e1, j1⟩ := emit_run H R hc (hb b (by simp)) hj h1
    have hout := (emit_out H hc (hb b (by simp))).run (Tree.ext T)
    have e : (emitsT A (b :: bs) L).run (Tree.ext T) = (((emitT A L b).run (Tree.ext T)).1 :: ((emitsT A bs ((emitT A L b).run (Tree.ext T)).2).run (Tree.ext T)).1,
        ((emitsT A bs ((emitT A L b).run (Tree.ext T)).2).run (Tree.ext T)).2) := by
      rw [emitsT, Tree.run_bind, Tree.run_map]
    obtain ⟨s2, e2, j2⟩ := drain_run bs (st := { st with buffer := bs ++ rest, session := s1 }) (n := n) hout.1 (fun y hy => hb y (by simp [hy])) j1 rfl (fun _ => hk') (by simpa using hle)
      (by rcases hn with hn | hn
          · exact .inl (by simpa using hn)
          · exact .inr hn) h2
    refine ⟨s2, ?_, by rw [e]; exact j2⟩
    rw [e, CipherStream.drain.eq_def]
    simp only [hbuf, List.cons_append]
    rw [if_pos (by simp only [List.length_cons, List.length_append]; omega), e1]
    simp only [e2]

theorem exec_run {L : Lazy κ} (h : Fine A L) {st : CipherStream κ} (hl : Linked A C L st) (act : StreamCall) (hD : (execT A L act).AllIn (D : Set Bytes)) :
    ∃ st', st.exec C act = (((execT A L act).run (Tree.ext T)).1, st') ∧ Linked A C ((execT A L act).run (Tree.ext T)).2 st' := by
  cases act with
  | buffer data =>
    simp only [execT, CipherStream.exec, CipherStream.bufferData, hl.closed]
    cases ht : L.tag with
    | some t => exact ⟨st, rfl, hl⟩
    | none =>
      refine ⟨_, rfl, ?_, ?_, ?_, hl.extra, fun _ => hl.joined ht, ?_⟩
      · show CipherStream.digestData _ _ _ = CipherStream.digestData _ _ _
        rw [hl.buffer, R.cfg]
      · show st.byteCount + _ = L.byteCount + _
        rw [hl.byteCount]
      · rfl
      · exact hl.result.trans ht
  | pull n =>
    obtain ⟨a1, a2, a3⟩ := pulled_spec H h n
    have hle : pulled A.c L n ≤ L.buffer.length - A.c.minStreamQueue := Nat.min_le_right _ _
    have e : (execT A L (.pull n)).run (Tree.ext T) = _ := Tree.run_map _ _ _
    rw [e]
    by_cases ht : L.tag = none
    · obtain ⟨s', e1, j1⟩ := drain_run H R (keep := C.cfg.minStreamQueue) (rest := L.buffer.drop (pulled A.c L n)) (L.buffer.take (pulled A.c L n)) (st := st) (n := n)
        (L := { L with buffer := L.buffer.drop (pulled A.c L n) }) (h.core.rebuffer _) a1 (hl.joined ht) (by rw [hl.buffer, List.take_append_drop])
        (fun hne => by
          rw [← R.cfg, List.length_drop]
          have : pulled A.c L n ≠ 0 := fun h0 => hne (by rw [h0]; rfl)
          omega)
        (by rw [a2]; exact Nat.min_le_left _ _)
        (by
          rw [a2, ← R.cfg, List.length_drop]
          unfold pulled
          omega) (Tree.AllIn.left hD)
      have hk := (emits_out H _ (h.core.rebuffer (L.buffer.drop (pulled A.c L n))) a1).run (Tree.ext T)
      refine ⟨_, e1, ?_⟩
      generalize (emitsT A (L.buffer.take (pulled A.c L n)) { L with buffer := L.buffer.drop (pulled A.c L n) }).run (Tree.ext T) = x at *
      obtain ⟨ps, L1⟩ := x
      obtain ⟨_, k1, k2, k3, k4, k5⟩ := hk
      simp only at *
      refine ⟨k3.symm, hl.byteCount.trans k4.symm, ?_, by rw [k1]; exact hl.extra, fun _ => j1, ?_⟩
      · show st.closed = _
        rw [hl.closed, k5]
      · rw [j1.result, k5, ht]
    · have h0 := a3 ht
      have hb : L.buffer = [] := h.closed ht
      have e0 : L.buffer.take (pulled A.c L n) = [] := by rw [h0]; rfl
      have e2 : CipherStream.drain C C.cfg.minStreamQueue st n = (([], none), st) := by
        cases n with
        | zero => rfl
        | succ n =>
          unfold CipherStream.drain
          rw [hl.buffer, hb]
      rw [e0]
      refine ⟨st, e2, ?_⟩
      simp only [emitsT, Tree.run]
      have : { L with buffer := L.buffer.drop (pulled A.c L n) } = L := by rw [h0]; rfl
      rw [this]
      exact hl
  | finalize =>
    simp only [execT, CipherStream.exec] at hD ⊢
    by_cases ht : L.tag = none
    · have hcl : st.closed = false := by rw [hl.closed, ht]; rfl
      have hn : ¬ L.tag.isSome = true := by rw [ht]; simp
      rw [if_neg hn] at hD ⊢
      obtain ⟨a1, a2, a3, endp, last, f1, f2, f3⟩ := final_spec H h ht
      have h1 := Tree.AllIn.left hD
      obtain ⟨hm, _⟩ := Tree.AllIn.right (Tree.ext T) hD
      rw [Tree.run_bind]
      obtain ⟨s', e1, j1⟩ := drain_run H R (keep := 0) (rest := []) (finalBlocks A.c L) (L := { L with buffer := [] })
        (st := { st with closed := true, buffer := finalBlocks A.c L }) (n := (finalBlocks A.c L).length)
        (h.core.rebuffer _) a1 (hl.joined ht) (by simp) (fun _ => by simp) (Nat.le_refl _) (.inl rfl) h1
      have hk := (emits_out H _ (h.core.rebuffer []) a1).run (Tree.ext T)
      generalize (emitsT A (finalBlocks A.c L) { L with buffer := [] }).run (Tree.ext T) = x at *
      obtain ⟨ps, L1⟩ := x
      obtain ⟨c1, k1, k2, k3, k4, k5⟩ := hk
      simp only at *
      have hs := j1.session H R c1 hm
      obtain ⟨z, hz, hres⟩ : ∃ z : Shmac, s'.shmac.finalize C.toEnv = .ok (Shmac.tagOf C.toEnv L1.mac, z) ∧ z.getResult.toOption = some (Shmac.tagOf C.toEnv L1.mac) := by
        rw [hs]
        exact ⟨_, Shmac.finalize_live .., rfl⟩
      have htag : Shmac.tagOf C.toEnv L1.mac = tagFrom A.c (Tree.ext T L1.mac).1 := by
        unfold Shmac.tagOf tagFrom
        rw [R.cfg, R.xof, xof_digest known T hm (by have := (H.machine c1.valid).wide; rw [R.cfg] at this; exact this)]
      rw [htag] at hz hres
      have efin : st.finalize C = ((ps, none), { st with closed := true, buffer := [], session := { s' with shmac := z } }) := by
        unfold CipherStream.finalize
        rw [hcl]
        simp only [Bool.false_eq_true, if_false]
        rw [hl.buffer, ← R.cfg, show A.c.endPadding st.extra st.byteCount = .ok endp by rw [hl.extra, hl.byteCount]; exact f1, f2]
        simp only
        rw [← f3, e1]
        simp only [hz]
      refine ⟨_, efin, ?_⟩
      exact ⟨k3.symm, hl.byteCount.trans k4.symm, rfl, by simp only [Tree.run]; rw [k1]; exact hl.extra, fun h0 => (by cases h0), hres⟩
    · have hs : L.tag.isSome = true := by
        cases e : L.tag
        · exact absurd e ht
        · rfl
      have hcl : st.closed = true := by rw [hl.closed, hs]
      rw [if_pos hs]
      refine ⟨st, ?_, hl⟩
      unfold CipherStream.finalize
      rw [hcl]
      rfl

theorem new_run {r : Request} (hv : r.Valid A.c) : ∃ st, CipherStream.new C r.key r.draws r.salt r.aad = .ok (⟨r.usedSalt, r.aad, r.draws.iv, true⟩, st) ∧ Linked A C (freshL A r) st := by
  have hv' := hv
  rw [R.cfg] at hv'
  obtain ⟨S⟩ := R.sound
  have ha : (⟨r.key, r.draws, r.salt, r.aad⟩ : StreamArgs).OK C.cfg := by
    refine ⟨hv'.key_ge, hv'.key_lt, hv'.draws, ?_, hv'.aad⟩
    have h := hv'.salt
    unfold Request.usedSalt at h
    unfold SaltAllowed
    simp only
    rcases hs : r.salt with _ | (_ | ⟨b, bs⟩)
    · exact .inl rfl
    · exact .inr (.inl rfl)
    · rw [hs] at h
      exact .inr (.inr ⟨_, rfl, h⟩)
  obtain ⟨r0, _, _, _, _, e, _, _⟩ := stream_start S R.usable ha
  simp only at e
  have hsalt : usedSalt r.salt r.draws.salt = r.usedSalt := by
    unfold Request.usedSalt usedSalt
    rcases r.salt with _ | (_ | ⟨_, _⟩) <;> rfl
  rw [hsalt] at e
  refine ⟨_, e, ?_, rfl, rfl, rfl, fun _ => ?_, rfl⟩
  · simp only [freshL, R.cfg]
  · have e' := e
    simp only [CipherStream.new, bind_eq_ok, pure, Except.pure, Except.ok.injEq, Prod.mk.injEq] at e'
    obtain ⟨_, _, bd, _, s, hs, e1, e2⟩ := e'
    have e3 := congrArg CipherStream.session e2
    simp only at e3
    rw [e1, e3] at hs
    unfold Joined
    rw [if_pos (show (freshL A r).j = 0 from rfl)]
    exact ⟨hs, rfl, rfl, rfl⟩

theorem game_run {ask : Streamer} {n0 : Nat} (F : ask.Fair A.c n0) : ∀ (n : Nat) {ws : List (Lazy κ)} {streams : List (CipherStream κ)} {seen : List Shown}, World A ask ws seen →
    seen.length + n = n0 → List.Forall₂ (Linked A C) ws streams → (gameT A ask n ws seen).AllIn (D : Set Bytes) →
    streaming C ask n streams seen = (gameT A ask n ws seen).run (Tree.ext T)
  | 0, _, _, _, _, _, _, _ => rfl
  | n + 1, ws, streams, seen, w, hn, hl, hD => by
    rw [gameT] at hD ⊢
    rw [streaming]
    cases ha : ask seen with
    | start key draws salt aad =>
      have hr : (ask seen).request = some ⟨key, draws, salt, aad, []⟩ := by rw [ha]; rfl
      obtain ⟨st, e, hst⟩ := new_run H R (F.valid seen _ hr)
      rw [ha] at hD
      simp only [actT, Tree.bind] at hD ⊢
      simp only at e
      simp only [Act.exec, e]
      exact game_run F n (w.start H F hr (by omega) _) (by simp; omega) (List.rel_append hl (.cons hst .nil)) hD
    | call k act =>
      rw [ha] at hD
      simp only [actT] at hD ⊢
      cases hk : ws[k]? with
      | none =>
        have hk' : streams[k]? = none := by
          rw [List.getElem?_eq_none_iff] at hk ⊢
          rw [← hl.length_eq]; exact hk
        rw [hk] at hD
        simp only [Tree.bind] at hD ⊢
        simp only [Act.exec, hk']
        exact game_run F n (w.later _) (by simp; omega) hl hD
      | some L =>
        obtain ⟨hlt, hL⟩ := List.getElem?_eq_some_iff.1 hk
        have hlt' : k < streams.length := by rw [← hl.length_eq]; exact hlt
        have hk' : streams[k]? = some streams[k] := List.getElem?_eq_getElem hlt'
        have hLk : Linked A C L streams[k] := by rw [← hL]; exact (List.forall₂_iff_get.1 hl).2 k hlt hlt'
        have hmem : L ∈ ws := List.mem_of_getElem? hk
        rw [hk] at hD
        simp only at hD ⊢
        rw [tree_map_bind] at hD ⊢
        obtain ⟨st', e1, e2⟩ := exec_run H R (w.fine L hmem) hLk act (Tree.AllIn.left hD)
        have hout := (exec_out H (w.fine L hmem) act).run (Tree.ext T)
        have hnext := Tree.AllIn.right (Tree.ext T) hD
        rw [Tree.run_bind]
        simp only [Act.exec, hk', e1, e2.result]
        refine game_run F n ((w.set hk hout.1 hout.2).later _) (by simp; omega) ?_ hnext
        rw [List.forall₂_iff_get]
        refine ⟨by rw [List.length_set, List.length_set, hl.length_eq], fun i h1 h2 => ?_⟩
        simp only [List.get_eq_getElem, List.getElem_set]
        by_cases hi : k = i
        · rw [if_pos hi, if_pos hi]; exact e2
        · rw [if_neg hi, if_neg hi]
          exact (List.forall₂_iff_get.1 hl).2 i (by simpa using h1) (by simpa using h2)

end

/-! ### what follows -/

theorem alike_bytes {c : Sizes} {a a' : Act} (h : a.Alike a') : a.bytes c = a'.bytes c := by
  cases a with
  | start key draws salt aad => cases a' <;> first | rfl | cases h
  | call k act => cases a' with
    | start key draws salt aad => cases act <;> cases h
    | call k' act' => cases act <;> cases act' <;> simp_all [Act.Alike, Act.bytes]

theorem alike_atMost {c : Sizes} {ask ask' : Streamer} (h : ∀ seen, (ask seen).Alike (ask' seen)) : ∀ (n : Nat) (seen : List Shown) (bytes : Nat), ask.AtMost c n seen bytes →
    ask'.AtMost c n seen bytes
  | 0, _, _, _ => trivial
  | n + 1, seen, bytes, ⟨h1, h2⟩ => by
    have e := alike_bytes (c := c) (h seen)
    exact ⟨e ▸ h1, fun shown => alike_atMost h n _ _ (e ▸ h2 shown)⟩

theorem streams_hide {A : Plan K κ} (H : A.OK) {C : Xof → Cipher κ} (R : ∀ (known : Xof) (D : Finset Bytes) (T : Hash D K), A.Runs (C (T.xof known)) T known)
    {constants : List Bytes} {idConstant : Bytes} (hpast : ∀ {r}, r.Valid A.c → ∀ j, ∀ q ∈ A.past r j, ∃ F ∈ constants, ∃ w, q = F ++ r.key ++ w)
    (hids : ∀ d X, ∃ w, A.idq d X = idConstant ++ w) : StreamsHide A.c constants idConstant K fun x ask n => streaming (C x) ask n [] [] := by
  classical
  intro known n N ask ask' F F' hal hm
  have hm' := alike_atMost hal n [] _ hm
  have w0 : ∀ ask, World A ask [] [] := fun ask => ⟨fun _ h => absurd h (by simp), fun _ h => absurd h (by simp), fun _ _ _ _ _ h => by simp at h⟩
  obtain ⟨D1, h1⟩ := Tree.finite (gameT A ask n [] [])
  obtain ⟨D2, h2⟩ := Tree.finite (gameT A ask' n [] [])
  let form : Set Bytes := {q | (∃ F ∈ constants, ∃ seen r w, ((ask seen).request = some r ∨ (ask' seen).request = some r) ∧ q = F ++ r.key ++ w) ∨ ∃ w, q = idConstant ++ w}
  have i1 : (gameT A ask n [] []).AllIn form := (game_in H F n (w0 ask) (by simp)).mono (by
    rintro q (⟨seen, r, hr, j, hq⟩ | ⟨d, X, rfl⟩)
    · obtain ⟨f, hf, w, e⟩ := hpast (F.valid seen r hr) j q hq
      exact .inl ⟨f, hf, seen, r, w, .inl hr, e⟩
    · exact .inr (hids d X))
  have i2 : (gameT A ask' n [] []).AllIn form := (game_in H F' n (w0 ask') (by simp)).mono (by
    rintro q (⟨seen, r, hr, j, hq⟩ | ⟨d, X, rfl⟩)
    · obtain ⟨f, hf, w, e⟩ := hpast (F'.valid seen r hr) j q hq
      exact .inl ⟨f, hf, seen, r, w, .inr hr, e⟩
    · exact .inr (hids d X))
  refine ⟨(D1 ∪ D2).filter (· ∈ form), fun q hq => (Finset.mem_filter.1 hq).2, fun D hD test => ?_⟩
  have a1 : (gameT A ask n [] []).AllIn (D : Set Bytes) := (h1.inter i1).mono fun q hq => hD (Finset.mem_filter.2 ⟨Finset.mem_union_left _ hq.1, hq.2⟩)
  have a2 : (gameT A ask' n [] []).AllIn (D : Set Bytes) := (h2.inter i2).mono fun q hq => hD (Finset.mem_filter.2 ⟨Finset.mem_union_right _ hq.1, hq.2⟩)
  have c1 : (count fun T : Hash D K => test (streaming (C (T.xof known)) ask n [] [])) = (Finset.univ.filter fun T : Hash D K => test ((gameT A ask n [] []).run (Tree.ext T))).card := by
    unfold count
    congr 1
    ext T
    rw [Finset.mem_filter, Finset.mem_filter, game_run H (R known D T) F n (w0 ask) (by simp) .nil a1]
  have c2 : (count fun T : Hash D K => test (streaming (C (T.xof known)) ask' n [] [])) = (Finset.univ.filter fun T : Hash D K => test ((gameT A ask' n [] []).run (Tree.ext T))).card := by
    unfold count
    congr 1
    ext T
    rw [Finset.mem_filter, Finset.mem_filter, game_run H (R known D T) F' n (w0 ask') (by simp) .nil a2]
  have b1 : (gameT A ask n [] []).dirty ∅ ≤ bound A N 0 := game_dirty H F N n (w0 ask) (by simp) (C := []) hm (by simp) (by simp) (by simp)
  have b2 : (gameT A ask' n [] []).dirty ∅ ≤ bound A N 0 := game_dirty H F' N n (w0 ask') (by simp) (C := []) hm' (by simp) (by simp) (by simp)
  have t1 := Tree.card_test test a1
  have t2 := Tree.card_test test a2
  have same : (gameT A ask n [] []).mean (fun x => if test x then (1 : ℚ) else 0) = (gameT A ask' n [] []).mean fun x => if test x then (1 : ℚ) else 0 :=
    game_same H F.valid F'.valid hal n [] .nil _ _ fun x x' e => by rw [e]
  have hz := bound_zero_le A N
  have htot : (0 : ℚ) ≤ Fintype.card (Hash D K) := by positivity
  have hpow : (0 : ℚ) < 256 ^ A.c.shmacBlocksize := by positivity
  rw [abs_le] at t1 t2
  rw [same] at t1
  have key : ∀ x y m d d' : ℚ, d ≤ bound A N 0 → d' ≤ bound A N 0 → x - m * Fintype.card (Hash D K) ≤ d * Fintype.card (Hash D K) → -(d' * Fintype.card (Hash D K)) ≤ y - m * Fintype.card (Hash D K) →
      x * 256 ^ A.c.shmacBlocksize ≤ y * 256 ^ A.c.shmacBlocksize + N * N * Fintype.card (Hash D K) := by
    intro x y m d d' hd hd' hx hy
    have e1 := mul_le_mul_of_nonneg_right hd htot
    have e2 := mul_le_mul_of_nonneg_right hd' htot
    have e3 : x ≤ y + bound A N 0 * 2 * Fintype.card (Hash D K) := by linarith
    have e4 := mul_le_mul_of_nonneg_right e3 hpow.le
    have e5 := mul_le_mul_of_nonneg_right hz htot
    linarith
  rw [c1, c2]
  unfold total
  constructor
  · have := key _ _ _ _ _ b1 b2 t1.2 t2.1
    exact_mod_cast this
  · have := key _ _ _ _ _ b2 b1 t2.2 t1.1
    exact_mod_cast this

end Aiootp.Secrecy
