import Verif.Lemmas.Message
import Verif.Model.Stream

namespace Aiootp.Cipher

open Perm Cipher

/-- What is needed of a configuration for its ciphers to stream: block ids have an allowed size. -/
structure Streamable (c : Sizes) : Prop where
  id_pos : 0 < c.blockIdBytes
  id_lt : c.blockIdBytes < 256
  id_min : c.minBlockIdBytes ≤ c.blockIdBytes
  id_max : c.blockIdBytes ≤ c.maxBlockIdBytes
  block_lt : c.blocksize < 256 ^ 8

/-- The hash objects of a session, apart from its direction. -/
structure Ratchet (κ : Type) where
  mac : Bytes
  prev : Bytes
  cur : Bytes
  perm : Chain
  keys : κ

namespace Ratchet

variable {κ : Type}

def session (r : Ratchet κ) (g : Bool) (d : Direction) : Session κ := ⟨.live g d r.mac r.prev r.cur r.perm, r.keys⟩

theorem session_inj {r s : Ratchet κ} {g h : Bool} {d e : Direction} (hs : r.session g d = s.session h e) : r = s := by
  obtain ⟨m, p, c, q, k⟩ := r
  obtain ⟨m', p', c', q', k'⟩ := s
  simp only [session, Shmac.live, Session.mk.injEq, Shmac.mk.injEq, Option.some.injEq] at hs
  simp [hs]

structure WF (C : Cipher κ) (r : Ratchet κ) : Prop where
  perm : r.perm.WF
  size : r.perm.size = C.configId
  prev : r.prev.length = C.cfg.shmacBlocksize
  cur : r.cur.length = C.cfg.shmacBlocksize

end Ratchet

/-- The bytes hashed for the block id of the ciphertext block `X` after the transcript with digest `c`. -/
def idInput (E : Env) (c X : Bytes) : Bytes :=
  E.blockIdKdf.factory ++ (c ++ beDigits 1 E.cfg.blockIdBytes ++ beDigits 8 0 ++ [] ++ beDigits 8 X.length ++ X)

def blockIdOf (E : Env) (c X : Bytes) : Bytes := E.blockIdKdf.xof.digest (idInput E c X) E.cfg.blockIdBytes

theorem length_blockIdOf (E : Env) (c X : Bytes) : (blockIdOf E c X).length = E.cfg.blockIdBytes := Xof.length_digest ..

variable {κ : Type} {C : Cipher κ}

/-- One block in both directions. -/
structure StepRel (S : Sound C) (r : Ratchet κ) (P X : Bytes) (r' : Ratchet κ) : Prop where
  plain : P.length = C.cfg.blocksize
  cipher : X.length = C.cfg.blocksize
  wf : r'.WF C
  prev : r'.prev = r.cur
  mac : ∃ w, r'.mac = r.mac ++ w ∧ w.length = S.width (S.started r.keys) ∧ S.extract (S.started r.keys) w = X
  cur : r'.cur = C.shmacKdf.xof.digest r'.mac C.cfg.shmacBlocksize
  started : S.started r'.keys = true
  enc : ∀ g, C.turn (r.session g .encryption).shmac r.keys P
    = .ok (X, (r'.session g .encryption).shmac, r'.keys)
  dec : ∀ g, C.turn (r.session g .decryption).shmac r.keys X
    = .ok (P, (r'.session g .decryption).shmac, r'.keys)

theorem step_of (S : Sound C) {r : Ratchet κ} (h : r.WF C) (d : Direction) {b : Bytes} (hb : b.length = C.cfg.blocksize) :
    ∃ P X r', StepRel S r P X r' ∧ (match d with | .encryption => b = P | .decryption => b = X) := by
  obtain ⟨P, X, w, k', hP, hX, hw, hex, hst, hd, he, hde⟩ := S.step d r.mac r.prev r.cur r.perm r.keys b h.perm h.size
    h.prev h.cur hb
  exact ⟨P, X, ⟨r.mac ++ w, r.cur, C.shmacKdf.xof.digest (r.mac ++ w) C.cfg.shmacBlocksize, r.perm, k'⟩,
    ⟨hP, hX, ⟨h.perm, h.size, h.cur, Xof.length_digest ..⟩, rfl, ⟨w, rfl, hw, hex⟩, rfl, hst, he, hde⟩, by cases d <;> exact hd⟩

theorem step_enc (S : Sound C) {r : Ratchet κ} (h : r.WF C) {P : Bytes} (hb : P.length = C.cfg.blocksize) :
    ∃ X r', StepRel S r P X r' := by
  obtain ⟨P, X, r', h, rfl⟩ := step_of S h .encryption hb
  exact ⟨X, r', h⟩

theorem step_dec (S : Sound C) {r : Ratchet κ} (h : r.WF C) {X : Bytes} (hb : X.length = C.cfg.blocksize) :
    ∃ P r', StepRel S r P X r' := by
  obtain ⟨P, X, r', h, rfl⟩ := step_of S h .decryption hb
  exact ⟨P, r', h⟩

theorem StepRel.unique_enc {S : Sound C} {r r1 r2 : Ratchet κ} {P X Y : Bytes} (h1 : StepRel S r P X r1)
    (h2 : StepRel S r P Y r2) : X = Y ∧ r1 = r2 := by
  have := (h1.enc true).symm.trans (h2.enc true)
  simp only [Except.ok.injEq, Prod.mk.injEq] at this
  refine ⟨this.1, Ratchet.session_inj (g := true) (h := true) (d := .encryption) (e := .encryption) ?_⟩
  have h3 := this.2.1
  have h4 := this.2.2
  unfold Ratchet.session at h3 ⊢
  simp only at h3
  rw [h3, h4]

theorem StepRel.unique_dec {S : Sound C} {r r1 r2 : Ratchet κ} {P Q X : Bytes} (h1 : StepRel S r P X r1)
    (h2 : StepRel S r Q X r2) : P = Q ∧ r1 = r2 := by
  have := (h1.dec true).symm.trans (h2.dec true)
  simp only [Except.ok.injEq, Prod.mk.injEq] at this
  refine ⟨this.1, Ratchet.session_inj (g := true) (h := true) (d := .decryption) (e := .decryption) ?_⟩
  have h3 := this.2.1
  have h4 := this.2.2
  unfold Ratchet.session at h3 ⊢
  simp only at h3
  rw [h3, h4]

theorem nextBlockId_eq {c : Sizes} {E : Env} (hc : E.cfg = c) (hs : Streamable c) {s : Shmac} {mac X : Bytes} {size : Nat}
    (hm : s.blockIdMac = .ok mac) (hX : X.length = c.blocksize) (hsize : size = 0 ∨ size = c.blockIdBytes) :
    s.nextBlockId E X size [] = .ok (blockIdOf E mac X) := by
  subst hc
  have hsz : (if size = 0 then E.cfg.blockIdBytes else size) = E.cfg.blockIdBytes := by
    rcases hsize with rfl | rfl
    · rfl
    · split <;> rfl
  unfold Shmac.nextBlockId
  simp only [hsz]
  have hmin := hs.id_min
  have hmax := hs.id_max
  simp only [bind_eq_ok, raiseIf_ok, pure, Except.pure, Except.ok.injEq]
  refine ⟨(), by omega, (), by omega, mac, hm, _, ?_, rfl⟩
  have hb := hs.block_lt
  have hid := hs.id_lt
  unfold Shmac.blockIdPayload
  rw [toBytesBE_of_lt (s := 1) (by omega), toBytesBE_of_lt (s := 8) (by simp), toBytesBE_of_lt (s := 8) (n := X.length) (by omega)]
  simp [bind, Except.bind, pure, Except.pure]

theorem emit_step {S : Sound C} (hs : Streamable C.cfg) {r r' : Ratchet κ} {P X : Bytes} (h : StepRel S r P X r') (g : Bool) :
    C.emit (r.session g .encryption) P = .ok ((blockIdOf C.toEnv r.cur X, X), r'.session g .encryption) := by
  unfold emit
  simp only [bind_eq_ok, pure, Except.pure, Except.ok.injEq]
  refine ⟨_, h.enc g, _, nextBlockId_eq rfl hs (mac := r.cur) ?_ h.cipher (.inl rfl), rfl⟩
  have := h.prev
  simp [Shmac.blockIdMac, Ratchet.session, Shmac.live, attr, this]

theorem accept_step {S : Sound C} (hs : Streamable C.cfg) {r r' : Ratchet κ} {P X id : Bytes} (h : StepRel S r P X r')
    (g : Bool) (hid : id.length = C.cfg.blockIdBytes) :
    C.accept (r.session g .decryption) id X
      = if id = blockIdOf C.toEnv r.cur X then .ok (P, r'.session g .decryption) else .error .invalidBlockID := by
  have hn : (r.session g .decryption).shmac.nextBlockId C.toEnv X id.length [] = .ok (blockIdOf C.toEnv r.cur X) := by
    refine nextBlockId_eq rfl hs ?_ h.cipher (.inr hid)
    simp [Shmac.blockIdMac, Ratchet.session, Shmac.live, attr]
  unfold accept Shmac.testNextBlockId
  rw [hn]
  by_cases he : id = blockIdOf C.toEnv r.cur X
  · rw [if_pos he]
    simp only [bind_eq_ok, pure, Except.pure, Except.ok.injEq, raiseIf_ok]
    exact ⟨(), ⟨_, rfl, by simp [he]⟩, _, h.dec g, rfl⟩
  · rw [if_neg he]
    simp [bind, Except.bind, raiseIf, he]

/-- A run over several blocks: plaintext blocks and packets. -/
inductive Path (S : Sound C) : Ratchet κ → List Bytes → List Packet → Ratchet κ → Prop
  | nil (r) : Path S r [] [] r
  | cons {r r1 r' P X Ps G} : StepRel S r P X r1 → Path S r1 Ps G r' →
      Path S r (P :: Ps) ((blockIdOf C.toEnv r.cur X, X) :: G) r'

theorem Path.wf {S : Sound C} {r r' : Ratchet κ} {Ps : List Bytes} {G : List Packet} (h : Path S r Ps G r') (hr : r.WF C) : r'.WF C := by
  induction h with
  | nil => exact hr
  | cons h1 _ ih => exact ih h1.wf

theorem Path.append {S : Sound C} {r r1 r2 : Ratchet κ} {Ps Qs : List Bytes} {G H : List Packet} (h : Path S r Ps G r1)
    (h2 : Path S r1 Qs H r2) : Path S r (Ps ++ Qs) (G ++ H) r2 := by
  induction h with
  | nil => exact h2
  | cons h1 _ ih => exact .cons h1 (ih h2)

theorem path_enc (S : Sound C) : ∀ (Ps : List Bytes) {r : Ratchet κ}, r.WF C → (∀ b ∈ Ps, b.length = C.cfg.blocksize) →
    ∃ G r', Path S r Ps G r' := by
  intro Ps
  induction Ps with
  | nil => intro r _ _; exact ⟨[], r, .nil r⟩
  | cons P Ps ih =>
    intro r hr hl
    obtain ⟨X, r1, h1⟩ := step_enc S hr (hl P (by simp))
    obtain ⟨G, r', h2⟩ := ih h1.wf (fun b hb => hl b (by simp [hb]))
    exact ⟨_, r', .cons h1 h2⟩

theorem Path.unique {S : Sound C} {r r1 r2 : Ratchet κ} {Ps : List Bytes} {G H : List Packet} (h : Path S r Ps G r1)
    (h2 : Path S r Ps H r2) : G = H ∧ r1 = r2 := by
  induction h generalizing H r2 with
  | nil => cases h2; exact ⟨rfl, rfl⟩
  | cons h1 _ ih =>
    cases h2 with
    | cons h3 h4 =>
      obtain ⟨rfl, rfl⟩ := h1.unique_enc h3
      obtain ⟨rfl, rfl⟩ := ih h4
      exact ⟨rfl, rfl⟩

theorem Path.blocks {S : Sound C} {r r' : Ratchet κ} {Ps : List Bytes} {G : List Packet} (h : Path S r Ps G r') :
    (∀ b ∈ Ps, b.length = C.cfg.blocksize) ∧
    (∀ x ∈ G, x.1.length = C.cfg.blockIdBytes ∧ x.2.length = C.cfg.blocksize) ∧ G.length = Ps.length := by
  induction h with
  | nil => simp
  | cons h1 _ ih =>
    simp only [List.mem_cons, forall_eq_or_imp, List.length_cons, ih.2.2, and_true]
    exact ⟨⟨h1.plain, ih.1⟩, ⟨length_blockIdOf .., h1.cipher⟩, ih.2.1⟩

theorem Path.run {S : Sound C} {r r' : Ratchet κ} {Ps : List Bytes} {G : List Packet} (h : Path S r Ps G r') (g : Bool) :
    C.run (r.session g .encryption) Ps = .ok (G.map (·.2), r'.session g .encryption) ∧
    C.run (r.session g .decryption) (G.map (·.2)) = .ok (Ps, r'.session g .decryption) := by
  induction h with
  | nil => exact ⟨rfl, rfl⟩
  | cons h1 _ ih =>
    constructor
    · simp only [Cipher.run, bind_eq_ok, pure, Except.pure, Except.ok.injEq]
      exact ⟨_, h1.enc g, _, ih.1, rfl⟩
    · simp only [List.map_cons, Cipher.run, bind_eq_ok, pure, Except.pure, Except.ok.injEq]
      exact ⟨_, h1.dec g, _, ih.2, rfl⟩

/-! ### encryption -/

namespace CipherStream

theorem readBlocks_spec {n : Nat} (hn : 0 < n) : ∀ (k : Nat) (data : Bytes), data.length ≤ k →
    ∃ init last, readBlocks n data = init ++ [last] ∧ (∀ b ∈ init, b.length = n) ∧ init.flatten ++ last = data := by
  intro k
  induction k with
  | zero =>
    intro data h
    have : data = [] := List.length_eq_zero_iff.1 (by omega)
    subst this
    rw [readBlocks, dif_pos (.inr (by simpa using hn))]
    exact ⟨[], [], rfl, by simp, rfl⟩
  | succ k ih =>
    intro data h
    rw [readBlocks]
    by_cases hd : data.length < n
    · rw [dif_pos (.inr hd)]
      exact ⟨[], data, rfl, by simp, rfl⟩
    · rw [dif_neg (by omega)]
      obtain ⟨init, last, h1, h2, h3⟩ := ih (data.drop n) (by rw [List.length_drop]; omega)
      refine ⟨data.take n :: init, last, by rw [h1]; rfl, ?_, ?_⟩
      · intro b hb
        rcases List.mem_cons.1 hb with rfl | hb
        · rw [List.length_take]; omega
        · exact h2 b hb
      · rw [List.flatten_cons, List.append_assoc, h3, List.take_append_drop]

theorem digestData_spec {n : Nat} (hn : 0 < n) {init : List Bytes} {last : Bytes} (hi : ∀ b ∈ init, b.length = n) (data : Bytes) :
    ∃ init' last', digestData n (init ++ [last]) data = init' ++ [last'] ∧ (∀ b ∈ init', b.length = n) ∧
      init'.flatten ++ last' = init.flatten ++ last ++ data := by
  unfold digestData
  simp only [List.getLast?_append, List.getLast?_singleton, Option.some_or, List.dropLast_concat]
  by_cases h1 : last.length = n
  · rw [if_pos h1]
    obtain ⟨i, l, e1, e2, e3⟩ := readBlocks_spec hn _ data (Nat.le_refl _)
    refine ⟨init ++ [last] ++ i, l, by rw [e1]; simp, ?_, ?_⟩
    · intro b hb
      simp only [List.mem_append, List.mem_singleton] at hb
      rcases hb with (hb | rfl) | hb
      exacts [hi b hb, h1, e2 b hb]
    · rw [← e3]; simp
  · rw [if_neg h1]
    by_cases h2 : last.length > n
    · rw [if_pos h2]
      exact ⟨init, last ++ data, rfl, hi, by simp⟩
    · rw [if_neg h2]
      by_cases h3 : (data.take (n - last.length)).length ≠ n - last.length
      · simp only [if_pos h3]
        refine ⟨init, _, rfl, hi, ?_⟩
        have : data.take (n - last.length) = data := List.take_of_length_le (by
          rw [List.length_take] at h3; omega)
        rw [this]; simp
      · simp only [if_neg h3]
        obtain ⟨i, l, e1, e2, e3⟩ := readBlocks_spec hn _ (data.drop (n - last.length)) (Nat.le_refl _)
        refine ⟨init ++ [last ++ data.take (n - last.length)] ++ i, l, by rw [e1]; simp, ?_, ?_⟩
        · intro b hb
          simp only [List.mem_append, List.mem_singleton] at hb
          rcases hb with (hb | rfl) | hb
          · exact hi b hb
          · rw [List.length_append]; omega
          · exact e2 b hb
        · have : data = data.take (n - last.length) ++ (i.flatten ++ l) := by rw [e3, List.take_append_drop]
          conv => rhs; rw [this]
          simp

theorem drain_spec {S : Sound C} (hs : Streamable C.cfg) (g : Bool) (keep : Nat) : ∀ (n : Nat) (r : Ratchet κ) (st : CipherStream κ),
    r.WF C → st.session = r.session g .encryption →
    (∀ b ∈ st.buffer.take (st.buffer.length - keep), b.length = C.cfg.blocksize) →
    ∃ j G r', j ≤ st.buffer.length - keep ∧ (st.buffer.length - keep ≤ n → j = st.buffer.length - keep) ∧
      Path S r (st.buffer.take j) G r' ∧
      drain C keep st n = ((G, none), { st with buffer := st.buffer.drop j, session := r'.session g .encryption }) := by
  intro n
  induction n with
  | zero =>
    intro r st _ hss _
    obtain ⟨ss, bu, bc, cl, ex⟩ := st
    simp only at hss
    subst hss
    exact ⟨0, [], r, Nat.zero_le _, fun h => by simp only at h ⊢; omega, .nil r, rfl⟩
  | succ n ih =>
    intro r st hr hss hb
    obtain ⟨ss, bu, bc, cl, ex⟩ := st
    simp only at hss hb ⊢
    subst hss
    cases bu with
    | nil => exact ⟨0, [], r, Nat.zero_le _, fun _ => by simp, .nil r, rfl⟩
    | cons b bs =>
      by_cases hk : (b :: bs).length > keep
      · have hb1 : b.length = C.cfg.blocksize := by
          apply hb
          have : (b :: bs).length - keep = (bs.length - keep) + 1 := by simp only [List.length_cons] at hk ⊢; omega
          rw [this, List.take_succ_cons]
          simp
        obtain ⟨X, r1, h1⟩ := step_enc S hr hb1
        obtain ⟨j, G, r', j1, j2, j3, j4⟩ := ih r1 ⟨r1.session g .encryption, bs, bc, cl, ex⟩ h1.wf rfl (by
          intro b' hb'
          apply hb
          have : (b :: bs).length - keep = (bs.length - keep) + 1 := by simp only [List.length_cons] at hk ⊢; omega
          rw [this, List.take_succ_cons]
          simp only at hb'
          simp [hb'])
        simp only at j1 j2 j3 j4
        refine ⟨j + 1, _, r', ?_, ?_, .cons h1 j3, ?_⟩
        · simp only [List.length_cons] at hk ⊢; omega
        · simp only [List.length_cons] at hk ⊢; omega
        · simp only [drain, if_pos hk, emit_step hs h1 g, j4, List.drop_succ_cons]
      · refine ⟨0, [], r, Nat.zero_le _, fun _ => by omega, .nil r, ?_⟩
        simp only [drain, if_neg hk, List.drop_zero]

end CipherStream

theorem batch_append {n : Nat} (hn : 0 < n) : ∀ (bs : List Bytes), (∀ b ∈ bs, b.length = n) → ∀ (r : Bytes),
    Text.batch n (bs.flatten ++ r) = bs ++ Text.batch n r := by
  intro bs
  induction bs with
  | nil => intro _ r; rfl
  | cons b bs ih =>
    intro h r
    have hb := h b (by simp)
    rw [Text.batch]
    have ht : (((b :: bs).flatten ++ r).take n) = b := by
      rw [List.flatten_cons, List.append_assoc, List.take_left' hb]
    have hd : (((b :: bs).flatten ++ r).drop n) = bs.flatten ++ r := by
      rw [List.flatten_cons, List.append_assoc, List.drop_left' hb]
    rw [ht, hd, dif_neg (by rintro rfl; simp at hb; omega), ih (fun x hx => h x (by simp [hx])), List.cons_append]


namespace CipherStream

/-- An open stream: `data` was buffered and the packets `G` were given out. -/
def Inv (S : Sound C) (r0 : Ratchet κ) (start extra data : Bytes) (G : List Packet) (st : CipherStream κ) : Prop :=
  ∃ Ds r init last, Path S r0 Ds G r ∧
    st = ⟨r.session false .encryption, init ++ [last], data.length, false, extra⟩ ∧
    (∀ b ∈ init, b.length = C.cfg.blocksize) ∧ Ds.flatten ++ (init.flatten ++ last) = start ++ data

theorem Inv.buffer {S : Sound C} {r0 : Ratchet κ} {start extra data : Bytes} {G : List Packet} {st : CipherStream κ}
    (h : Inv S r0 start extra data G st) (d : Bytes) :
    ∃ st', st.exec C (.buffer d) = (([], none), st') ∧ Inv S r0 start extra (data ++ d) G st' := by
  obtain ⟨Ds, r, init, last, hp, rfl, hi, hf⟩ := h
  obtain ⟨init', last', e1, e2, e3⟩ := digestData_spec S.block_pos hi d (last := last)
  refine ⟨⟨r.session false .encryption, init' ++ [last'], data.length + d.length, false, extra⟩, ?_, Ds, r, init', last', hp,
    by rw [List.length_append], e2, ?_⟩
  · simp [exec, bufferData, e1]
  · rw [e3, ← List.append_assoc, hf, List.append_assoc]

theorem Inv.pull {S : Sound C} (hs : Streamable C.cfg) {r0 : Ratchet κ} (hr : r0.WF C) {start extra data : Bytes} {G : List Packet} {st : CipherStream κ}
    (h : Inv S r0 start extra data G st) (n : Nat) :
    ∃ H st', st.exec C (.pull n) = ((H, none), st') ∧ Inv S r0 start extra data (G ++ H) st' := by
  obtain ⟨Ds, r, init, last, hp, rfl, hi, hf⟩ := h
  have hkeep : 1 ≤ C.cfg.minStreamQueue := by simp [Sizes.minStreamQueue]
  obtain ⟨j, H, r', j1, _, j3, j4⟩ := drain_spec hs false C.cfg.minStreamQueue n r
    ⟨r.session false .encryption, init ++ [last], data.length, false, extra⟩ (hp.wf hr) rfl (by
      intro b hb
      simp only [List.length_append, List.length_singleton] at hb
      rw [List.take_append_of_le_length (by omega)] at hb
      exact hi b (List.mem_of_mem_take hb)) (S := S)
  simp only [List.length_append, List.length_singleton] at j1 j3 j4
  have hj : j ≤ init.length := by omega
  rw [List.take_append_of_le_length hj] at j3
  rw [List.drop_append_of_le_length hj] at j4
  refine ⟨H, _, j4, Ds ++ init.take j, r', init.drop j, last, hp.append j3, rfl, fun b hb => hi b (List.mem_of_mem_drop hb), ?_⟩
  rw [← hf, List.flatten_append, List.append_assoc]
  congr 1
  rw [← List.append_assoc, ← List.flatten_append, List.take_append_drop]

theorem Inv.finalize {S : Sound C} (hs : Streamable C.cfg) (hF : 0 < C.cfg.paddingFrame) {r0 : Ratchet κ} (hr : r0.WF C)
    {start extra data : Bytes} {G : List Packet} {st : CipherStream κ}
    (h : Inv S r0 start extra data G st) (hstart : start.length = C.cfg.innerHeaderBytes)
    (hextra : extra.length = C.cfg.paddingFrame) :
    ∃ endp H r st', C.cfg.endPadding extra data.length = .ok endp ∧
      Path S r0 (Text.batch C.cfg.blocksize (start ++ data ++ endp)) (G ++ H) r ∧
      st.exec C .finalize = ((H, none), st') ∧ st'.closed = true ∧ st'.buffer = [] ∧
      st'.session.shmac.getResult = .ok (Shmac.tagOf C.toEnv r.mac) := by
  obtain ⟨Ds, r, init, last, hp, rfl, hi, hf⟩ := h
  have hend := Sizes.endPadding_eq (c := C.cfg) hF extra data.length
  obtain ⟨endp, he⟩ : ∃ p, C.cfg.endPadding extra data.length = .ok p := ⟨_, hend⟩
  have hlen := Sizes.length_endPadding hF hextra he
  have hmod := (Sizes.padSize_bounds (c := C.cfg) hF data.length).2.2
  have hdvd : C.cfg.blocksize ∣ (start ++ data ++ endp).length := by
    rw [List.length_append, List.length_append, hlen, hstart]
    exact Nat.dvd_trans ⟨_, rfl⟩ (Nat.dvd_of_mod_eq_zero hmod)
  have hall := batch_blocks_of_dvd S.block_pos hdvd
  have hbatch : Text.batch C.cfg.blocksize (start ++ data ++ endp)
      = Ds ++ (init ++ Text.batch C.cfg.blocksize (last ++ endp)) := by
    rw [← hf]
    have : Ds.flatten ++ (init.flatten ++ last) ++ endp = Ds.flatten ++ (init.flatten ++ (last ++ endp)) := by simp
    rw [this, batch_append S.block_pos _ hp.blocks.1, batch_append S.block_pos _ hi]
  rw [hbatch] at hall
  obtain ⟨j, H, r', j1, j2, j3, j4⟩ := drain_spec hs false 0 (init ++ Text.batch C.cfg.blocksize (last ++ endp)).length r
    ⟨r.session false .encryption, init ++ Text.batch C.cfg.blocksize (last ++ endp), data.length, true, extra⟩ (hp.wf hr) rfl (by
      intro b hb
      simp only [Nat.sub_zero, List.take_length] at hb
      exact hall b (List.mem_append_right _ hb)) (S := S)
  simp only [Nat.sub_zero, Nat.le_refl, true_implies] at j1 j2 j3 j4
  subst j2
  rw [List.take_length] at j3
  rw [List.drop_length] at j4
  refine ⟨endp, H, r', ⟨⟨{ (r'.session false .encryption).shmac with
      finalized := true, result := some (Shmac.tagOf C.toEnv r'.mac), mac := none, previous := none, current := none }, r'.keys⟩,
      [], data.length, true, extra⟩, he, ?_, ?_, rfl, rfl, rfl⟩
  · rw [hbatch]; exact hp.append j3
  · simp only [exec, CipherStream.finalize, Bool.false_eq_true, if_false, he, List.getLast?_append, List.getLast?_singleton, Option.some_or,
      List.dropLast_concat, j4]
    rfl

theorem closed_buffer (st : CipherStream κ) (h : st.closed = true) (d : Bytes) :
    st.exec C (.buffer d) = (([], some .streamClosed), st) := by simp [exec, bufferData, h]

theorem closed_finalize (st : CipherStream κ) (h : st.closed = true) :
    st.exec C .finalize = (([], some .streamClosed), st) := by simp [exec, finalize, h]

theorem closed_pull (st : CipherStream κ) (h : st.buffer = []) (n : Nat) :
    st.exec C (.pull n) = (([], none), st) := by
  cases n <;> simp [exec, pull, drain, h]

end CipherStream


/-! ### decryption -/

/-- The bytes that are sent for a list of packets. -/
def wire (G : List Packet) : Bytes := (G.map fun x => x.1 ++ x.2).flatten

/-- A packet has the sizes that the configuration asks for. -/
def Sized (c : Sizes) (x : Packet) : Prop := x.1.length = c.blockIdBytes ∧ x.2.length = c.blocksize

theorem wire_append (G H : List Packet) : wire (G ++ H) = wire G ++ wire H := by simp [wire]

theorem wire_cons (x : Packet) (G : List Packet) : wire (x :: G) = x.1 ++ (x.2 ++ wire G) := by simp [wire]

theorem length_wire {c : Sizes} (G : List Packet) (h : ∀ x ∈ G, Sized c x) : (wire G).length = c.packetsize * G.length := by
  induction G with
  | nil => simp [wire]
  | cons x G ih =>
    have hx := h x (by simp)
    rw [wire_cons, List.length_append, List.length_append, ih (fun y hy => h y (by simp [hy])), hx.1, hx.2, List.length_cons,
      Sizes.packetsize, Nat.mul_add]
    omega

/-- Bytes in the amount of whole packets are a list of packets. -/
theorem exists_wire {c : Sizes} : ∀ (k : Nat) (data : Bytes), data.length = c.packetsize * k →
    ∃ G, data = wire G ∧ (∀ x ∈ G, Sized c x) ∧ G.length = k := by
  intro k
  induction k with
  | zero => intro data h; exact ⟨[], by simpa [wire] using h, by simp, rfl⟩
  | succ k ih =>
    intro data h
    have hps : c.packetsize = c.blockIdBytes + c.blocksize := rfl
    rw [Nat.mul_succ] at h
    obtain ⟨G, h1, h2, h3⟩ := ih ((data.drop c.blockIdBytes).drop c.blocksize) (by simp only [List.length_drop]; omega)
    refine ⟨(data.take c.blockIdBytes, (data.drop c.blockIdBytes).take c.blocksize) :: G, ?_, ?_, by simp [h3]⟩
    · rw [wire_cons, ← h1, List.take_append_drop, List.take_append_drop]
    · intro x hx
      rcases List.mem_cons.1 hx with rfl | hx
      · simp only [Sized, List.length_take, List.length_drop]; omega
      · exact h2 x hx

theorem Path.sized {S : Sound C} {r r' : Ratchet κ} {Ps : List Bytes} {G : List Packet} (h : Path S r Ps G r') :
    ∀ x ∈ G, Sized C.cfg x := h.blocks.2.1

theorem Path.unique_dec {S : Sound C} {r r1 r2 : Ratchet κ} {Ps Qs : List Bytes} {G : List Packet} (h : Path S r Ps G r1)
    (h2 : Path S r Qs G r2) : Ps = Qs ∧ r1 = r2 := by
  generalize hG : G = H at h2
  induction h generalizing H Qs r2 with
  | nil => subst hG; cases h2; exact ⟨rfl, rfl⟩
  | cons h1 _ ih =>
    cases h2 with
    | nil => cases hG
    | cons h3 h4 =>
      simp only [List.cons.injEq, Prod.mk.injEq] at hG
      obtain ⟨⟨_, rfl⟩, rfl⟩ := hG
      obtain ⟨rfl, rfl⟩ := h1.unique_dec h3
      obtain ⟨rfl, rfl⟩ := ih _ rfl h4
      exact ⟨rfl, rfl⟩

theorem Path.split {S : Sound C} {r r' : Ratchet κ} {Ps : List Bytes} : ∀ {G H : List Packet}, Path S r Ps (G ++ H) r' →
    ∃ Ps1 Ps2 r1, Ps = Ps1 ++ Ps2 ∧ Path S r Ps1 G r1 ∧ Path S r1 Ps2 H r' := by
  intro G
  induction G generalizing r Ps with
  | nil => intro H h; exact ⟨[], Ps, r, rfl, .nil r, h⟩
  | cons x G ih =>
    intro H h
    cases h with
    | cons h1 h2 =>
      obtain ⟨Ps1, Ps2, r1, rfl, h3, h4⟩ := ih h2
      exact ⟨_ :: Ps1, Ps2, r1, rfl, .cons h1 h3, h4⟩

namespace DecipherStream

/-- What `buffer` does with packets: those up to the first one with a wrong id are taken, the rest is not looked at. -/
theorem digestData_spec (S : Sound C) (hs : Streamable C.cfg) : ∀ (A : List Packet) (r : Ratchet κ) (st : DecipherStream κ),
    r.WF C → st.session = r.session true .decryption → (∀ x ∈ A, Sized C.cfg x) →
    ∃ good bad Ps r', A = good ++ bad ∧ Path S r Ps good r' ∧
      (bad = [] → digestData C st (wire A)
        = (.ok, { st with session := r'.session true .decryption, queue := st.queue ++ Ps })) ∧
      (∀ x rest, bad = x :: rest → x.1 ≠ blockIdOf C.toEnv r'.cur x.2 ∧
        digestData C st (wire A) = (.refused x.1 x.2 (wire rest),
          { st with session := r'.session true .decryption, queue := st.queue ++ Ps })) := by
  intro A
  induction A with
  | nil =>
    intro r st hr hss _
    refine ⟨[], [], [], r, rfl, .nil r, ?_, nofun⟩
    intro _
    rw [digestData]
    simp [wire, ← hss]
  | cons x A ih =>
    intro r st hr hss hA
    have hx := hA x (by simp)
    obtain ⟨P, r1, h1⟩ := step_dec S hr hx.2
    have ht : (wire (x :: A)).take C.cfg.blockIdBytes = x.1 := by rw [wire_cons, List.take_left' hx.1]
    have hd : (wire (x :: A)).drop C.cfg.blockIdBytes = x.2 ++ wire A := by rw [wire_cons, List.drop_left' hx.1]
    have hne : x.1 ≠ [] := by
      intro h0
      have := hx.1
      rw [h0] at this
      have := hs.id_pos
      simp only [List.length_nil] at *
      omega
    have hunf : digestData C st (wire (x :: A)) = match C.accept st.session x.1 x.2 with
      | .error .invalidBlockID => (.refused x.1 x.2 (wire A), st)
      | .error e => (.raised e, st)
      | .ok (out, session) => digestData C { st with session, queue := st.queue ++ [out] } (wire A) := by
      rw [digestData]
      simp only [ht, hd, List.take_left' hx.2, List.drop_left' hx.2]
      rw [dif_neg hne]
      rfl
    rw [hss, accept_step hs h1 true hx.1] at hunf
    by_cases he : x.1 = blockIdOf C.toEnv r.cur x.2
    · rw [if_pos he] at hunf
      simp only at hunf
      obtain ⟨good, bad, Ps, r', g1, g2, g3, g4⟩ := ih r1 { st with session := r1.session true .decryption, queue := st.queue ++ [P] }
        h1.wf rfl (fun y hy => hA y (by simp [hy]))
      refine ⟨x :: good, bad, P :: Ps, r', by rw [g1]; rfl, ?_, ?_, ?_⟩
      · have := Path.cons h1 g2
        rwa [← he] at this
      · intro hb
        rw [hunf, g3 hb]
        simp
      · intro y rest hb
        refine ⟨(g4 y rest hb).1, ?_⟩
        rw [hunf, (g4 y rest hb).2]
        simp
    · rw [if_neg he] at hunf
      refine ⟨[], x :: A, [], r, rfl, .nil r, nofun, ?_⟩
      intro y rest hb
      simp only [List.cons.injEq] at hb
      obtain ⟨rfl, rfl⟩ := hb
      refine ⟨he, ?_⟩
      rw [hunf]
      simp [← hss]

/-- Genuine packets are all taken. -/
theorem digestData_path {S : Sound C} (hs : Streamable C.cfg) {r r' : Ratchet κ} {Ps : List Bytes} {A : List Packet}
    (h : Path S r Ps A r') (hr : r.WF C) {st : DecipherStream κ} (hss : st.session = r.session true .decryption) :
    digestData C st (wire A) = (.ok, { st with session := r'.session true .decryption, queue := st.queue ++ Ps }) := by
  obtain ⟨good, bad, Qs, r1, rfl, g2, g3, g4⟩ := digestData_spec S hs A r st hr hss h.sized
  cases bad with
  | nil =>
    rw [List.append_nil] at h ⊢
    obtain ⟨rfl, rfl⟩ := h.unique_dec g2
    simpa using g3 rfl
  | cons x rest =>
    exfalso
    obtain ⟨Ps1, Ps2, r2, _, h1, h2⟩ := h.split
    obtain ⟨_, rfl⟩ := h1.unique_dec g2
    cases h2 with
    | cons h3 _ => exact (g4 _ _ rfl).1 rfl

theorem trim_append : ∀ (q : List Bytes) (n : Nat) (r : List Bytes), trim n (q ++ r) = trim (trim n q).1 ((trim n q).2 ++ r) := by
  intro q
  induction q with
  | nil => intro n r; cases n <;> rfl
  | cons b q ih =>
    intro n r
    cases n with
    | zero => rfl
    | succ n =>
      simp only [List.cons_append, trim]
      by_cases h : b.drop (n + 1) = []
      · rw [if_pos h, if_pos h]; exact ih _ r
      · rw [if_neg h, if_neg h]
        have : n + 1 - (b.take (n + 1)).length = 0 := by
          have : n + 1 < b.length := by
            apply Classical.byContradiction
            intro hc
            exact h (List.drop_eq_nil_of_le (by omega))
          rw [List.length_take]; omega
        rw [this]
        rfl

theorem trim_trim (q : List Bytes) (n : Nat) : trim (trim n q).1 (trim n q).2 = trim n q := by
  have := trim_append q n []
  simpa using this.symm

theorem trim_flatten : ∀ (q : List Bytes) (n : Nat), (trim n q).2.flatten = q.flatten.drop n ∧ (trim n q).1 = n - q.flatten.length := by
  intro q
  induction q with
  | nil => intro n; cases n <;> simp [trim]
  | cons b q ih =>
    intro n
    cases n with
    | zero => simp [trim]
    | succ n =>
      simp only [trim]
      by_cases h : b.drop (n + 1) = []
      · have hle : b.length ≤ n + 1 := by simpa using h
        have ht : (b.take (n + 1)).length = b.length := by rw [List.length_take]; omega
        rw [if_pos h, ht]
        obtain ⟨h1, h2⟩ := ih (n + 1 - b.length)
        rw [h1, h2, List.flatten_cons, List.length_append, List.drop_append, h, List.nil_append]
        exact ⟨rfl, by omega⟩
      · have hlt : n + 1 < b.length := by
          apply Classical.byContradiction
          intro hc
          exact h (List.drop_eq_nil_of_le (by omega))
        rw [if_neg h]
        refine ⟨?_, ?_⟩
        · rw [List.flatten_cons, List.flatten_cons, List.drop_append_of_le_length (by omega)]
        · rw [List.length_take, List.flatten_cons, List.length_append]; omega

theorem trim_tail : ∀ (q : List Bytes) (n : Nat) (x : Bytes) (rest : List Bytes), (trim n q).2 = x :: rest → ∀ b ∈ rest, b ∈ q := by
  intro q
  induction q with
  | nil => intro n x rest h; cases n <;> simp [trim] at h
  | cons b q ih =>
    intro n x rest h
    cases n with
    | zero =>
      simp only [trim, List.cons.injEq] at h
      obtain ⟨rfl, rfl⟩ := h
      intro b' hb; simp [hb]
    | succ n =>
      simp only [trim] at h
      split at h
      · intro b' hb; exact List.mem_cons_of_mem _ (ih _ x rest h b' hb)
      · simp only [List.cons.injEq] at h
        obtain ⟨_, rfl⟩ := h
        intro b' hb; simp [hb]

theorem take_spec (keep : Nat) : ∀ (n : Nat) (q : List Bytes), ∃ j, take keep n q = (q.take j, q.drop j) ∧
    (q.take j ≠ [] → keep ≤ (q.drop j).length) ∧ (q.length ≤ n → (q.drop j).length ≤ keep) := by
  intro n
  induction n with
  | zero => intro q; exact ⟨0, by simp [take], by simp, by intro h; rw [List.drop_zero]; omega⟩
  | succ n ih =>
    intro q
    cases q with
    | nil => exact ⟨0, by simp [take], by simp, by simp⟩
    | cons b q =>
      by_cases h : (b :: q).length > keep
      · obtain ⟨j, h1, h2, h3⟩ := ih q
        refine ⟨j + 1, ?_, ?_, ?_⟩
        · simp only [take, if_pos h, h1, List.take_succ_cons, List.drop_succ_cons]
        · intro _
          rw [List.drop_succ_cons]
          by_cases hj : q.take j = []
          · have : q.drop j = q := by
              have := List.take_append_drop j q
              rwa [hj, List.nil_append] at this
            rw [this]
            simp only [List.length_cons] at h
            omega
          · exact h2 hj
        · intro hl
          rw [List.drop_succ_cons]
          exact h3 (by simp only [List.length_cons] at hl; omega)
      · exact ⟨0, by simp only [take, if_neg h, List.take_zero, List.drop_zero], by simp, by intro _; rw [List.drop_zero]; omega⟩

/-- An open stream that has taken the packets `G`, decrypted to `Ps`, and given out `outs`. -/
structure Inv (S : Sound C) (r0 : Ratchet κ) (ttl : Option Int) (Ps : List Bytes) (G : List Packet) (outs : List Bytes)
    (st : DecipherStream κ) : Prop where
  path : ∃ r, Path S r0 Ps G r ∧ st.session = r.session true .decryption
  trim1 : (trim st.bytesToTrim st.queue).1 = (trim C.cfg.innerHeaderBytes Ps).1
  trim2 : outs ++ (trim st.bytesToTrim st.queue).2 = (trim C.cfg.innerHeaderBytes Ps).2
  released : outs ≠ [] → st.bytesToTrim = 0 ∧ C.cfg.minStreamQueue ≤ st.queue.length
  opened : st.closed = false
  ttl : st.ttl = ttl
  fresh : st.isStreaming = false → outs = [] ∧ st.bytesToTrim = C.cfg.innerHeaderBytes ∧ st.queue = Ps

theorem Inv.add {S : Sound C} {r0 r1 r2 : Ratchet κ} {ttl : Option Int} {Ps Qs outs : List Bytes} {G A : List Packet}
    {st : DecipherStream κ} (h : Inv S r0 ttl Ps G outs st) (h1 : Path S r0 Ps G r1) (h2 : Path S r1 Qs A r2) :
    Inv S r0 ttl (Ps ++ Qs) (G ++ A) outs { st with session := r2.session true .decryption, queue := st.queue ++ Qs } := by
  refine ⟨⟨r2, h1.append h2, rfl⟩, ?_, ?_, ?_, h.opened, h.ttl, ?_⟩
  · simp only
    rw [trim_append st.queue, trim_append Ps, h.trim1]
    by_cases ho : outs = []
    · have := h.trim2
      rw [ho, List.nil_append] at this
      rw [this]
    · have hz := (h.released ho).1
      rw [← h.trim1, hz]
      simp [trim]
  · simp only
    rw [trim_append st.queue, trim_append Ps, h.trim1]
    by_cases ho : outs = []
    · have := h.trim2
      rw [ho, List.nil_append] at this
      rw [this, ho, List.nil_append]
    · have hz := (h.released ho).1
      rw [← h.trim2, ← h.trim1, hz]
      simp [trim]
  · intro ho
    have := h.released ho
    simp only [List.length_append]
    exact ⟨this.1, by omega⟩
  · intro hf
    have := h.fresh hf
    exact ⟨this.1, this.2.1, by simp [this.2.2]⟩

theorem Inv.buffer {S : Sound C} (hs : Streamable C.cfg) {r0 r1 r2 : Ratchet κ} (hr : r0.WF C) {ttl : Option Int}
    {Ps Qs outs : List Bytes} {G A : List Packet}
    {st : DecipherStream κ} (h : Inv S r0 ttl Ps G outs st) (h1 : Path S r0 Ps G r1) (h2 : Path S r1 Qs A r2) (hA : A ≠ []) :
    ∃ st', st.exec C (.buffer (wire A)) = (⟨[], none, none⟩, st') ∧ Inv S r0 ttl (Ps ++ Qs) (G ++ A) outs st' ∧
      st'.isStreaming = st.isStreaming := by
  refine ⟨_, ?_, h.add h1 h2, rfl⟩
  obtain ⟨r, hp, hss⟩ := h.path
  obtain ⟨_, rfl⟩ := hp.unique_dec h1
  have hl := length_wire (c := C.cfg) A h2.sized
  have hpos : 0 < C.cfg.packetsize * A.length := by
    refine Nat.mul_pos ?_ (List.length_pos_iff.2 hA)
    have := hs.id_pos
    simp only [Sizes.packetsize]; omega
  have hne : ¬(wire A = [] ∨ (wire A).length % C.cfg.packetsize ≠ 0) := by
    rintro (h0 | h0)
    · rw [h0] at hl; simp only [List.length_nil] at hl; omega
    · exact h0 (by rw [hl]; exact Nat.mul_mod_right _ _)
  simp only [exec, bufferData, if_neg hne, h.opened, Bool.false_eq_true, if_false, digestData_path hs h2 (hp.wf hr) hss]

theorem trim_done : ∀ (q : List Bytes) (n : Nat), (trim n q).1 = 0 ∨ (trim n q).2 = [] := by
  intro q
  induction q with
  | nil => intro n; cases n <;> simp [trim]
  | cons b q ih =>
    intro n
    cases n with
    | zero => simp [trim]
    | succ n =>
      simp only [trim]
      by_cases h : b.drop (n + 1) = []
      · rw [if_pos h]; exact ih _
      · rw [if_neg h]
        have hlt : n + 1 < b.length := by
          apply Classical.byContradiction
          intro hc
          exact h (List.drop_eq_nil_of_le (by omega))
        left
        rw [List.length_take]; omega

theorem Inv.release {S : Sound C} {r0 : Ratchet κ} {ttl : Option Int} {Ps outs : List Bytes} {G : List Packet}
    {st : DecipherStream κ} (h : Inv S r0 ttl Ps G outs st) (hst : st.isStreaming = true) (n : Nat) :
    ∃ new q, st.release C n = (new, { st with bytesToTrim := (trim st.bytesToTrim st.queue).1, queue := q }) ∧
      Inv S r0 ttl Ps G (outs ++ new) { st with bytesToTrim := (trim st.bytesToTrim st.queue).1, queue := q } ∧
      ((trim st.bytesToTrim st.queue).2.length ≤ n → q.length ≤ C.cfg.minStreamQueue) := by
  obtain ⟨j, h1, h2, h3⟩ := take_spec C.cfg.minStreamQueue n (trim st.bytesToTrim st.queue).2
  have hq : trim (trim st.bytesToTrim st.queue).1 ((trim st.bytesToTrim st.queue).2.drop j)
      = ((trim st.bytesToTrim st.queue).1, (trim st.bytesToTrim st.queue).2.drop j) := by
    rcases trim_done st.queue st.bytesToTrim with h0 | h0
    · rw [h0]; simp [trim]
    · rw [h0]; cases (trim st.bytesToTrim st.queue).1 <;> simp [trim]
  refine ⟨(trim st.bytesToTrim st.queue).2.take j, (trim st.bytesToTrim st.queue).2.drop j,
    by simp only [DecipherStream.release, h1], ⟨h.path, ?_, ?_, ?_, h.opened, h.ttl, ?_⟩, h3⟩
  · simp only [hq]; exact h.trim1
  · simp only [hq]
    rw [← h.trim2, List.append_assoc, List.take_append_drop]
  · intro ho
    simp only
    by_cases hn : (trim st.bytesToTrim st.queue).2.take j = []
    · rw [hn, List.append_nil] at ho
      have hz := (h.released ho).1
      have hd : (trim st.bytesToTrim st.queue).2.drop j = (trim st.bytesToTrim st.queue).2 := by
        have := List.take_append_drop j (trim st.bytesToTrim st.queue).2
        rwa [hn, List.nil_append] at this
      rw [hd, hz]
      simp only [trim, true_and]
      exact (h.released ho).2
    · refine ⟨?_, h2 hn⟩
      rcases trim_done st.queue st.bytesToTrim with h0 | h0
      · exact h0
      · rw [h0] at hn; simp at hn
  · intro hf
    simp only at hf
    rw [hst] at hf
    cases hf

/-- The timestamp test succeeds for the first block of the stream. -/
def InTime (c : Sizes) (ttl : Option Int) (now : Int) (Ps : List Bytes) : Prop :=
  ∀ b rest, Ps = b :: rest → Clock.testTimestamp now (c.timestampSlice.of b) ttl .big = .ok ()

theorem Inv.streaming {S : Sound C} {r0 : Ratchet κ} {ttl : Option Int} {Ps outs : List Bytes} {G : List Packet}
    {st : DecipherStream κ} (h : Inv S r0 ttl Ps G outs st) : Inv S r0 ttl Ps G outs { st with isStreaming := true } :=
  ⟨h.path, h.trim1, h.trim2, h.released, h.opened, h.ttl, nofun⟩

/-- Iterating a stream in time: plaintext is given out, or `IndexError` is raised if no packet was taken yet. -/
theorem Inv.pull {S : Sound C} {r0 : Ratchet κ} {ttl : Option Int} {Ps outs : List Bytes} {G : List Packet}
    {st : DecipherStream κ} (h : Inv S r0 ttl Ps G outs st) {now : Int} (ht : InTime C.cfg ttl now Ps) (n : Nat) :
    ∃ new e st', st.exec C (.pull now n) = (⟨new, e, none⟩, st') ∧ Inv S r0 ttl Ps G (outs ++ new) st' ∧
      (e = none ∨ (e = some .index ∧ Ps = [])) := by
  by_cases hn : n = 0
  · exact ⟨[], none, st, by simp [exec, DecipherStream.pull, hn], by simpa using h, .inl rfl⟩
  cases hst : st.isStreaming with
  | true =>
    obtain ⟨new, q, h1, h2, _⟩ := h.release hst n
    exact ⟨new, none, _, by simp only [exec, DecipherStream.pull, if_neg hn, hst, if_true, h1], h2, .inl rfl⟩
  | false =>
    obtain ⟨ho, hb, hq⟩ := h.fresh hst
    cases hP : Ps with
    | nil =>
      refine ⟨[], some .index, { st with isStreaming := true }, ?_, ?_, .inr ⟨rfl, rfl⟩⟩
      · simp [exec, DecipherStream.pull, if_neg hn, hst, testTimestamp, hq, hP]
      · have h2 := h.streaming
        rw [hP] at h2
        rwa [List.append_nil]
    | cons b rest =>
      have htt := ht b rest hP
      obtain ⟨new, q, h1, h2, _⟩ := h.streaming.release rfl n
      have httl := h.ttl
      refine ⟨new, none, _, ?_, by rw [← hP]; exact h2, .inl rfl⟩
      simp only [exec, DecipherStream.pull, if_neg hn, hst, testTimestamp, hq, hP, httl, htt, Bool.false_eq_true, if_false] at h1 ⊢
      rw [h1]

/-- Iterating an expired stream that was not iterated before: nothing happens. -/
theorem Inv.pull_expired {S : Sound C} {r0 : Ratchet κ} {ttl : Option Int} {Ps outs : List Bytes} {G : List Packet}
    {st : DecipherStream κ} (h : Inv S r0 ttl Ps G outs st) (hst : st.isStreaming = false) {now : Int} {e : Err}
    {b : Bytes} {rest : List Bytes} (hP : Ps = b :: rest)
    (ht : Clock.testTimestamp now (C.cfg.timestampSlice.of b) ttl .big = .error e) {n : Nat} (hn : n ≠ 0) :
    st.pull C now n = (([], some e), st) := by
  obtain ⟨ho, hb, hq⟩ := h.fresh hst
  have httl := h.ttl
  obtain ⟨ss, tt, is, qu, bt, cl⟩ := st
  simp only at hst hq httl
  subst hst hq httl hP
  simp [DecipherStream.pull, hn, testTimestamp, ht]

/-- Finalizing a complete stream in time gives out what is left of the plaintext. -/
theorem Inv.finalize {S : Sound C} (hF : 0 < C.cfg.paddingFrame) {r0 : Ratchet κ} {ttl : Option Int} {Ps outs : List Bytes} {G : List Packet}
    {st : DecipherStream κ} (h : Inv S r0 ttl Ps G outs st) {now : Int} (ht : InTime C.cfg ttl now Ps ∨ st.isStreaming = true)
    {start data extra endp : Bytes} (hstart : start.length = C.cfg.innerHeaderBytes)
    (hextra : extra.length = C.cfg.paddingFrame)
    (hend : C.cfg.endPadding extra data.length = .ok endp) (hPs : Ps.flatten = start ++ data ++ endp)
    (hroom : C.cfg.sentinelBytes ≤ C.cfg.padSize data.length) (hsb : C.cfg.sentinelBytes ≤ C.cfg.blocksize) :
    ∃ new st' r, st.exec C (.finalize now) = (⟨new, none, none⟩, st') ∧ (outs ++ new).flatten = data ∧
      Path S r0 Ps G r ∧ st'.session.shmac.getResult = .ok (Shmac.tagOf C.toEnv r.mac) := by
  obtain ⟨r, hp, hss⟩ := h.path
  have hpad := Sizes.length_endPadding hF hextra hend
  have hbounds := Sizes.padSize_bounds (c := C.cfg) hF data.length
  -- the state after the stream-hmac was finalized
  let fs : Session κ := ⟨{ (r.session true .decryption).shmac with
    finalized := true, result := some (Shmac.tagOf C.toEnv r.mac), mac := none, previous := none, current := none }, r.keys⟩
  have hfin : st.session.shmac.finalize C.toEnv = .ok (Shmac.tagOf C.toEnv r.mac, fs.shmac) := by
    rw [hss]; rfl
  have hfs : (⟨fs.shmac, st.session.keys⟩ : Session κ) = fs := by rw [hss]; rfl
  let N := st.queue.length + 1
  -- what iterating to the end does
  have hPne : Ps ≠ [] := by
    rintro rfl
    have := congrArg List.length hPs
    simp only [List.flatten_nil, List.length_nil, List.length_append, hpad] at this
    omega
  have hpull : ∃ new q, Inv S r0 ttl Ps G (outs ++ new) { st with isStreaming := true, bytesToTrim := (trim st.bytesToTrim st.queue).1, queue := q } ∧
      DecipherStream.pull C { st with closed := true, session := fs } now N
        = ((new, none), { st with isStreaming := true, bytesToTrim := (trim st.bytesToTrim st.queue).1, queue := q, closed := true, session := fs }) := by
    obtain ⟨new, q, h1, h2, _⟩ := h.streaming.release rfl N
    refine ⟨new, q, h2, ?_⟩
    have h1' : DecipherStream.release C { st with isStreaming := true, closed := true, session := fs } N
        = (new, { st with isStreaming := true, bytesToTrim := (trim st.bytesToTrim st.queue).1, queue := q, closed := true, session := fs }) := by
      simp only [DecipherStream.release, Prod.mk.injEq, DecipherStream.mk.injEq] at h1 ⊢
      simp [h1]
    have hN : N ≠ 0 := by simp [N]
    cases hst : st.isStreaming with
    | true =>
      simp only [DecipherStream.pull, if_neg hN, hst, if_true]
      rw [← hst] at h1'
      simp only [hst] at h1'
      rw [h1']
    | false =>
      obtain ⟨ho, hb, hq⟩ := h.fresh hst
      obtain ⟨b, rest, hP⟩ : ∃ b rest, Ps = b :: rest := by
        cases Ps with
        | nil => exact absurd rfl hPne
        | cons b rest => exact ⟨b, rest, rfl⟩
      have htt : Clock.testTimestamp now (C.cfg.timestampSlice.of b) ttl .big = .ok () := by
        rcases ht with ht | ht
        · exact ht b rest hP
        · rw [ht] at hst; cases hst
      have httl := h.ttl
      simp only [DecipherStream.pull, if_neg hN, testTimestamp, hq, hP, httl, htt, hst, Bool.false_eq_true, if_false] at h1' ⊢
      rw [h1']
  obtain ⟨new, q, hinv, hpl⟩ := hpull
  -- the rest of the queue
  have htr : outs ++ new ++ q = (trim C.cfg.innerHeaderBytes Ps).2 ∧ True := by
    have h2 := hinv.trim2
    simp only at h2
    refine ⟨?_, trivial⟩
    have h1 := hinv.trim1
    simp only at h1
    have hfl := (trim_flatten Ps C.cfg.innerHeaderBytes).2
    have hz : C.cfg.innerHeaderBytes - Ps.flatten.length = 0 := by
      rw [hPs]; simp only [List.length_append, hstart]; omega
    rw [hfl, hz] at h1
    have h3 : (trim st.bytesToTrim st.queue).1 = 0 := by
      have := h.trim1
      rw [hfl, hz] at this
      exact this
    rw [h3] at h2
    simpa [trim] using h2
  have htr := htr.1
  have hflat : (outs ++ new).flatten ++ q.flatten = data ++ endp := by
    rw [← List.flatten_append, htr, (trim_flatten Ps _).1, hPs, List.append_assoc, List.drop_left' hstart]
  have htail := trim_tail Ps C.cfg.innerHeaderBytes
  have hblocks := hp.blocks.1
  have hq : C.cfg.padSize data.length ≤ q.flatten.length ∧ ∃ pre last, q = pre ++ [last] ∧ C.cfg.sentinelBytes ≤ last.length := by
    by_cases ho : outs ++ new = []
    · rw [ho, List.nil_append] at htr
      rw [ho] at hflat
      simp only [List.flatten_nil, List.nil_append] at hflat
      have hlen : C.cfg.padSize data.length ≤ q.flatten.length := by
        rw [hflat, List.length_append, hpad]; omega
      refine ⟨hlen, ?_⟩
      have hqne : q ≠ [] := by
        rintro rfl
        simp only [List.flatten_nil, List.length_nil] at hlen
        omega
      refine ⟨q.dropLast, q.getLast hqne, (List.dropLast_concat_getLast hqne).symm, ?_⟩
      cases q with
      | nil => exact absurd rfl hqne
      | cons x rest =>
        cases rest with
        | nil =>
          simp only [List.getLast_singleton]
          simp only [List.flatten_cons, List.flatten_nil, List.append_nil] at hlen
          omega
        | cons y rest =>
          rw [List.getLast_cons (by simp)]
          rw [hblocks _ (htail x (y :: rest) htr.symm _ (List.getLast_mem _))]
          exact hsb
    · have hrel := hinv.released ho
      simp only at hrel
      have hmem : ∀ b ∈ q, b.length = C.cfg.blocksize := by
        intro b hb
        cases hon : outs ++ new with
        | nil => exact absurd hon ho
        | cons x rest =>
          rw [hon, List.cons_append] at htr
          exact hblocks b (htail x (rest ++ q) htr.symm b (by simp [hb]))
      have hqne : q ≠ [] := by
        rintro rfl
        have : 1 ≤ C.cfg.minStreamQueue := by simp [Sizes.minStreamQueue]
        simp only [List.length_nil] at hrel
        omega
      refine ⟨?_, q.dropLast, q.getLast hqne, (List.dropLast_concat_getLast hqne).symm, ?_⟩
      · rw [length_flatten_blocks q hmem]
        have : C.cfg.paddingFrame ≤ C.cfg.blocksize * q.length := Nat.mul_le_mul (Nat.le_refl _) hrel.2
        omega
      · rw [hmem _ (List.getLast_mem _)]; exact hsb
  obtain ⟨hlen, pre, last, hqe, hlast⟩ := hq
  have hidx : C.cfg.depaddingEndIndex last = -(C.cfg.padSize data.length : Int) := by
    have h1 := Sizes.depaddingEndIndex_eq hF hextra hroom hend (pre := data)
    have hqf : q.flatten = pre.flatten ++ last := by rw [hqe]; simp
    rw [← hflat, hqf, ← List.append_assoc] at h1
    rw [← h1]
    unfold Sizes.depaddingEndIndex Sizes.sentinelSlice
    have hspos : 0 < C.cfg.sentinelBytes := by
      unfold Sizes.sentinelBytes ceilDiv
      omega
    have hsuf : ∀ x : Bytes, (x ++ last).drop ((x ++ last).length - C.cfg.sentinelBytes)
        = last.drop (last.length - C.cfg.sentinelBytes) := by
      intro x
      have h0 : x.drop (x.length + last.length - C.cfg.sentinelBytes) = [] := List.drop_eq_nil_of_le (by omega)
      rw [List.length_append, List.drop_append, h0, List.nil_append]
      congr 1
      omega
    rw [slice_neg_none _ _ hspos, slice_neg_none _ _ hspos, hsuf]
  refine ⟨new ++ Text.batch C.cfg.blocksize (q.flatten.take (q.flatten.length - C.cfg.padSize data.length)),
    { st with isStreaming := true, bytesToTrim := (trim st.bytesToTrim st.queue).1, queue := q, closed := true, session := fs },
    r, ?_, ?_, hp, rfl⟩
  · simp only [exec, DecipherStream.finalize, h.opened, Bool.false_eq_true, if_false, hfin, hfs]
    rw [show DecipherStream.pull C _ now (st.queue.length + 1) = _ from hpl]
    have hgl : q.getLast? = some last := by rw [hqe]; simp
    simp only [hgl, hidx]
    rw [slice_none_neg _ _ hbounds.1]
  · rw [← List.append_assoc, List.flatten_append, Text.batch_flatten _ S.block_pos]
    have h1 : data = (data ++ endp).take ((data ++ endp).length - C.cfg.padSize data.length) := by
      rw [List.length_append, hpad, Nat.add_sub_cancel, List.take_left' rfl]
    conv => rhs; rw [h1, ← hflat]
    have h2 : ((outs ++ new).flatten).take (((outs ++ new).flatten).length + q.flatten.length - C.cfg.padSize data.length)
        = (outs ++ new).flatten := List.take_of_length_le (by omega)
    rw [List.length_append, List.take_append, h2]
    congr 2
    omega

end DecipherStream

end Aiootp.Cipher
