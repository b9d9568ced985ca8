import Verif.Lemmas.OracleMean
import Verif.Lemmas.SecrecyModel
import Verif.Lemmas.Stream
import Verif.Spec.StreamSecrecy

/-
Streams as computations that ask a hash function: what they show on average, and the chance that a question is asked twice. A digest is asked for when the next block is made or the stream is
finalized.
-/

namespace Aiootp.Secrecy

open Oracle Cipher Cipher.Cipher Perm

variable {K : Nat} {κ : Type}

theorem tree_bind_assoc {Q A α β γ : Type} (f : α → Tree Q A β) (g : β → Tree Q A γ) : ∀ t : Tree Q A α, (t.bind f).bind g = t.bind fun x => (f x).bind g
  | .done _ => rfl
  | .ask q next => by
    simp only [Tree.bind]
    congr 1
    funext a
    exact tree_bind_assoc f g (next a)

theorem tree_map_bind {Q A α β γ : Type} (f : α → β) (g : β → Tree Q A γ) (t : Tree Q A α) : (t.map f).bind g = t.bind fun x => g (f x) := tree_bind_assoc _ _ t

/-- A stream, as far as the answers are known. -/
structure Lazy (κ : Type) where
  r : Request
  j : Nat
  mac : Bytes
  prev : Bytes
  perm : Chain
  keys : κ
  buffer : List Bytes
  byteCount : Nat
  tag : Option Bytes

/-- How a cipher enciphers. -/
structure Plan (K : Nat) (κ : Type) where
  c : Sizes
  i : Nat
  permOf : Bytes → Chain
  step : Step K κ
  mac0 : Request → Bytes
  keys0 : Request → κ
  inv : Request → Nat → Bytes → κ → Prop
  past : Request → Nat → Set Bytes
  mid : Request → Nat → Set Bytes
  idq : Bytes → Bytes → Bytes

/-- What is needed of it. -/
structure Plan.OK (A : Plan K κ) : Prop where
  accepted : Accepted A.c
  machine : ∀ {r}, r.Valid A.c → Machine A.c A.i A.permOf A.step (A.inv r) (A.past r) (A.mid r)
  start : ∀ {r}, r.Valid A.c → A.inv r 0 (A.mac0 r) (A.keys0 r) ∧ A.mac0 r ∈ A.past r 0
  apart : ∀ {r r'}, r.Valid A.c → r'.Valid A.c → r.key.length = r'.key.length → r.nonce ≠ r'.nonce → ∀ j j' q, q ∈ A.past r j → q ∉ A.past r' j'
  id_inj : ∀ {d d' X X'}, d.length = A.c.shmacBlocksize → d'.length = A.c.shmacBlocksize → A.idq d X = A.idq d' X' → d = d'
  id_apart : ∀ {r}, r.Valid A.c → ∀ j d X, A.idq d X ∉ A.past r j

section
variable (A : Plan K κ)

def blockT (L : Lazy κ) (b : Bytes) : HashTree K (Bytes × Lazy κ) :=
  .ask L.mac fun a =>
    (A.step L.mac (if L.j = 0 then a.1.take A.c.shmacBlocksize else L.prev) (a.1.take A.c.shmacBlocksize) (if L.j = 0 then A.permOf a.1 else L.perm) L.keys b).map fun r =>
      (r.1, { L with j := L.j + 1, mac := r.2.1, prev := a.1.take A.c.shmacBlocksize, perm := if L.j = 0 then A.permOf a.1 else L.perm, keys := r.2.2 })

def emitT (L : Lazy κ) (b : Bytes) : HashTree K (Packet × Lazy κ) :=
  (blockT A L b).bind fun x => .ask (A.idq x.2.prev x.1) fun e => .done ((e.1.take A.c.blockIdBytes, x.1), x.2)

def emitsT : List Bytes → Lazy κ → HashTree K (List Packet × Lazy κ)
  | [], L => .done ([], L)
  | b :: bs, L => (emitT A L b).bind fun x => (emitsT bs x.2).map fun y => (x.1 :: y.1, y.2)

/-- The blocks that are left to encrypt when a stream is finalized. -/
def finalBlocks (c : Sizes) (L : Lazy κ) : List Bytes :=
  match c.endPadding L.r.draws.extra L.byteCount, L.buffer.getLast? with
  | .ok e, some last => L.buffer.dropLast ++ Text.batch c.blocksize (last ++ e)
  | _, _ => []

/-- How many blocks are encrypted if a stream is iterated `n` times. -/
def pulled (c : Sizes) (L : Lazy κ) (n : Nat) : Nat := min n (L.buffer.length - c.minStreamQueue)

def execT (L : Lazy κ) : StreamCall → HashTree K ((List Packet × Option Err) × Lazy κ)
  | .buffer data =>
    if L.tag.isSome then .done (([], some .streamClosed), L)
    else .done (([], none), { L with byteCount := L.byteCount + data.length, buffer := CipherStream.digestData A.c.blocksize L.buffer data })
  | .pull n => (emitsT A (L.buffer.take (pulled A.c L n)) { L with buffer := L.buffer.drop (pulled A.c L n) }).map fun x => ((x.1, none), x.2)
  | .finalize =>
    if L.tag.isSome then .done (([], some .streamClosed), L)
    else (emitsT A (finalBlocks A.c L) { L with buffer := [] }).bind fun x => .ask x.2.mac fun a => .done ((x.1, none), { x.2 with tag := some (tagFrom A.c a.1) })

def freshL (r : Request) : Lazy κ :=
  ⟨r, 0, A.mac0 r, [], default, A.keys0 r, [beDigits A.c.timestampBytes r.draws.reading.toNat ++ r.draws.sivKey], 0, none⟩

def actT (ws : List (Lazy κ)) : Act → HashTree K (Shown × List (Lazy κ))
  | .start key draws salt aad =>
    .done (.started (⟨key, draws, salt, aad, []⟩ : Request).usedSalt draws.iv, ws ++ [freshL A ⟨key, draws, salt, aad, []⟩])
  | .call k act =>
    match ws[k]? with
    | none => .done (.refused .index, ws)
    | some L => (execT A L act).map fun x => (.made x.1.1 x.1.2 x.2.tag, ws.set k x.2)

def gameT (ask : Streamer) : Nat → List (Lazy κ) → List Shown → HashTree K (List Shown)
  | 0, _, seen => .done seen
  | n + 1, ws, seen => (actT A ws (ask seen)).bind fun x => gameT ask n x.2 (seen ++ [x.1])

/-! ### what is known of a stream -/

structure Core (L : Lazy κ) : Prop where
  valid : L.r.Valid A.c
  inv : A.inv L.r L.j L.mac L.keys
  mem : L.mac ∈ A.past L.r L.j
  new : ∀ j, j + 1 = L.j → L.mac ∉ A.mid L.r j
  perm : L.j ≠ 0 → L.perm.WF ∧ L.perm.size = A.i ∧ L.prev.length = A.c.shmacBlocksize

/-- What does not change when `k` packets are made. -/
structure Kept (L : Lazy κ) (k : Nat) (L' : Lazy κ) : Prop where
  r : L'.r = L.r
  j : L'.j = L.j + k
  buffer : L'.buffer = L.buffer
  byteCount : L'.byteCount = L.byteCount
  tag : L'.tag = L.tag

theorem Kept.refl (L : Lazy κ) : Kept L 0 L := ⟨rfl, rfl, rfl, rfl, rfl⟩

theorem Kept.trans {L L1 L2 : Lazy κ} {k l : Nat} (h : Kept L k L1) (h' : Kept L1 l L2) : Kept L (k + l) L2 :=
  ⟨h'.r.trans h.r, by rw [h'.j, h.j]; omega, h'.buffer.trans h.buffer, h'.byteCount.trans h.byteCount, h'.tag.trans h.tag⟩

/-- A stream between calls. -/
structure Fine (L : Lazy κ) : Prop where
  core : Core A L
  closed : L.tag ≠ none → L.buffer = []
  opened : L.tag = none → ∃ init last, L.buffer = init ++ [last] ∧ (∀ b ∈ init, b.length = A.c.blocksize) ∧
    L.j * A.c.blocksize + (init.flatten ++ last).length = A.c.innerHeaderBytes + L.byteCount

end

section
variable {A : Plan K κ} (H : A.OK)
include H

theorem take_length (a : Digest K) {r : Request} (hv : r.Valid A.c) : (a.1.take A.c.shmacBlocksize).length = A.c.shmacBlocksize := (H.machine hv).length_last a

/-- What the permutation and the last digest are at a block. -/
theorem Core.used {L : Lazy κ} (h : Core A L) (a : Digest K) :
    (if L.j = 0 then A.permOf a.1 else L.perm).WF ∧ (if L.j = 0 then A.permOf a.1 else L.perm).size = A.i ∧
      (if L.j = 0 then a.1.take A.c.shmacBlocksize else L.prev).length = A.c.shmacBlocksize := by
  by_cases hj : L.j = 0
  · simp only [if_pos hj]
    exact ⟨((H.machine h.valid).perm a).1, ((H.machine h.valid).perm a).2, take_length H a h.valid⟩
  · simp only [if_neg hj]
    exact h.perm hj

theorem block_out {L : Lazy κ} (h : Core A L) {b : Bytes} (hb : b.length = A.c.blocksize) :
    (blockT A L b).AllOut fun x => (Core A x.2 ∧ Kept L 1 x.2) ∧ x.1.length = A.c.blocksize := by
  intro a
  have M := H.machine h.valid
  obtain ⟨u1, u2, u3⟩ := h.used H a
  refine (M.out h.inv u1 u2 u3 (take_length H a h.valid) hb).bind ?_
  rintro ⟨x, m', k'⟩ ⟨h1, h2, h3, h4⟩
  refine ⟨⟨⟨h.valid, h2, h4, fun j hj => ?_, fun _ => ⟨u1, u2, take_length H a h.valid⟩⟩, ⟨rfl, rfl, rfl, rfl, rfl⟩⟩, h1⟩
  have : j = L.j := by simpa using hj
  subst this
  exact h3

theorem block_chance {L : Lazy κ} (h : Core A L) {b : Bytes} (hb : b.length = A.c.blocksize) (o : Bytes) (ho : o.length = A.c.blocksize) :
    ((blockT A L b).map Prod.fst).chance o = 1 / 256 ^ A.c.blocksize := by
  have M := H.machine h.valid
  have e : (blockT A L b).map Prod.fst = .ask L.mac fun a =>
      (A.step L.mac (if L.j = 0 then a.1.take A.c.shmacBlocksize else L.prev) (a.1.take A.c.shmacBlocksize) (if L.j = 0 then A.permOf a.1 else L.perm) L.keys b).map Prod.fst := by
    exact congrArg (Tree.ask L.mac) (funext fun a => tree_bind_assoc _ _ _)
  rw [e]
  by_cases hj : L.j = 0
  · simp only [if_pos hj]
    have hi := h.inv
    rw [hj] at hi
    exact M.first hi hb ho
  · simp only [if_neg hj]
    obtain ⟨j, e'⟩ := Nat.exists_eq_succ_of_ne_zero hj
    have hi := h.inv
    rw [e'] at hi
    obtain ⟨p1, p2, p3⟩ := h.perm hj
    exact M.later hi p1 p2 p3 hb ho

/-! ### alike streams show the same -/

theorem emit_same {L L' : Lazy κ} (h : Core A L) (h' : Core A L') {b b' : Bytes} (hb : b.length = A.c.blocksize) (hb' : b'.length = A.c.blocksize) :
    Tree.Same (fun x x' => x.1 = x'.1 ∧ (Core A x.2 ∧ Kept L 1 x.2) ∧ (Core A x'.2 ∧ Kept L' 1 x'.2)) (emitT A L b) (emitT A L' b') := by
  refine (Tree.Same.uniform (g := Prod.fst) (g' := Prod.fst) (L := fun o => o.length = A.c.blocksize) (r := 1 / 256 ^ A.c.blocksize) (by positivity) (block_out H h hb) (block_out H h' hb')
    (block_chance H h hb) (block_chance H h' hb')).bind ?_
  rintro ⟨x, L1⟩ ⟨x', L1'⟩ ⟨h1, h2, e⟩
  have e' : x = x' := e
  subst e'
  exact Tree.Same.ask fun a => Tree.Same.done ⟨rfl, h1, h2⟩

theorem emits_same : ∀ (bs bs' : List Bytes) {L L' : Lazy κ}, Core A L → Core A L' → bs.length = bs'.length → (∀ b ∈ bs, b.length = A.c.blocksize) → (∀ b ∈ bs', b.length = A.c.blocksize) →
    Tree.Same (fun x x' => x.1 = x'.1 ∧ (Core A x.2 ∧ Kept L bs.length x.2) ∧ (Core A x'.2 ∧ Kept L' bs.length x'.2)) (emitsT A bs L) (emitsT A bs' L')
  | [], [], L, L', h, h', _, _, _ => Tree.Same.done ⟨rfl, ⟨h, .refl L⟩, ⟨h', .refl L'⟩⟩
  | [], _ :: _, _, _, _, _, hl, _, _ => by simp at hl
  | _ :: _, [], _, _, _, _, hl, _, _ => by simp at hl
  | b :: bs, b' :: bs', L, L', h, h', hl, hb, hb' => by
    refine (emit_same H h h' (hb b (by simp)) (hb' b' (by simp))).bind ?_
    rintro ⟨x, L1⟩ ⟨x', L1'⟩ ⟨e, ⟨h1, h2⟩, h3, h4⟩
    simp only at e
    subst e
    refine (emits_same bs bs' h1 h3 (by simpa using hl) (fun y hy => hb y (by simp [hy])) (fun y hy => hb' y (by simp [hy]))).bind ?_
    rintro ⟨y, L2⟩ ⟨y', L2'⟩ ⟨e, ⟨g1, g2⟩, g3, g4⟩
    simp only at e
    subst e
    refine Tree.Same.done ⟨rfl, ⟨g1, ?_⟩, g3, ?_⟩
    · have := h2.trans g2
      rw [Nat.add_comm] at this
      exact this
    · have := h4.trans g4
      rw [Nat.add_comm] at this
      exact this

end

/-! ### the blocks of a stream -/

theorem buffer_length {c : Sizes} {init init' : List Bytes} {last last' : Bytes} (h : ∀ b ∈ init, b.length = c.blocksize) (h' : ∀ b ∈ init', b.length = c.blocksize)
    (hl : init.length = init'.length) (ht : (init.flatten ++ last).length = (init'.flatten ++ last').length) : last.length = last'.length := by
  rw [List.length_append, List.length_append, length_flatten_blocks _ h, length_flatten_blocks _ h', hl] at ht
  omega

section
variable {A : Plan K κ} (H : A.OK)
include H

theorem final_spec {L : Lazy κ} (h : Fine A L) (ht : L.tag = none) : (∀ b ∈ finalBlocks A.c L, b.length = A.c.blocksize) ∧ finalBlocks A.c L ≠ [] ∧
    (L.j + (finalBlocks A.c L).length) * A.c.blocksize = A.c.innerHeaderBytes + L.byteCount + A.c.padSize L.byteCount ∧
    ∃ e last, A.c.endPadding L.r.draws.extra L.byteCount = .ok e ∧ L.buffer.getLast? = some last ∧ finalBlocks A.c L = L.buffer.dropLast ++ Text.batch A.c.blocksize (last ++ e) := by
  obtain ⟨init, last, e1, e2, e3⟩ := h.opened ht
  have hF := H.accepted.frame_pos
  have hB := H.accepted.blocksize_pos
  obtain ⟨e, he⟩ : ∃ e, A.c.endPadding L.r.draws.extra L.byteCount = .ok e := ⟨_, Sizes.endPadding_eq hF _ _⟩
  have hlen := Sizes.length_endPadding hF h.core.valid.draws.extra he
  obtain ⟨p1, p2, p3⟩ := Sizes.padSize_bounds (c := A.c) hF L.byteCount
  have hgl : L.buffer.getLast? = some last := by rw [e1]; simp
  have hdl : L.buffer.dropLast = init := by rw [e1]; simp
  have hfin : finalBlocks A.c L = init ++ Text.batch A.c.blocksize (last ++ e) := by
    unfold finalBlocks
    rw [he, hgl, hdl]
  rw [List.length_append, length_flatten_blocks _ e2] at e3
  obtain ⟨f, hf⟩ : A.c.blocksize ∣ A.c.innerHeaderBytes + L.byteCount + A.c.padSize L.byteCount := Nat.dvd_trans ⟨_, rfl⟩ (Nat.dvd_of_mod_eq_zero p3)
  have hdvd : A.c.blocksize ∣ (last ++ e).length := by
    rw [List.length_append, hlen]
    have e4 : A.c.innerHeaderBytes + L.byteCount + A.c.padSize L.byteCount = A.c.blocksize * (L.j + init.length) + (last.length + A.c.padSize L.byteCount) := by
      rw [Nat.mul_add, Nat.mul_comm A.c.blocksize L.j]; omega
    exact (Nat.dvd_add_right (Nat.dvd_mul_right _ _)).1 (e4 ▸ Dvd.intro f hf.symm)
  have hb := batch_blocks_of_dvd hB hdvd
  have hfl := length_flatten_blocks _ hb
  rw [Text.batch_flatten _ hB, List.length_append, hlen] at hfl
  refine ⟨?_, ?_, ?_, e, last, he, hgl, by rw [hfin, hdl]⟩
  · rw [hfin]
    intro b hb'
    rcases List.mem_append.1 hb' with hb' | hb'
    · exact e2 b hb'
    · exact hb b hb'
  · rw [hfin, Text.batch_cons (by intro h0; have := congrArg List.length h0; rw [List.length_append, hlen] at this; simp at this; omega) hB]
    simp
  · rw [hfin, List.length_append, ← Nat.add_assoc, Nat.add_mul, Nat.add_mul, Nat.mul_comm init.length, Nat.mul_comm (Text.batch A.c.blocksize (last ++ e)).length, ← hfl]
    omega

theorem pulled_spec {L : Lazy κ} (h : Fine A L) (n : Nat) : (∀ b ∈ L.buffer.take (pulled A.c L n), b.length = A.c.blocksize) ∧ (L.buffer.take (pulled A.c L n)).length = pulled A.c L n ∧
    (L.tag ≠ none → pulled A.c L n = 0) := by
  have hm : 1 ≤ A.c.minStreamQueue := by simp [Sizes.minStreamQueue]
  have hle : pulled A.c L n ≤ L.buffer.length - A.c.minStreamQueue := Nat.min_le_right _ _
  refine ⟨?_, by rw [List.length_take]; omega, fun ht => ?_⟩
  · by_cases ht : L.tag = none
    · obtain ⟨init, last, e1, e2, _⟩ := h.opened ht
      intro b hb
      rw [e1] at hb hle
      rw [List.length_append, List.length_singleton] at hle
      rw [List.take_append_of_le_length (by omega)] at hb
      exact e2 b (List.mem_of_mem_take hb)
    · intro b hb
      rw [h.closed ht] at hb
      simp at hb
  · rw [h.closed ht] at hle
    simpa using hle

/-- The stream after some of its blocks were encrypted. -/
theorem Fine.pull {L L1 : Lazy κ} (h : Fine A L) {n : Nat} (hc : Core A L1) (hk : Kept { L with buffer := L.buffer.drop (pulled A.c L n) } (pulled A.c L n) L1) : Fine A L1 := by
  have hm : 1 ≤ A.c.minStreamQueue := by simp [Sizes.minStreamQueue]
  have hle : pulled A.c L n ≤ L.buffer.length - A.c.minStreamQueue := Nat.min_le_right _ _
  refine ⟨hc, fun ht => ?_, fun ht => ?_⟩
  · rw [hk.tag] at ht
    rw [hk.buffer, h.closed ht]
    simp
  · rw [hk.tag] at ht
    obtain ⟨init, last, e1, e2, e3⟩ := h.opened ht
    have hle' : pulled A.c L n ≤ init.length := by
      rw [e1, List.length_append, List.length_singleton] at hle
      omega
    refine ⟨init.drop (pulled A.c L n), last, ?_, fun b hb => e2 b (List.mem_of_mem_drop hb), ?_⟩
    · rw [hk.buffer]
      simp only
      rw [e1, List.drop_append_of_le_length hle']
    · rw [hk.j, hk.byteCount]
      simp only
      rw [List.length_append, length_flatten_blocks _ fun b hb => e2 b (List.mem_of_mem_drop hb), List.length_drop, ← e3, List.length_append, length_flatten_blocks _ e2, Nat.add_mul,
        Nat.mul_sub, Nat.mul_comm (pulled A.c L n)]
      have := Nat.mul_le_mul_left A.c.blocksize hle'
      omega

theorem Fine.buffered {L : Lazy κ} (h : Fine A L) (ht : L.tag = none) (data : Bytes) :
    Fine A { L with byteCount := L.byteCount + data.length, buffer := CipherStream.digestData A.c.blocksize L.buffer data } := by
  obtain ⟨init, last, e1, e2, e3⟩ := h.opened ht
  obtain ⟨init', last', f1, f2, f3⟩ := CipherStream.digestData_spec H.accepted.blocksize_pos e2 data (last := last)
  refine ⟨⟨h.core.valid, h.core.inv, h.core.mem, h.core.new, h.core.perm⟩, fun h0 => absurd ht h0, fun _ => ⟨init', last', ?_, f2, ?_⟩⟩
  · simp only
    rw [e1, f1]
  · simp only
    rw [f3, List.length_append]
    omega

theorem Fine.finalized {L L1 : Lazy κ} (hc : Core A L1) {k : Nat} (hk : Kept { L with buffer := [] } k L1) (t : Bytes) : Fine A { L1 with tag := some t } :=
  ⟨⟨hc.valid, hc.inv, hc.mem, hc.new, hc.perm⟩, fun _ => hk.buffer, fun h => by cases h⟩

theorem Fine.fresh {r : Request} (hv : r.Valid A.c) : Fine A (freshL A r) := by
  obtain ⟨h1, h2⟩ := H.start hv
  refine ⟨⟨hv, h1, h2, fun j hj => absurd hj (Nat.succ_ne_zero j), fun h => absurd rfl h⟩, fun h => absurd rfl h, fun _ => ⟨[], _, rfl, by simp, ?_⟩⟩
  simp only [freshL, Nat.zero_mul, List.flatten_nil, List.nil_append, List.length_append, length_beDigits, hv.draws.sivKey, Nat.add_zero, Nat.zero_add]
  rfl

/-- Two streams that look the same. -/
structure Twins (A : Plan K κ) (L L' : Lazy κ) : Prop where
  left : Fine A L
  right : Fine A L'
  j : L.j = L'.j
  byteCount : L.byteCount = L'.byteCount
  buffer : L.buffer.length = L'.buffer.length
  tag : L.tag = L'.tag

theorem digestData_length {n : Nat} (hn : 0 < n) {init init' : List Bytes} {last last' data data' : Bytes} (h : ∀ b ∈ init, b.length = n) (h' : ∀ b ∈ init', b.length = n)
    (hl : init.length = init'.length) (hlast : last.length = last'.length) (hd : data.length = data'.length) :
    (CipherStream.digestData n (init ++ [last]) data).length = (CipherStream.digestData n (init' ++ [last']) data').length := by
  have hr : ∀ (k : Nat) (x y : Bytes), x.length ≤ k → x.length = y.length → (CipherStream.readBlocks n x).length = (CipherStream.readBlocks n y).length := by
    intro k
    induction k with
    | zero =>
      intro x y hx hxy
      have e : x = y := by
        rw [List.length_eq_zero_iff.1 (Nat.le_zero.1 hx), List.length_eq_zero_iff.1 (show y.length = 0 by omega)]
      rw [e]
    | succ k ih =>
      intro x y hx hxy
      rw [CipherStream.readBlocks.eq_1 n x, CipherStream.readBlocks.eq_1 n y]
      by_cases hs : x.length < n
      · rw [dif_pos (.inr hs), dif_pos (.inr (by omega))]
        rfl
      · rw [dif_neg (by omega), dif_neg (by omega), List.length_cons, List.length_cons, ih (x.drop n) (y.drop n) (by rw [List.length_drop]; omega) (by rw [List.length_drop, List.length_drop, hxy])]
  unfold CipherStream.digestData
  simp only [List.getLast?_append, List.getLast?_singleton, Option.some_or, List.dropLast_concat, hlast]
  by_cases h1 : last'.length = n
  · rw [if_pos h1, if_pos h1]
    simp only [List.length_append, hl, hr _ _ _ (Nat.le_refl _) hd, List.length_singleton]
  · rw [if_neg h1, if_neg h1]
    by_cases h2 : last'.length > n
    · rw [if_pos h2, if_pos h2]
      simp only [List.length_append, hl, List.length_singleton]
    · rw [if_neg h2, if_neg h2]
      have ht : (data.take (n - last'.length)).length = (data'.take (n - last'.length)).length := by rw [List.length_take, List.length_take, hd]
      simp only [ht]
      split
      · simp only [List.length_append, hl, List.length_singleton]
      · simp only [List.length_append, hl, List.length_singleton]
        rw [hr _ _ _ (Nat.le_refl _) (show (data.drop (n - last'.length)).length = (data'.drop (n - last'.length)).length by rw [List.length_drop, List.length_drop, hd])]

/-- What calls are alike. -/
def callsAlike : StreamCall → StreamCall → Prop
  | .buffer data, .buffer data' => data.length = data'.length
  | act, act' => act = act'

theorem execT_same {L L' : Lazy κ} (h : Twins A L L') : ∀ {act act' : StreamCall}, callsAlike act act' →
    Tree.Same (fun x x' => x.1 = x'.1 ∧ Twins A x.2 x'.2 ∧ x.2.r = L.r ∧ x'.2.r = L'.r) (execT A L act) (execT A L' act') := by
  intro act act' ha
  have hB := H.accepted.blocksize_pos
  have twins : ∀ {L1 L1' : Lazy κ} {k : Nat} {b b' : List Bytes}, Fine A L1 → Fine A L1' → b.length = b'.length → Kept { L with buffer := b } k L1 → Kept { L' with buffer := b' } k L1' →
      Twins A L1 L1' := by
    intro L1 L1' k b b' f f' hb hk hk'
    refine ⟨f, f', by rw [hk.j, hk'.j]; simp only [h.j], by rw [hk.byteCount, hk'.byteCount]; exact h.byteCount, by rw [hk.buffer, hk'.buffer]; exact hb, by rw [hk.tag, hk'.tag]; exact h.tag⟩
  cases act with
  | buffer data =>
    cases act' with
    | pull _ => cases ha
    | finalize => cases ha
    | buffer data' =>
      have hd : data.length = data'.length := ha
      simp only [execT]
      by_cases ht : L.tag = none
      · have ht' : L'.tag = none := h.tag ▸ ht
        have hn : ¬ L.tag.isSome = true := by rw [ht]; simp
        have hn' : ¬ L'.tag.isSome = true := by rw [ht']; simp
        rw [if_neg hn, if_neg hn']
        refine Tree.Same.done ⟨rfl, ⟨h.left.buffered H ht data, h.right.buffered H ht' data', h.j, ?_, ?_, h.tag⟩, rfl, rfl⟩
        · simp only [h.byteCount, hd]
        · obtain ⟨init, last, e1, e2, e3⟩ := h.left.opened ht
          obtain ⟨init', last', f1, f2, f3⟩ := h.right.opened ht'
          have hl := h.buffer
          rw [e1, f1, List.length_append, List.length_append] at hl
          have hl' : init.length = init'.length := by simpa using hl
          have hlast := buffer_length e2 f2 hl' (last := last) (last' := last') (by
            rw [h.j, h.byteCount] at e3
            omega)
          simp only
          rw [e1, f1]
          exact digestData_length H hB e2 f2 hl' hlast hd
      · have hs : L.tag.isSome = true := by
          cases h' : L.tag
          · exact absurd h' ht
          · rfl
        rw [if_pos hs, if_pos (h.tag ▸ hs)]
        exact Tree.Same.done ⟨rfl, h, rfl, rfl⟩
  | pull n =>
    cases act' with
    | buffer _ => cases ha
    | finalize => cases ha
    | pull n' =>
      have : n = n' := by
        have : StreamCall.pull n = .pull n' := ha
        cases this; rfl
      subst this
      obtain ⟨a1, a2, _⟩ := pulled_spec H h.left n
      obtain ⟨b1, b2, _⟩ := pulled_spec H h.right n
      have hp : pulled A.c L n = pulled A.c L' n := by unfold pulled; rw [h.buffer]
      simp only [execT]
      refine (emits_same H _ _ (L := { L with buffer := L.buffer.drop (pulled A.c L n) }) (L' := { L' with buffer := L'.buffer.drop (pulled A.c L' n) })
        ⟨h.left.core.valid, h.left.core.inv, h.left.core.mem, h.left.core.new, h.left.core.perm⟩ ⟨h.right.core.valid, h.right.core.inv, h.right.core.mem, h.right.core.new, h.right.core.perm⟩
        (by rw [a2, b2, hp]) a1 b1).bind ?_
      rintro ⟨x, L1⟩ ⟨x', L1'⟩ ⟨e, ⟨g1, g2⟩, g3, g4⟩
      simp only at e
      subst e
      rw [a2] at g2 g4
      have g4' := g4
      rw [hp] at g4'
      exact Tree.Same.done ⟨rfl, twins (h.left.pull H g1 g2) (h.right.pull H g3 g4') (by rw [List.length_drop, List.length_drop, h.buffer, hp]) g2 g4, g2.r, g4.r⟩
  | finalize =>
    cases act' with
    | buffer _ => cases ha
    | pull _ => cases ha
    | finalize =>
      simp only [execT]
      by_cases ht : L.tag = none
      · have ht' : L'.tag = none := h.tag ▸ ht
        have hn : ¬ L.tag.isSome = true := by rw [ht]; simp
        have hn' : ¬ L'.tag.isSome = true := by rw [ht']; simp
        rw [if_neg hn, if_neg hn']
        obtain ⟨a1, _, a2, _⟩ := final_spec H h.left ht
        obtain ⟨b1, _, b2, _⟩ := final_spec H h.right ht'
        have hl : (finalBlocks A.c L).length = (finalBlocks A.c L').length := by
          rw [← h.byteCount, ← a2, ← h.j] at b2
          have := Nat.eq_of_mul_eq_mul_right hB b2
          omega
        refine (emits_same H _ _ (L := { L with buffer := [] }) (L' := { L' with buffer := [] })
          ⟨h.left.core.valid, h.left.core.inv, h.left.core.mem, h.left.core.new, h.left.core.perm⟩ ⟨h.right.core.valid, h.right.core.inv, h.right.core.mem, h.right.core.new, h.right.core.perm⟩
          hl a1 b1).bind ?_
        rintro ⟨x, L1⟩ ⟨x', L1'⟩ ⟨e, ⟨g1, g2⟩, g3, g4⟩
        simp only at e
        subst e
        refine Tree.Same.ask fun a => Tree.Same.done ⟨rfl, ⟨Fine.finalized H g1 g2 _, Fine.finalized H g3 g4 _, ?_, ?_, ?_, rfl⟩, g2.r, g4.r⟩
        · rw [g2.j, g4.j]; simp only [h.j]
        · rw [g2.byteCount, g4.byteCount]; exact h.byteCount
        · rw [g2.buffer, g4.buffer]
      · have hs : L.tag.isSome = true := by
          cases h' : L.tag
          · exact absurd h' ht
          · rfl
        rw [if_pos hs, if_pos (h.tag ▸ hs)]
        exact Tree.Same.done ⟨rfl, h, rfl, rfl⟩

theorem alike_calls {k k' : Nat} {act act' : StreamCall} (h : Act.Alike (.call k act) (.call k' act')) : k = k' ∧ callsAlike act act' := by
  cases act <;> cases act' <;> simp_all [Act.Alike, callsAlike]

theorem act_same {ws ws' : List (Lazy κ)} (h : List.Forall₂ (Twins A) ws ws') {a a' : Act} (hv : ∀ r, a.request = some r → r.Valid A.c) (hv' : ∀ r, a'.request = some r → r.Valid A.c)
    (ha : a.Alike a') : Tree.Same (fun x x' => x.1 = x'.1 ∧ List.Forall₂ (Twins A) x.2 x'.2) (actT A ws a) (actT A ws' a') := by
  cases a with
  | start key draws salt aad =>
    cases a' with
    | call _ _ => cases ha
    | start key' draws' salt' aad' =>
      obtain ⟨h1, h2⟩ := ha
      refine Tree.Same.done ⟨by simp only [h1, h2], ?_⟩
      refine List.rel_append h (.cons ⟨Fine.fresh H (hv _ rfl), Fine.fresh H (hv' _ rfl), rfl, rfl, rfl, rfl⟩ .nil)
  | call k act =>
    cases a' with
    | start _ _ _ _ => cases act <;> cases ha
    | call k' act' =>
      obtain ⟨rfl, hc⟩ := alike_calls H ha
      simp only [actT]
      cases hk : ws[k]? with
      | none =>
        have hk' : ws'[k]? = none := by
          rw [List.getElem?_eq_none_iff] at hk ⊢
          rw [← h.length_eq]; exact hk
        simp only [hk']
        exact Tree.Same.done ⟨rfl, h⟩
      | some L =>
        obtain ⟨hlt, hL⟩ := List.getElem?_eq_some_iff.1 hk
        have hlt' : k < ws'.length := by rw [← h.length_eq]; exact hlt
        have hk' : ws'[k]? = some ws'[k] := List.getElem?_eq_getElem hlt'
        simp only [hk']
        have ht : Twins A L ws'[k] := by rw [← hL]; exact (List.forall₂_iff_get.1 h).2 k hlt hlt'
        refine (execT_same H ht hc).bind ?_
        rintro ⟨x, L1⟩ ⟨x', L1'⟩ ⟨e, g, _, _⟩
        simp only at e
        subst e
        refine Tree.Same.done ⟨congrArg (Shown.made x.1 x.2) g.tag, ?_⟩
        simp only
        rw [List.forall₂_iff_get]
        refine ⟨by rw [List.length_set, List.length_set, h.length_eq], fun i h1 h2 => ?_⟩
        simp only [List.get_eq_getElem, List.getElem_set]
        by_cases hi : k = i
        · rw [if_pos hi, if_pos hi]; exact g
        · rw [if_neg hi, if_neg hi]
          exact (List.forall₂_iff_get.1 h).2 i (by simpa using h1) (by simpa using h2)

theorem game_same {ask ask' : Streamer} (hv : ∀ seen r, (ask seen).request = some r → r.Valid A.c) (hv' : ∀ seen r, (ask' seen).request = some r → r.Valid A.c)
    (ha : ∀ seen, (ask seen).Alike (ask' seen)) : ∀ (n : Nat) {ws ws' : List (Lazy κ)} (seen : List Shown), List.Forall₂ (Twins A) ws ws' →
    Tree.Same (· = ·) (gameT A ask n ws seen) (gameT A ask' n ws' seen)
  | 0, _, _, seen, _ => Tree.Same.done rfl
  | n + 1, ws, ws', seen, h => by
    refine (act_same H h (hv seen) (hv' seen) (ha seen)).bind ?_
    rintro ⟨x, w1⟩ ⟨x', w1'⟩ ⟨e, g⟩
    simp only at e
    subst e
    exact game_same hv hv' ha n _ g

end

end Aiootp.Secrecy
