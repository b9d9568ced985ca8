import Verif.Lemmas.StreamSecrecy
import Mathlib.Algebra.BigOperators.Intervals
import Mathlib.Tactic.FieldSimp

/-
The chance that streams ask the hash function a question twice.
-/

namespace Aiootp.Secrecy

open Oracle Cipher Cipher.Cipher Perm

variable {K : Nat} {κ : Type}

instance : Nonempty (Digest K) := ⟨⟨List.replicate K 0, by simp⟩⟩

section
variable (A : Plan K κ)

/-- What a stream has asked for, but for block ids. -/
def did (L : Lazy κ) : Set Bytes :=
  if L.tag.isSome then A.past L.r L.j else match L.j with
    | 0 => ∅
    | j + 1 => A.mid L.r j

def ids (C : List Bytes) : Set Bytes := {q | ∃ d ∈ C, ∃ X, q = A.idq d X}

/-- The bytes that a stream may yet encrypt. -/
def left (L : Lazy κ) : Nat := if L.tag.isSome then 0 else L.buffer.flatten.length + A.c.paddingFrame

/-- What the other streams have asked for. -/
structure Clear (O : Set Bytes) (r : Request) : Prop where
  past : ∀ j, ∀ q ∈ A.past r j, q ∉ O
  id : ∀ d X, A.idq d X ∉ O

/-- The chance of a repetition if `s` blocks were made, and `N` may be made in all. -/
def bound (N s : Nat) : ℚ := (∑ j ∈ Finset.Ico s N, (j : ℚ)) / 256 ^ A.c.shmacBlocksize

theorem bound_nonneg (N s : Nat) : 0 ≤ bound A N s := by unfold bound; positivity

theorem bound_step {N s : Nat} (h : s < N) : bound A N s = s / 256 ^ A.c.shmacBlocksize + bound A N (s + 1) := by
  unfold bound
  rw [Finset.sum_eq_sum_Ico_succ_bot h, add_div]

theorem bound_zero_le (N : Nat) : bound A N 0 * 2 * 256 ^ A.c.shmacBlocksize ≤ (N * N : ℚ) := by
  unfold bound
  have h : (∑ j ∈ Finset.Ico 0 N, (j : ℚ)) * 2 ≤ N * N := by
    rw [← Finset.range_eq_Ico]
    induction N with
    | zero => simp
    | succ n ih =>
      rw [Finset.sum_range_succ]
      push_cast
      nlinarith
  have : (0 : ℚ) < 256 ^ A.c.shmacBlocksize := by positivity
  calc _ = (∑ j ∈ Finset.Ico 0 N, (j : ℚ)) * 2 := by field_simp
    _ ≤ _ := h

end

theorem mem_chance {n : Nat} (hn : n ≤ K) (C : List Bytes) (hC : ∀ d ∈ C, d.length = n) {r : ℚ} (hr : 0 ≤ r) {f : Digest K → ℚ} (h1 : ∀ a, f a ≤ 1) (h2 : ∀ a : Digest K, a.1.take n ∉ C → f a ≤ r) :
    (∑ a : Digest K, f a) / Fintype.card (Digest K) ≤ C.length / 256 ^ n + r := by
  have hone : ∀ d ∈ C, (∑ a : Digest K, if piece 0 n a.1 = d then (1 : ℚ) else 0) / Fintype.card (Digest K) = 1 / 256 ^ n := fun d hd =>
    sum_piece (K := K) (i := 0) (n := n) (by omega) (fun _ => d) (fun _ => hC d hd) (fun _ _ => rfl) 1
  have key : ∀ C' : List Bytes, (∀ d ∈ C', d ∈ C) → (∑ a : Digest K, (C'.map fun d => if piece 0 n a.1 = d then (1 : ℚ) else 0).sum) / Fintype.card (Digest K) = C'.length / 256 ^ n := by
    intro C' h
    induction C' with
    | nil => simp
    | cons d C' ih =>
      simp only [List.map_cons, List.sum_cons, Finset.sum_add_distrib, add_div]
      rw [hone d (h d (by simp)), ih fun x hx => h x (by simp [hx]), List.length_cons]
      push_cast
      ring
  have hle : ∀ a : Digest K, f a ≤ (C.map fun d => if piece 0 n a.1 = d then (1 : ℚ) else 0).sum + r := by
    intro a
    have hnn : ∀ C' : List Bytes, 0 ≤ (C'.map fun d => if piece 0 n a.1 = d then (1 : ℚ) else 0).sum := fun C' =>
      List.sum_nonneg fun x hx => by
        obtain ⟨d, _, rfl⟩ := List.mem_map.1 hx
        split <;> norm_num
    have hp : piece 0 n a.1 = a.1.take n := rfl
    by_cases hm : a.1.take n ∈ C
    · obtain ⟨s, t, hst⟩ := List.append_of_mem hm
      have : (1 : ℚ) ≤ (C.map fun d => if piece 0 n a.1 = d then (1 : ℚ) else 0).sum := by
        rw [hst, List.map_append, List.map_cons, List.sum_append, List.sum_cons, if_pos hp]
        have := hnn s; have := hnn t
        linarith
      have := h1 a
      linarith
    · have := h2 a hm
      have := hnn C
      linarith
  have hcard : (0 : ℚ) < Fintype.card (Digest K) := Tree.card_pos'
  calc (∑ a : Digest K, f a) / Fintype.card (Digest K) ≤ (∑ a : Digest K, ((C.map fun d => if piece 0 n a.1 = d then (1 : ℚ) else 0).sum + r)) / Fintype.card (Digest K) :=
        Tree.avg_mono hle
    _ = C.length / 256 ^ n + r := by
        rw [Finset.sum_add_distrib, add_div, key C fun _ h => h, Finset.sum_const, Finset.card_univ, nsmul_eq_mul]
        congr 1
        field_simp

section
variable {A : Plan K κ} (H : A.OK)
include H

theorem did_past {L : Lazy κ} (h : Core A L) : did A L ⊆ A.past L.r L.j := by
  unfold did
  split
  · exact subset_rfl
  · intro q hq
    cases hj : L.j with
    | zero => rw [hj] at hq; exact hq.elim
    | succ j => rw [hj] at hq; exact (H.machine h.valid).mid_past j hq

theorem mac_new {L : Lazy κ} (h : Core A L) (ht : L.tag = none) : L.mac ∉ did A L := by
  unfold did
  rw [ht]
  simp only [Option.isSome_none, Bool.false_eq_true, if_false]
  cases hj : L.j with
  | zero => exact fun h => h
  | succ j => exact h.new j hj.symm

theorem emit_dirty {α : Type} {L : Lazy κ} (h : Core A L) (ht : L.tag = none) {b : Bytes} (hb : b.length = A.c.blocksize) {O S : Set Bytes} {C : List Bytes} (hO : Clear A O L.r)
    (hC : ∀ d ∈ C, d.length = A.c.shmacBlocksize) (hS : S ⊆ O ∪ did A L ∪ ids A C) {g : Packet × Lazy κ → HashTree K α} {r : ℚ} (hr : 0 ≤ r)
    (hg : ∀ p L1 d, Core A L1 → Kept L 1 L1 → d.length = A.c.shmacBlocksize → (g (p, L1)).dirty (O ∪ did A L1 ∪ ids A (d :: C)) ≤ r) :
    ((emitT A L b).bind g).dirty S ≤ C.length / 256 ^ A.c.shmacBlocksize + r := by
  have M := H.machine h.valid
  have hmid : A.past L.r L.j ⊆ A.mid L.r L.j := M.past_mid _
  have hwide : A.c.shmacBlocksize ≤ K := by have := M.wide; unfold Sizes.shmacDoubleBlocksize at this; omega
  have hids : ∀ j, ∀ q ∈ A.past L.r j, q ∉ ids A C := by
    rintro j q hq ⟨d, _, X, rfl⟩
    exact H.id_apart h.valid j d X hq
  have hmac : L.mac ∉ S := by
    intro hm
    rcases hS hm with (h' | h') | h'
    · exact hO.past _ _ h.mem h'
    · exact mac_new H h ht h'
    · exact hids _ _ h.mem h'
  have e : (emitT A L b).bind g = .ask L.mac fun a =>
      (A.step L.mac (if L.j = 0 then a.1.take A.c.shmacBlocksize else L.prev) (a.1.take A.c.shmacBlocksize) (if L.j = 0 then A.permOf a.1 else L.perm) L.keys b).bind fun r =>
        .ask (A.idq (a.1.take A.c.shmacBlocksize) r.1) fun e => g ((e.1.take A.c.blockIdBytes, r.1),
          { L with j := L.j + 1, mac := r.2.1, prev := a.1.take A.c.shmacBlocksize, perm := if L.j = 0 then A.permOf a.1 else L.perm, keys := r.2.2 }) := by
    unfold emitT blockT
    simp only [Tree.bind]
    congr 1
    funext a
    rw [tree_map_bind, tree_bind_assoc]
    rfl
  rw [e, Tree.dirty, if_neg hmac]
  refine mem_chance hwide C hC hr (fun a => Tree.dirty_le_one _ _) fun a ha => ?_
  obtain ⟨u1, u2, u3⟩ := h.used H a
  have hl := take_length H a h.valid
  have hin := M.within h.inv u1 u2 u3 hl hb
  have hsub : insert L.mac S ⊆ (O ∪ ids A C) ∪ A.past L.r L.j := by
    intro q hq
    rcases hq with rfl | hq
    · exact .inr h.mem
    rcases hS hq with (h' | h') | h'
    · exact .inl (.inl h')
    · exact .inr (did_past H h h')
    · exact .inl (.inr h')
  have hfresh := Tree.Fresh.mono hsub ((M.fresh h.inv u1 u2 u3 hl hb).union (S' := O ∪ ids A C) (U := A.mid L.r L.j) (by
    rintro q hq (h' | h')
    · exact hO.past _ _ (M.mid_past _ hq) h'
    · exact hids _ _ (M.mid_past _ hq) h') hin)
  refine Tree.dirty_bind hr hfresh hin (M.out h.inv u1 u2 u3 hl hb) ?_
  rintro ⟨x, m', k'⟩ ⟨h1, h2, h3, h4⟩
  have hsub2 : insert L.mac S ∪ A.mid L.r L.j ⊆ O ∪ A.mid L.r L.j ∪ ids A C := by
    rintro q (hq | hq)
    · rcases hsub hq with (h' | h') | h'
      · exact .inl (.inl h')
      · exact .inr h'
      · exact .inl (.inr (hmid h'))
    · exact .inl (.inr hq)
  have hq : A.idq (a.1.take A.c.shmacBlocksize) x ∉ insert L.mac S ∪ A.mid L.r L.j := by
    intro hq
    rcases hsub2 hq with (h' | h') | ⟨d, hd, X, h'⟩
    · exact hO.id _ _ h'
    · exact H.id_apart h.valid _ _ _ (M.mid_past _ h')
    · exact ha (H.id_inj hl (hC d hd) h' ▸ hd)
  rw [Tree.dirty, if_neg hq]
  refine Tree.avg_le fun e => ?_
  refine (Tree.dirty_mono _ ?_).trans (hg _ _ (a.1.take A.c.shmacBlocksize) ⟨h.valid, h2, h4, fun j hj => ?_, fun _ => ⟨u1, u2, hl⟩⟩ ⟨rfl, rfl, rfl, rfl, rfl⟩ hl)
  · rintro q (rfl | hq)
    · exact .inr ⟨_, by simp, _, rfl⟩
    · rcases hsub2 hq with (h' | h') | ⟨d, hd, X, h'⟩
      · exact .inl (.inl h')
      · refine .inl (.inr ?_)
        unfold did
        simp only [ht, Option.isSome_none, Bool.false_eq_true, if_false]
        exact h'
      · exact .inr ⟨d, by simp [hd], X, h'⟩
  · have : j = L.j := by simpa using hj
    subst this
    exact h3

theorem emits_dirty {α : Type} {O : Set Bytes} {N : Nat} : ∀ (bs : List Bytes) {L : Lazy κ}, Core A L → L.tag = none → (∀ b ∈ bs, b.length = A.c.blocksize) → Clear A O L.r →
    ∀ {C : List Bytes} {S : Set Bytes}, (∀ d ∈ C, d.length = A.c.shmacBlocksize) → S ⊆ O ∪ did A L ∪ ids A C → C.length + bs.length ≤ N → ∀ {g : List Packet × Lazy κ → HashTree K α},
    (∀ p L1 C', Core A L1 → Kept L bs.length L1 → (∀ d ∈ C', d.length = A.c.shmacBlocksize) → C'.length = C.length + bs.length →
      (g (p, L1)).dirty (O ∪ did A L1 ∪ ids A C') ≤ bound A N C'.length) → ((emitsT A bs L).bind g).dirty S ≤ bound A N C.length
  | [], L, h, ht, _, hO, C, S, hC, hS, hN, g, hg => (Tree.dirty_mono _ hS).trans (hg [] L C h (.refl L) hC (by simp))
  | b :: bs, L, h, ht, hb, hO, C, S, hC, hS, hN, g, hg => by
    rw [List.length_cons] at hN
    rw [bound_step A (show C.length < N by omega)]
    have e : (emitsT A (b :: bs) L).bind g = (emitT A L b).bind fun x => (emitsT A bs x.2).bind fun y => g (x.1 :: y.1, y.2) := by
      rw [emitsT, tree_bind_assoc]
      congr 1
      funext x
      rw [tree_map_bind]
    rw [e]
    refine emit_dirty H h ht (hb b (by simp)) hO hC hS (bound_nonneg A N _) ?_
    intro p L1 d h1 k1 hd
    have hC1 : ∀ d' ∈ d :: C, d'.length = A.c.shmacBlocksize := by
      intro d' h'
      rcases List.mem_cons.1 h' with rfl | h'
      · exact hd
      · exact hC _ h'
    refine emits_dirty bs (C := d :: C) h1 (k1.tag.trans ht) (fun y hy => hb y (by simp [hy])) (k1.r ▸ hO) hC1 subset_rfl (by simp; omega) ?_
    intro p' L2 C' h2 k2 hC' hl
    refine hg _ L2 C' h2 ?_ hC' (by rw [hl, List.length_cons, List.length_cons]; omega)
    have := k1.trans k2
    rw [Nat.add_comm] at this
    exact this

omit H in
theorem left_none {L : Lazy κ} (h : L.tag = none) : left A L = L.buffer.flatten.length + A.c.paddingFrame := by unfold left; rw [h]; rfl

omit H in
theorem left_some {L : Lazy κ} (h : L.tag ≠ none) : left A L = 0 := by
  unfold left
  cases e : L.tag
  · exact absurd e h
  · rfl

omit H in
def callBytes : StreamCall → Nat
  | .buffer data => data.length
  | _ => 0

theorem exec_dirty {α : Type} {L : Lazy κ} (h : Fine A L) (act : StreamCall) {O S : Set Bytes} {C : List Bytes} {N : Nat} (hO : Clear A O L.r) (hC : ∀ d ∈ C, d.length = A.c.shmacBlocksize)
    (hS : S ⊆ O ∪ did A L ∪ ids A C) (hN : left A L + callBytes act + C.length * A.c.blocksize ≤ N * A.c.blocksize) {g : (List Packet × Option Err) × Lazy κ → HashTree K α}
    (hg : ∀ p L1 C', Fine A L1 → L1.r = L.r → (∀ d ∈ C', d.length = A.c.shmacBlocksize) →
      left A L1 + C'.length * A.c.blocksize ≤ left A L + callBytes act + C.length * A.c.blocksize → (g (p, L1)).dirty (O ∪ did A L1 ∪ ids A C') ≤ bound A N C'.length) :
    ((execT A L act).bind g).dirty S ≤ bound A N C.length := by
  have hB := H.accepted.blocksize_pos
  cases act with
  | buffer data =>
    simp only [execT]
    by_cases ht : L.tag = none
    · rw [if_neg (by rw [ht]; simp)]
      refine (Tree.dirty_mono _ hS).trans (hg _ _ C (h.buffered H ht data) rfl hC ?_)
      obtain ⟨init, last, e1, e2, e3⟩ := h.opened ht
      obtain ⟨init', last', f1, f2, f3⟩ := CipherStream.digestData_spec H.accepted.blocksize_pos e2 data (last := last)
      rw [left_none ht, left_none (L := { L with byteCount := L.byteCount + data.length, buffer := CipherStream.digestData A.c.blocksize L.buffer data }) ht]
      simp only [callBytes]
      rw [e1, f1]
      simp only [List.flatten_append, List.flatten_cons, List.flatten_nil, List.append_nil]
      rw [f3, List.length_append]
      omega
    · rw [if_pos (by
        cases e : L.tag
        · exact absurd e ht
        · rfl)]
      exact (Tree.dirty_mono _ hS).trans (hg _ L C h rfl hC (by simp only [callBytes]; omega))
  | pull n =>
    obtain ⟨a1, a2, a3⟩ := pulled_spec H h n
    simp only [execT]
    rw [tree_map_bind]
    have hcore : Core A { L with buffer := L.buffer.drop (pulled A.c L n) } := ⟨h.core.valid, h.core.inv, h.core.mem, h.core.new, h.core.perm⟩
    have hfl : (L.buffer.take (pulled A.c L n)).flatten.length = A.c.blocksize * pulled A.c L n := by rw [length_flatten_blocks _ a1, a2]
    have hsplit : L.buffer.flatten.length = A.c.blocksize * pulled A.c L n + (L.buffer.drop (pulled A.c L n)).flatten.length := by
      conv_lhs => rw [← List.take_append_drop (pulled A.c L n) L.buffer]
      rw [List.flatten_append, List.length_append, hfl]
    simp only [callBytes] at hN hg
    by_cases ht : L.tag = none
    · rw [left_none ht] at hN hg
      refine emits_dirty H _ hcore ht a1 hO hC hS ?_ ?_ (N := N)
      · rw [a2]
        refine Nat.le_of_mul_le_mul_right (c := A.c.blocksize) ?_ hB
        rw [Nat.add_mul, Nat.mul_comm (pulled A.c L n)]
        omega
      · intro p L1 C' g1 g2 hC' hl
        rw [a2] at g2 hl
        refine hg _ _ C' (h.pull H g1 g2) g2.r hC' ?_
        rw [left_none (g2.tag.trans ht), g2.buffer, hl, Nat.add_mul, Nat.mul_comm (pulled A.c L n)]
        simp only
        omega
    · have h0 := a3 ht
      have e0 : L.buffer.take (pulled A.c L n) = [] := by rw [h0]; rfl
      rw [e0]
      simp only [emitsT, Tree.bind]
      refine (Tree.dirty_mono _ hS).trans (hg _ _ C (h.pull H (n := n) hcore ?_) rfl hC ?_)
      · exact ⟨rfl, by rw [h0]; rfl, rfl, rfl, rfl⟩
      · rw [left_some ht, left_some (L := { L with buffer := L.buffer.drop (pulled A.c L n) }) ht]
  | finalize =>
    simp only [execT]
    simp only [callBytes] at hN hg
    by_cases ht : L.tag = none
    · rw [if_neg (by rw [ht]; simp)]
      rw [left_none ht] at hN hg
      obtain ⟨a1, _, a2, _⟩ := final_spec H h ht
      obtain ⟨init, last, e1, e2, e3⟩ := h.opened ht
      have e3' : L.j * A.c.blocksize + L.buffer.flatten.length = A.c.innerHeaderBytes + L.byteCount := by
        rw [e1]; simpa [List.flatten_append] using e3
      have hp := (Sizes.padSize_bounds (c := A.c) H.accepted.frame_pos L.byteCount).2.1
      have hk : (finalBlocks A.c L).length * A.c.blocksize ≤ L.buffer.flatten.length + A.c.paddingFrame := by
        rw [Nat.add_mul] at a2
        omega
      have hcore : Core A { L with buffer := [] } := ⟨h.core.valid, h.core.inv, h.core.mem, h.core.new, h.core.perm⟩
      rw [tree_bind_assoc]
      refine emits_dirty H _ hcore ht a1 hO hC hS ?_ ?_ (N := N)
      · refine Nat.le_of_mul_le_mul_right (c := A.c.blocksize) ?_ hB
        rw [Nat.add_mul]
        omega
      · intro p L1 C' g1 g2 hC' hl
        have ht1 : L1.tag = none := g2.tag.trans ht
        have hr1 : L1.r = L.r := g2.r
        simp only [Tree.bind]
        have hmac : L1.mac ∉ O ∪ did A L1 ∪ ids A C' := by
          rintro ((h' | h') | ⟨d, _, X, h'⟩)
          · have := g1.mem
            rw [hr1] at this
            exact hO.past _ _ this h'
          · exact mac_new H g1 ht1 h'
          · exact H.id_apart g1.valid L1.j d X (h' ▸ g1.mem)
        rw [Tree.dirty, if_neg hmac]
        refine Tree.avg_le fun a => ?_
        refine (Tree.dirty_mono _ ?_).trans (hg _ _ C' (Fine.finalized H g1 g2 (tagFrom A.c a.1)) hr1 hC' ?_)
        · have hd : did A { L1 with tag := some (tagFrom A.c a.1) } = A.past L1.r L1.j := rfl
          rw [hd]
          rintro q (rfl | (h' | h') | h')
          · exact .inl (.inr g1.mem)
          · exact .inl (.inl h')
          · exact .inl (.inr (did_past H g1 h'))
          · exact .inr h'
        · have : left A { L1 with tag := some (tagFrom A.c a.1) } = 0 := rfl
          rw [this, hl, Nat.add_mul]
          omega
    · rw [if_pos (by
        cases e : L.tag
        · exact absurd e ht
        · rfl)]
      exact (Tree.dirty_mono _ hS).trans (hg _ L C h rfl hC (by omega))

end

/-! ### several streams -/

section
variable (A : Plan K κ) (ask : Streamer)

def dids (ws : List (Lazy κ)) : Set Bytes := {q | ∃ (i : Nat) (L : Lazy κ), ws[i]? = some L ∧ q ∈ did A L}

def others (ws : List (Lazy κ)) (k : Nat) : Set Bytes := {q | ∃ (i : Nat) (L : Lazy κ), i ≠ k ∧ ws[i]? = some L ∧ q ∈ did A L}

/-- What holds of the streams between acts. -/
structure World (ws : List (Lazy κ)) (seen : List Shown) : Prop where
  fine : ∀ L ∈ ws, Fine A L
  from_ : ∀ L ∈ ws, ∃ h more, more ≠ [] ∧ h ++ more = seen ∧ (ask h).request = some L.r
  apart : ∀ (i i' : Nat) (L L' : Lazy κ), i ≠ i' → ws[i]? = some L → ws[i']? = some L' → L.r.nonce ≠ L'.r.nonce

end

section
variable {A : Plan K κ} (H : A.OK) {ask : Streamer} {n0 : Nat} (F : ask.Fair A.c n0)

theorem World.later {ws : List (Lazy κ)} {seen : List Shown} (w : World A ask ws seen) (shown : Shown) : World A ask ws (seen ++ [shown]) :=
  ⟨w.fine, fun L hL => by
    obtain ⟨h, more, h1, h2, h3⟩ := w.from_ L hL
    exact ⟨h, more ++ [shown], by simp, by rw [← h2, List.append_assoc], h3⟩, w.apart⟩

theorem World.set {ws : List (Lazy κ)} {seen : List Shown} (w : World A ask ws seen) {k : Nat} {L L1 : Lazy κ} (hk : ws[k]? = some L) (h1 : Fine A L1) (hr : L1.r = L.r) :
    World A ask (ws.set k L1) seen := by
  have hmem : L ∈ ws := List.mem_of_getElem? hk
  refine ⟨fun x hx => ?_, fun x hx => ?_, fun i i' x x' hi hx hx' => ?_⟩
  · rcases List.mem_or_eq_of_mem_set hx with hx | rfl
    · exact w.fine x hx
    · exact h1
  · rcases List.mem_or_eq_of_mem_set hx with hx | rfl
    · exact w.from_ x hx
    · rw [hr]; exact w.from_ L hmem
  · have get : ∀ (i : Nat) (x : Lazy κ), (ws.set k L1)[i]? = some x → ∃ y : Lazy κ, ws[i]? = some y ∧ y.r = x.r := by
      intro i x hx
      rw [List.getElem?_set] at hx
      split at hx
      · next e =>
        subst e
        split at hx
        · cases hx; exact ⟨L, hk, hr.symm⟩
        · cases hx
      · exact ⟨x, hx, rfl⟩
    obtain ⟨y, hy, e⟩ := get i x hx
    obtain ⟨y', hy', e'⟩ := get i' x' hx'
    rw [← e, ← e']
    exact w.apart i i' y y' hi hy hy'

include H F

theorem World.start {ws : List (Lazy κ)} {seen : List Shown} (w : World A ask ws seen) {r : Request} (hr : (ask seen).request = some r) (hn : seen.length < n0) (shown : Shown) :
    World A ask (ws ++ [freshL A r]) (seen ++ [shown]) := by
  have hnew : ∀ L ∈ ws, L.r.nonce ≠ r.nonce := by
    intro L hL
    obtain ⟨h, more, h1, h2, h3⟩ := w.from_ L hL
    exact F.nonce h more L.r r h1 (by rw [h2]; exact hn) h3 (by rw [h2]; exact hr)
  refine ⟨fun L hL => ?_, fun L hL => ?_, fun i i' L L' hi hL hL' => ?_⟩
  · rcases List.mem_append.1 hL with hL | hL
    · exact w.fine L hL
    · rw [List.mem_singleton.1 hL]; exact Fine.fresh H (F.valid seen r hr)
  · rcases List.mem_append.1 hL with hL | hL
    · exact (w.later shown).from_ L hL
    · rw [List.mem_singleton.1 hL]; exact ⟨seen, [shown], by simp, rfl, hr⟩
  · have get : ∀ (i : Nat) (L : Lazy κ), (ws ++ [freshL A r])[i]? = some L → (i < ws.length ∧ ws[i]? = some L) ∨ (i = ws.length ∧ L = freshL A r) := by
      intro i L h
      by_cases hlt : i < ws.length
      · rw [List.getElem?_append_left hlt] at h
        exact .inl ⟨hlt, h⟩
      · rw [List.getElem?_append_right (by omega)] at h
        have : i - ws.length = 0 := by
          by_cases h0 : i - ws.length = 0
          · exact h0
          · rw [List.getElem?_eq_none (by simp; omega)] at h; cases h
        rw [this] at h
        exact .inr ⟨by omega, by simpa using h.symm⟩
    rcases get i L hL with ⟨_, h1⟩ | ⟨e1, h1⟩ <;> rcases get i' L' hL' with ⟨_, h2⟩ | ⟨e2, h2⟩
    · exact w.apart i i' L L' hi h1 h2
    · subst h2; exact hnew L (List.mem_of_getElem? h1)
    · subst h1; exact (hnew L' (List.mem_of_getElem? h2)).symm
    · exact absurd (e1.trans e2.symm) hi

theorem World.clear {ws : List (Lazy κ)} {seen : List Shown} (w : World A ask ws seen) {k : Nat} {L : Lazy κ} (hk : ws[k]? = some L) : Clear A (others A ws k) L.r := by
  have hmem : L ∈ ws := List.mem_of_getElem? hk
  refine ⟨fun j q hq => ?_, fun d X => ?_⟩
  · rintro ⟨i, L', hi, hL', hd⟩
    have hmem' : L' ∈ ws := List.mem_of_getElem? hL'
    obtain ⟨h, _, _, _, e⟩ := w.from_ L hmem
    obtain ⟨h', _, _, _, e'⟩ := w.from_ L' hmem'
    exact H.apart (w.fine L hmem).core.valid (w.fine L' hmem').core.valid (F.size h h' _ _ e e') (w.apart k i L L' (Ne.symm hi) hk hL') j L'.j q hq (did_past H (w.fine L' hmem').core hd)
  · rintro ⟨i, L', hi, hL', hd⟩
    have hmem' : L' ∈ ws := List.mem_of_getElem? hL'
    exact H.id_apart (w.fine L' hmem').core.valid _ _ _ (did_past H (w.fine L' hmem').core hd)

omit H F in
theorem dids_sub (ws : List (Lazy κ)) {k : Nat} {L : Lazy κ} (hk : ws[k]? = some L) : dids A ws ⊆ others A ws k ∪ did A L := by
  rintro q ⟨i, L', hL', hq⟩
  by_cases hi : i = k
  · subst hi
    rw [hk] at hL'
    cases hL'
    exact .inr hq
  · exact .inl ⟨i, L', hi, hL', hq⟩

omit H F in
theorem sub_dids (ws : List (Lazy κ)) {k : Nat} {L L1 : Lazy κ} (hk : ws[k]? = some L) : others A ws k ∪ did A L1 ⊆ dids A (ws.set k L1) := by
  have hlt : k < ws.length := (List.getElem?_eq_some_iff.1 hk).1
  rintro q (⟨i, L', hi, hL', hq⟩ | hq)
  · exact ⟨i, L', by rw [List.getElem?_set_ne (Ne.symm hi)]; exact hL', hq⟩
  · exact ⟨k, L1, by rw [List.getElem?_set_self hlt], hq⟩

omit H F in
theorem sum_set (f : Lazy κ → Nat) : ∀ (ws : List (Lazy κ)) (k : Nat) {L : Lazy κ} (L1 : Lazy κ), ws[k]? = some L → ((ws.set k L1).map f).sum + f L = (ws.map f).sum + f L1
  | [], _, _, _, h => by simp at h
  | x :: ws, 0, L, L1, h => by
    have : x = L := by simpa using h
    subst this
    simp only [List.set_cons_zero, List.map_cons, List.sum_cons]
    omega
  | x :: ws, k + 1, L, L1, h => by
    have := sum_set f ws k L1 (by simpa using h)
    simp only [List.set_cons_succ, List.map_cons, List.sum_cons]
    omega

omit H F in
theorem le_sum (f : Lazy κ → Nat) {ws : List (Lazy κ)} {L : Lazy κ} (h : L ∈ ws) : f L ≤ (ws.map f).sum := List.le_sum_of_mem (List.mem_map_of_mem h)

theorem game_dirty (N : Nat) : ∀ (n : Nat) {ws : List (Lazy κ)} {seen : List Shown}, World A ask ws seen → seen.length + n = n0 → ∀ {C : List Bytes} {S : Set Bytes} {bytes : Nat},
    ask.AtMost A.c n seen bytes → (∀ d ∈ C, d.length = A.c.shmacBlocksize) → S ⊆ dids A ws ∪ ids A C → (ws.map (left A)).sum + bytes + C.length * A.c.blocksize ≤ N * A.c.blocksize →
    (gameT A ask n ws seen).dirty S ≤ bound A N C.length
  | 0, _, _, _, _, C, _, _, _, _, _, _ => bound_nonneg A N _
  | n + 1, ws, seen, w, hn, C, S, bytes, hm, hC, hS, hN => by
    obtain ⟨hb, hm⟩ := hm
    rw [gameT]
    cases ha : ask seen with
    | start key draws salt aad =>
      have hr : (ask seen).request = some ⟨key, draws, salt, aad, []⟩ := by rw [ha]; rfl
      have hv := F.valid seen _ hr
      simp only [actT, Tree.bind]
      rw [ha] at hb hm
      simp only [Act.bytes] at hb hm
      refine game_dirty N n (w.start H F hr (by omega) _) (by simp; omega) (hm _) hC (hS.trans (Set.union_subset_union_left _ ?_)) ?_
      · rintro q ⟨i, L, hL, hq⟩
        refine ⟨i, L, ?_, hq⟩
        rw [List.getElem?_append_left (List.getElem?_eq_some_iff.1 hL).1]
        exact hL
      · have hl : left A (freshL A ⟨key, draws, salt, aad, []⟩) = A.c.innerHeaderBytes + A.c.paddingFrame := by
          rw [left_none rfl]
          simp only [freshL, List.flatten_cons, List.flatten_nil, List.append_nil, List.length_append, length_beDigits]
          rw [hv.draws.sivKey]
          rfl
        rw [List.map_append, List.sum_append, List.map_singleton, List.sum_singleton, hl]
        omega
    | call k act =>
      simp only [actT]
      have hcb : (Act.call k act).bytes A.c = callBytes act := by cases act <;> rfl
      rw [ha, hcb] at hb hm
      cases hk : ws[k]? with
      | none =>
        simp only [Tree.bind]
        exact game_dirty N n (w.later _) (by simp; omega) (hm _) hC hS (by omega)
      | some L =>
        simp only
        rw [tree_map_bind]
        have hmem : L ∈ ws := List.mem_of_getElem? hk
        have hle := le_sum (left A) hmem
        refine exec_dirty H (w.fine L hmem) act (w.clear H F hk) hC (hS.trans (Set.union_subset_union_left _ (dids_sub ws hk))) (by omega) ?_
        intro p L1 C' h1 hr hC' hl
        have hsum := sum_set (left A) ws k L1 hk
        exact game_dirty N n ((w.set hk h1 hr).later _) (by simp; omega) (hm _) hC' (Set.union_subset_union_left _ (sub_dids ws hk)) (by omega)

end

end Aiootp.Secrecy
