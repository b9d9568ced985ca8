import Verif.Lemmas.Digest
import Verif.Lemmas.Message

/-
Encryptions as computations that ask a hash function, and the chance of each message.
-/

namespace Aiootp.Secrecy

open Oracle Cipher Perm

variable {K : Nat} {κ : Type}

abbrev HashTree (K : Nat) (α : Type) : Type := Tree Bytes (Digest K) α

theorem pow256_ne (k : Nat) : (256 : ℚ) ^ k ≠ 0 := pow_ne_zero _ (by norm_num)

/-! ### a hash function and the computations -/

theorem xof_digest {D : Finset Bytes} (known : Xof) (T : Hash D K) {m : Bytes} {n : Nat} (hm : m ∈ D) (hn : n ≤ K) : (T.xof known).digest m n = (Tree.ext T m).1.take n := by
  have := (T ⟨m, hm⟩).2
  simp only [Hash.xof, Tree.ext, hm, dite_true]
  rw [List.take_append_of_le_length (by omega)]

/-! ### one message -/

/-- The tag in a digest of everything that was hashed. -/
def tagFrom (c : Sizes) (a : Bytes) : Bytes := c.shmacResultSlice.of (a.take c.shmacDoubleBlocksize)

theorem tagFrom_eq {c : Sizes} (hp : 0 < c.shmacBytes) (hK : c.shmacDoubleBlocksize ≤ K) (hle : c.shmacBytes ≤ c.shmacDoubleBlocksize) (a : Digest K) :
    tagFrom c a.1 = piece (c.shmacDoubleBlocksize - c.shmacBytes) c.shmacBytes a.1 := by
  have := a.2
  unfold tagFrom piece Sizes.shmacResultSlice
  rw [slice_neg_none _ _ hp, List.length_take, Nat.min_eq_left (by omega), List.drop_take]
  congr 1
  omega

/-- How one block is enciphered, up to the question for the next digest: from what the stream-hmac has absorbed, the digest before the last one, the last one, the
permutation and the other hash objects to the new block, what was absorbed in all, and the other hash objects. -/
abbrev Step (K : Nat) (κ : Type) : Type := Bytes → Bytes → Bytes → Chain → κ → Bytes → HashTree K (Bytes × Bytes × κ)

/-- The blocks and then the tag. -/
def rest (c : Sizes) (step : Step K κ) (perm : Chain) : List Bytes → Bytes → Bytes → Digest K → κ → HashTree K (Bytes × List Bytes)
  | [], _, _, a, _ => .done (tagFrom c a.1, [])
  | b :: bs, m, p, a, k =>
    (step m p (a.1.take c.shmacBlocksize) perm k b).bind fun r =>
      .ask r.2.1 fun a' => (rest c step perm bs r.2.1 (a.1.take c.shmacBlocksize) a' r.2.2).map fun x => (x.1, r.1 :: x.2)

/-- The same from the beginning of a session. -/
def whole (c : Sizes) (step : Step K κ) (permOf : Bytes → Chain) (mac : Bytes) (keys : κ) (blocks : List Bytes) : HashTree K (Bytes × List Bytes) :=
  .ask mac fun a => rest c step (permOf a.1) blocks mac (a.1.take c.shmacBlocksize) a keys

/-- What is known of the enciphering of blocks. `inv j` holds of what is absorbed after `j` blocks; `past j` are the questions asked up to then, and `mid j` those before the
digest after the next block. -/
structure Machine (c : Sizes) (i : Nat) (permOf : Bytes → Chain) (step : Step K κ) (inv : Nat → Bytes → κ → Prop) (past mid : Nat → Set Bytes) : Prop where
  tag_pos : 0 < c.shmacBytes
  tag_le : c.shmacBytes ≤ c.shmacDoubleBlocksize
  wide : c.shmacDoubleBlocksize ≤ K
  perm : ∀ a : Digest K, (permOf a.1).WF ∧ (permOf a.1).size = i
  past_mid : ∀ j, past j ⊆ mid j
  mid_past : ∀ j, mid j ⊆ past (j + 1)
  fresh : ∀ {j m p d perm k b}, inv j m k → perm.WF → perm.size = i → p.length = c.shmacBlocksize → d.length = c.shmacBlocksize → b.length = c.blocksize →
    (step m p d perm k b).Fresh (past j)
  within : ∀ {j m p d perm k b}, inv j m k → perm.WF → perm.size = i → p.length = c.shmacBlocksize → d.length = c.shmacBlocksize → b.length = c.blocksize →
    (step m p d perm k b).AllIn (mid j)
  out : ∀ {j m p d perm k b}, inv j m k → perm.WF → perm.size = i → p.length = c.shmacBlocksize → d.length = c.shmacBlocksize → b.length = c.blocksize →
    (step m p d perm k b).AllOut fun r => r.1.length = c.blocksize ∧ inv (j + 1) r.2.1 r.2.2 ∧ r.2.1 ∉ mid j ∧ r.2.1 ∈ past (j + 1)
  first : ∀ {m k b o}, inv 0 m k → b.length = c.blocksize → o.length = c.blocksize →
    (∑ a : Digest K, ((step m (a.1.take c.shmacBlocksize) (a.1.take c.shmacBlocksize) (permOf a.1) k b).map Prod.fst).chance o) / Fintype.card (Digest K)
      = 1 / 256 ^ c.blocksize
  later : ∀ {j m p perm k b o}, inv (j + 1) m k → perm.WF → perm.size = i → p.length = c.shmacBlocksize → b.length = c.blocksize → o.length = c.blocksize →
    (∑ a : Digest K, ((step m p (a.1.take c.shmacBlocksize) perm k b).map Prod.fst).chance o) / Fintype.card (Digest K) = 1 / 256 ^ c.blocksize

section
variable {c : Sizes} {i : Nat} {permOf : Bytes → Chain} {step : Step K κ} {inv : Nat → Bytes → κ → Prop} {past mid : Nat → Set Bytes}
  (M : Machine c i permOf step inv past mid)
include M

theorem Machine.length_last (a : Digest K) : (a.1.take c.shmacBlocksize).length = c.shmacBlocksize := by
  have := a.2; have := M.wide
  have h2 : c.shmacDoubleBlocksize = 2 * c.shmacBlocksize := rfl
  rw [List.length_take]; omega

/-- The chance of what follows a block. -/
theorem Machine.block_chance {j : Nat} {m p b o tag : Bytes} {perm : Chain} {k : κ} {bs os : List Bytes} {a : Digest K} {r : ℚ}
    (hm : inv j m k) (hwf : perm.WF) (hs : perm.size = i) (hp : p.length = c.shmacBlocksize) (hb : b.length = c.blocksize)
    (ih : ∀ m' p' k', inv (j + 1) m' k' → p'.length = c.shmacBlocksize →
      (∑ a' : Digest K, (rest c step perm bs m' p' a' k').chance (tag, os)) / Fintype.card (Digest K) = r) :
    (rest c step perm (b :: bs) m p a k).chance (tag, o :: os)
      = ((step m p (a.1.take c.shmacBlocksize) perm k b).map Prod.fst).chance o * r := by
  have hl := M.length_last a
  rw [rest]
  refine Tree.chance_bind_const (P := fun r => r.1.length = c.blocksize ∧ inv (j + 1) r.2.1 r.2.2 ∧ r.2.1 ∉ mid j ∧ r.2.1 ∈ past (j + 1)) ?_ ?_
    (M.out hm hwf hs hp hl hb)
  · rintro ⟨x, m', k'⟩ ⟨_, hi, _, _⟩ rfl
    simp only [Tree.chance]
    rw [← ih m' (a.1.take c.shmacBlocksize) k' hi hl]
    congr 1
    refine Finset.sum_congr rfl fun a' _ => ?_
    refine Tree.chance_map_cons (fun y => ?_) _
    constructor
    · intro h
      simp only [Prod.mk.injEq, List.cons.injEq, true_and] at h
      exact Prod.ext h.1 h.2
    · rintro rfl; rfl
  · rintro ⟨x, m', k'⟩ _ hx
    simp only [Tree.chance]
    rw [Finset.sum_eq_zero, zero_div]
    intro a' _
    refine Tree.chance_zero ?_
    have : ∀ t : HashTree K (Bytes × List Bytes), (t.map fun y => (y.1, x :: y.2)).AllOut (· ≠ (tag, o :: os)) := by
      intro t
      induction t with
      | done y =>
        show (y.1, x :: y.2) ≠ (tag, o :: os)
        intro h
        simp only [Prod.mk.injEq, List.cons.injEq] at h
        exact hx h.2.1
      | ask _ _ ih => exact ih
    exact this _

theorem Machine.rest_chance {perm : Chain} (hwf : perm.WF) (hs : perm.size = i) {tag : Bytes} (ht : tag.length = c.shmacBytes) :
    ∀ (bs os : List Bytes) (j : Nat) (m p : Bytes) (k : κ), inv (j + 1) m k → p.length = c.shmacBlocksize → os.length = bs.length →
      (∀ b ∈ bs, b.length = c.blocksize) → (∀ o ∈ os, o.length = c.blocksize) →
      (∑ a : Digest K, (rest c step perm bs m p a k).chance (tag, os)) / Fintype.card (Digest K) = 1 / 256 ^ (c.shmacBytes + c.blocksize * bs.length)
  | [], os, j, m, p, k, hm, hp, ho, _, _ => by
    have hnil : os = [] := List.eq_nil_of_length_eq_zero ho
    subst hnil
    have hw := M.wide; have hl := M.tag_le
    rw [List.length_nil, Nat.mul_zero, Nat.add_zero, ← sum_piece (K := K) (i := c.shmacDoubleBlocksize - c.shmacBytes) (n := c.shmacBytes) (by omega) (fun _ => tag)
      (fun _ => ht) (fun _ _ => rfl) 1]
    congr 1
    refine Finset.sum_congr rfl fun a _ => ?_
    simp only [rest, Tree.chance, Prod.mk.injEq, and_true]
    rw [tagFrom_eq M.tag_pos hw hl]
  | b :: bs, [], _, _, _, _, _, _, h, _, _ => by simp at h
  | b :: bs, o :: os, j, m, p, k, hm, hp, ho, hb, hob => by
    have ih := fun m' p' k' hi hp' => Machine.rest_chance hwf hs ht bs os (j + 1) m' p' k' hi hp' (by simpa using ho) (fun x hx => hb x (by simp [hx]))
      (fun x hx => hob x (by simp [hx]))
    rw [Finset.sum_congr rfl fun a _ => M.block_chance hm hwf hs hp (hb b (by simp)) ih, ← Finset.sum_mul, mul_div_right_comm,
      M.later hm hwf hs hp (hb b (by simp)) (hob o (by simp)), div_mul_div_comm, one_mul, ← pow_add]
    congr 2
    rw [List.length_cons, Nat.mul_succ]; omega

/-- Every tag and every blocks of the right sizes are equally likely. -/
theorem Machine.whole_chance {mac : Bytes} {keys : κ} (hm : inv 0 mac keys) {tag : Bytes} (ht : tag.length = c.shmacBytes) {bs os : List Bytes} (hne : bs ≠ [])
    (ho : os.length = bs.length) (hb : ∀ b ∈ bs, b.length = c.blocksize) (hob : ∀ o ∈ os, o.length = c.blocksize) :
    (whole c step permOf mac keys bs : HashTree K _).chance (tag, os) = 1 / 256 ^ (c.shmacBytes + c.blocksize * bs.length) := by
  cases bs with
  | nil => exact absurd rfl hne
  | cons b bs =>
    cases os with
    | nil => simp at ho
    | cons o os =>
      rw [whole, Tree.chance]
      have step1 : ∀ a : Digest K, (rest c step (permOf a.1) (b :: bs) mac (a.1.take c.shmacBlocksize) a keys).chance (tag, o :: os) =
          ((step mac (a.1.take c.shmacBlocksize) (a.1.take c.shmacBlocksize) (permOf a.1) keys b).map Prod.fst).chance o
            * (1 / 256 ^ (c.shmacBytes + c.blocksize * bs.length)) := by
        intro a
        obtain ⟨hwf, hs⟩ := M.perm a
        exact M.block_chance hm hwf hs (M.length_last a) (hb b (by simp)) fun m' p' k' hi hp' =>
          M.rest_chance hwf hs ht bs os 0 m' p' k' hi hp' (by simpa using ho) (fun x hx => hb x (by simp [hx])) (fun x hx => hob x (by simp [hx]))
      rw [Finset.sum_congr rfl fun a _ => step1 a, ← Finset.sum_mul, mul_div_right_comm, M.first hm (hb b (by simp)) (hob o (by simp)), div_mul_div_comm, one_mul,
        ← pow_add]
      congr 2
      rw [List.length_cons, Nat.mul_succ]; omega

theorem Machine.past_le {j j' : Nat} (h : j ≤ j') : past j ⊆ past j' := by
  induction h with
  | refl => exact subset_rfl
  | step _ ih => exact ih.trans ((M.past_mid _).trans (M.mid_past _))

theorem Machine.rest_fresh {perm : Chain} (hwf : perm.WF) (hs : perm.size = i) {S : Set Bytes} (hS : ∀ j, ∀ q ∈ past j, q ∉ S) :
    ∀ (bs : List Bytes) (j : Nat) (m p : Bytes) (a : Digest K) (k : κ), inv j m k → p.length = c.shmacBlocksize → (∀ b ∈ bs, b.length = c.blocksize) →
      (rest c step perm bs m p a k).Fresh (S ∪ past j)
  | [], _, _, _, _, _, _, _, _ => trivial
  | b :: bs, j, m, p, a, k, hm, hp, hb => by
    have hl := M.length_last a
    rw [rest]
    refine Tree.Fresh.bindOut (U := mid j) ?_ ((M.fresh hm hwf hs hp hl (hb b (by simp))).union (U := mid j) (fun q hq => hS (j + 1) q (M.mid_past j hq))
      (M.within hm hwf hs hp hl (hb b (by simp)))) (M.within hm hwf hs hp hl (hb b (by simp))) (M.out hm hwf hs hp hl (hb b (by simp)))
    rintro ⟨x, m', k'⟩ ⟨_, hi, hn, hin⟩
    refine ⟨?_, fun a' => ?_⟩
    · rintro ((h | h) | h)
      · exact hS (j + 1) m' hin h
      · exact hn (M.past_mid j h)
      · exact hn h
    · refine (Tree.Fresh.mono ?_ (Machine.rest_fresh hwf hs hS bs (j + 1) m' (a.1.take c.shmacBlocksize) a' k' hi hl fun x hx => hb x (by simp [hx]))).map
      rintro q (rfl | (h | h) | h)
      · exact .inr hin
      · exact .inl h
      · exact .inr (M.mid_past j (M.past_mid j h))
      · exact .inr (M.mid_past j h)

theorem Machine.whole_fresh {mac : Bytes} {keys : κ} (hm : inv 0 mac keys) (hin : mac ∈ past 0) {S : Set Bytes} (hS : ∀ j, ∀ q ∈ past j, q ∉ S)
    (hfirst : past 0 ⊆ {mac}) {bs : List Bytes} (hb : ∀ b ∈ bs, b.length = c.blocksize) : (whole c step permOf mac keys bs : HashTree K _).Fresh S := by
  refine ⟨hS 0 mac hin, fun a => ?_⟩
  obtain ⟨hwf, hs⟩ := M.perm a
  refine Tree.Fresh.mono ?_ (M.rest_fresh hwf hs (S := insert mac S \ past 0) (fun j q hq => ?_) bs 0 mac _ a keys hm (M.length_last a) hb)
  · intro q hq
    by_cases h : q ∈ past 0
    · exact .inr h
    · exact .inl ⟨hq, h⟩
  · rintro ⟨rfl | h, h0⟩
    · exact h0 hin
    · exact hS j q hq h

theorem Machine.rest_within {perm : Chain} (hwf : perm.WF) (hs : perm.size = i) :
    ∀ (bs : List Bytes) (j : Nat) (m p : Bytes) (a : Digest K) (k : κ), inv j m k → p.length = c.shmacBlocksize → (∀ b ∈ bs, b.length = c.blocksize) →
      (rest c step perm bs m p a k).AllIn {q | ∃ j, q ∈ past j}
  | [], _, _, _, _, _, _, _, _ => trivial
  | b :: bs, j, m, p, a, k, hm, hp, hb => by
    have hl := M.length_last a
    rw [rest]
    refine ((M.within hm hwf hs hp hl (hb b (by simp))).mono (fun q hq => (⟨j + 1, M.mid_past j hq⟩ : ∃ j, q ∈ past j))).bindOut ?_ (M.out hm hwf hs hp hl (hb b (by simp)))
    rintro ⟨x, m', k'⟩ ⟨_, hi, hn, hin⟩
    exact ⟨⟨_, hin⟩, fun a' => (Machine.rest_within hwf hs bs (j + 1) m' _ a' k' hi hl fun x hx => hb x (by simp [hx])).map⟩

theorem Machine.whole_within {mac : Bytes} {keys : κ} (hm : inv 0 mac keys) (hin : mac ∈ past 0) {bs : List Bytes} (hb : ∀ b ∈ bs, b.length = c.blocksize) :
    (whole c step permOf mac keys bs : HashTree K _).AllIn {q | ∃ j, q ∈ past j} := by
  refine ⟨⟨0, hin⟩, fun a => ?_⟩
  obtain ⟨hwf, hs⟩ := M.perm a
  exact M.rest_within hwf hs bs 0 mac _ a keys hm (M.length_last a) hb

theorem Machine.rest_out {perm : Chain} (hwf : perm.WF) (hs : perm.size = i) :
    ∀ (bs : List Bytes) (j : Nat) (m p : Bytes) (a : Digest K) (k : κ), inv j m k → p.length = c.shmacBlocksize → (∀ b ∈ bs, b.length = c.blocksize) →
      (rest c step perm bs m p a k).AllOut fun r => r.1.length = c.shmacBytes ∧ r.2.length = bs.length ∧ ∀ o ∈ r.2, o.length = c.blocksize
  | [], _, _, _, a, _, _, _, _ => by
    have := a.2; have := M.wide; have := M.tag_le
    refine ⟨?_, rfl, by simp⟩
    show (tagFrom c a.1).length = _
    rw [tagFrom_eq M.tag_pos M.wide M.tag_le, piece, List.length_take, List.length_drop]; omega
  | b :: bs, j, m, p, a, k, hm, hp, hb => by
    have hl := M.length_last a
    rw [rest]
    refine (M.out hm hwf hs hp hl (hb b (by simp))).bind ?_
    rintro ⟨x, m', k'⟩ ⟨hx, hi, _, _⟩ a'
    refine (Machine.rest_out hwf hs bs (j + 1) m' _ a' k' hi hl fun x hx => hb x (by simp [hx])).bind ?_
    rintro ⟨t, os⟩ ⟨h1, h2, h3⟩
    refine ⟨h1, by simpa using h2, ?_⟩
    intro o ho
    rcases List.mem_cons.1 ho with rfl | ho
    · exact hx
    · exact h3 o ho

theorem Machine.whole_out {mac : Bytes} {keys : κ} (hm : inv 0 mac keys) {bs : List Bytes} (hb : ∀ b ∈ bs, b.length = c.blocksize) :
    (whole c step permOf mac keys bs : HashTree K _).AllOut fun r => r.1.length = c.shmacBytes ∧ r.2.length = bs.length ∧ ∀ o ∈ r.2, o.length = c.blocksize :=
  fun a => M.rest_out (M.perm a).1 (M.perm a).2 bs 0 mac _ a keys hm (M.length_last a) hb

end

end Aiootp.Secrecy
