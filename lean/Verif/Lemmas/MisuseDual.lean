import Verif.Lemmas.Misuse
import Verif.Lemmas.SecrecyDual

/-
The dual-output ciphers when sessions repeat.
-/

namespace Aiootp.Secrecy

open Oracle Cipher Perm

variable {K : Nat}

/-! ### the bytes at even and at odd indexes -/

theorem length_evens : ∀ b : Bytes, (evens b).length = (b.length + 1) / 2
  | [] => rfl
  | [_] => by simp [evens]
  | _ :: _ :: rest => by
    simp only [evens, List.length_cons, length_evens rest]
    omega

theorem length_odds (b : Bytes) : (odds b).length = b.length / 2 := by
  rw [odds, length_evens, List.length_drop]; omega

theorem odds_cons (x y : UInt8) : ∀ rest : Bytes, odds (x :: y :: rest) = y :: odds rest
  | [] => rfl
  | _ :: _ => rfl

/-- Other bytes at the even indexes. -/
def putEvens : Bytes → Bytes → Bytes
  | _ :: y :: rest, s :: t => s :: y :: putEvens rest t
  | rest, _ => rest

/-- Other bytes at the odd indexes. -/
def putOdds : Bytes → Bytes → Bytes
  | x :: _ :: rest, s :: t => x :: s :: putOdds rest t
  | rest, _ => rest

theorem length_putEvens : ∀ b t : Bytes, (putEvens b t).length = b.length
  | [], _ => by simp [putEvens]
  | [_], t => by cases t <;> simp [putEvens]
  | x :: y :: rest, [] => by simp [putEvens]
  | x :: y :: rest, s :: t => by simp [putEvens, length_putEvens rest t]

theorem length_putOdds : ∀ b t : Bytes, (putOdds b t).length = b.length
  | [], _ => by simp [putOdds]
  | [_], t => by cases t <;> simp [putOdds]
  | x :: y :: rest, [] => by simp [putOdds]
  | x :: y :: rest, s :: t => by simp [putOdds, length_putOdds rest t]

theorem exists_two {b : Bytes} {n : Nat} (h : 2 * (n + 1) ≤ b.length) : ∃ x y rest, b = x :: y :: rest ∧ 2 * n ≤ rest.length := by
  match b, h with
  | x :: y :: rest, h => exact ⟨x, y, rest, rfl, by simp at h; omega⟩

theorem evens_lens : ∀ (n : Nat) {b s t : Bytes}, 2 * n ≤ b.length → s.length = n → t.length = n →
    evens ((putEvens b s).take (2 * n)) = s ∧ putEvens (putEvens b s) t = putEvens b t ∧ putEvens b (evens (b.take (2 * n))) = b
  | 0, b, s, t, _, hs, ht => by
    rw [List.eq_nil_of_length_eq_zero hs, List.eq_nil_of_length_eq_zero ht]
    have : ∀ b : Bytes, putEvens b [] = b := fun b => by unfold putEvens; split <;> simp_all
    simp [evens, this]
  | n + 1, b, s :: s', t :: t', hb, hs, ht => by
    obtain ⟨x, y, rest, rfl, hr⟩ := exists_two hb
    obtain ⟨h1, h2, h3⟩ := evens_lens n (b := rest) (s := s') (t := t') hr (by simpa using hs) (by simpa using ht)
    refine ⟨?_, ?_, ?_⟩
    · simp only [putEvens, Nat.mul_succ, List.take_succ_cons, evens, h1]
    · simp only [putEvens, h2]
    · simp only [Nat.mul_succ, List.take_succ_cons, evens, putEvens, h3]

theorem odds_lens : ∀ (n : Nat) {b s t : Bytes}, 2 * n ≤ b.length → s.length = n → t.length = n →
    odds ((putOdds b s).take (2 * n)) = s ∧ putOdds (putOdds b s) t = putOdds b t ∧ putOdds b (odds (b.take (2 * n))) = b
  | 0, b, s, t, _, hs, ht => by
    rw [List.eq_nil_of_length_eq_zero hs, List.eq_nil_of_length_eq_zero ht]
    have : ∀ b : Bytes, putOdds b [] = b := fun b => by unfold putOdds; split <;> simp_all
    simp [odds, evens, this]
  | n + 1, b, s :: s', t :: t', hb, hs, ht => by
    obtain ⟨x, y, rest, rfl, hr⟩ := exists_two hb
    obtain ⟨h1, h2, h3⟩ := odds_lens n (b := rest) (s := s') (t := t') hr (by simpa using hs) (by simpa using ht)
    refine ⟨?_, ?_, ?_⟩
    · simp only [putOdds, Nat.mul_succ, List.take_succ_cons, odds_cons, h1]
    · simp only [putOdds, h2]
    · simp only [Nat.mul_succ, List.take_succ_cons, odds_cons, putOdds, h3]

open Classical in
/-- One in `256 ^ n` digests has a given part of `n` bytes. -/
theorem avg_part {n : Nat} {get : Bytes → Bytes} {put : Bytes → Bytes → Bytes} (hg : ∀ a : Digest K, (get a.1).length = n) (hp : ∀ b t, (put b t).length = b.length)
    (lens : ∀ (a : Digest K) (s t : Bytes), s.length = n → t.length = n → get (put a.1 s) = s ∧ put (put a.1 s) t = put a.1 t ∧ put a.1 (get a.1) = a.1) {w : Bytes} (hw : w.length = n) :
    (∑ a : Digest K, if get a.1 = w then (1 : ℚ) else 0) / Fintype.card (Digest K) = 1 / 256 ^ n := by
  have key : (Finset.univ.filter fun a : Digest K => get a.1 = w).card * 256 ^ n = 256 ^ K := by
    rw [← card_digest (K := n), ← card_digest (K := K), ← Finset.card_univ (α := Digest n), ← Finset.card_univ (α := Digest K), ← Finset.card_product]
    refine Finset.card_bij' (fun p _ => ⟨put p.1.1 p.2.1, (hp _ _).trans p.1.2⟩) (fun a _ => (⟨put a.1 w, (hp _ _).trans a.2⟩, ⟨get a.1, hg a⟩)) ?_ ?_ ?_ ?_
    · intros; exact Finset.mem_univ _
    · intro a _
      simp only [Finset.mem_product, Finset.mem_filter, Finset.mem_univ, true_and, and_true]
      exact (lens a w w hw hw).1
    · rintro ⟨a, s⟩ ha
      simp only [Finset.mem_product, Finset.mem_filter, Finset.mem_univ, true_and, and_true] at ha
      refine Prod.ext (Subtype.ext ?_) (Subtype.ext ?_)
      · simp only
        rw [(lens a s.1 w s.2 hw).2.1, ← ha]
        exact (lens a w w hw hw).2.2
      · exact (lens a s.1 w s.2 hw).1
    · intro a _
      apply Subtype.ext
      simp only
      rw [(lens a w (get a.1) hw (hg a)).2.1]
      exact (lens a w w hw hw).2.2
  rw [← Finset.sum_filter, Finset.sum_const, nsmul_eq_mul, mul_one, card_digest]
  have hc : ((Finset.univ.filter fun a : Digest K => get a.1 = w).card : ℚ) * 256 ^ n = 256 ^ K := by exact_mod_cast key
  have h0 := pow256_ne n
  have hK := pow256_ne K
  push_cast
  rw [← hc]
  have : ((Finset.univ.filter fun a : Digest K => get a.1 = w).card : ℚ) ≠ 0 := fun h => hK (by rw [← hc, h, zero_mul])
  field_simp

open Classical in
theorem avg_evens {n : Nat} (hK : 2 * n ≤ K) {w : Bytes} (hw : w.length = n) :
    (∑ a : Digest K, if evens (a.1.take (2 * n)) = w then (1 : ℚ) else 0) / Fintype.card (Digest K) = 1 / 256 ^ n :=
  avg_part (get := fun b => evens (b.take (2 * n))) (put := putEvens) (fun a => by have := a.2; simp only [length_evens, List.length_take]; omega) length_putEvens
    (fun a s t hs ht => evens_lens n (by rw [a.2]; exact hK) hs ht) hw

open Classical in
theorem avg_odds {n : Nat} (hK : 2 * n ≤ K) {w : Bytes} (hw : w.length = n) :
    (∑ a : Digest K, if odds (a.1.take (2 * n)) = w then (1 : ℚ) else 0) / Fintype.card (Digest K) = 1 / 256 ^ n :=
  avg_part (get := fun b => odds (b.take (2 * n))) (put := putOdds) (fun a => by have := a.2; simp only [length_odds, List.length_take]; omega) length_putOdds
    (fun a s t hs ht => odds_lens n (by rw [a.2]; exact hK) hs ht) hw

/-! ### the first block and the session -/

/-- The time and the siv key that are put before the plaintext. -/
def headerOf (c : Sizes) (r : Request) : Bytes := beDigits c.timestampBytes r.draws.reading.toNat ++ r.draws.sivKey

theorem length_headerOf {c : Sizes} {r : Request} (hv : r.Valid c) : (headerOf c r).length = c.innerHeaderBytes := by
  rw [headerOf, List.length_append, length_beDigits, hv.draws.sivKey]; rfl

theorem headerOf_inj {c : Sizes} {r r' : Request} (hv : r.Valid c) (hv' : r'.Valid c) (hn : r.nonce = r'.nonce) (hs : r.stamp ≠ r'.stamp) : headerOf c r ≠ headerOf c r' := by
  intro e
  obtain ⟨e1, e2⟩ := List.append_inj e (by rw [length_beDigits, length_beDigits])
  have toNat_lt : ∀ {r : Request}, r.Valid c → r.draws.reading.toNat < 256 ^ c.timestampBytes := fun {r} hv => by
    have h1 := hv.draws.reading_lt
    have h2 := hv.draws.reading_nonneg
    zify
    rw [Int.toNat_of_nonneg h2]; exact_mod_cast h1
  have h3 := congrArg fromBE e1
  rw [fromBE_beDigits_of_lt (toNat_lt hv), fromBE_beDigits_of_lt (toNat_lt hv')] at h3
  apply hs
  unfold Request.stamp
  have : r.draws.reading = r'.draws.reading := by
    have h1 := hv.draws.reading_nonneg
    have h2 := hv'.draws.reading_nonneg
    omega
  rw [hn, this, e2]

theorem headerOf_stamp {c : Sizes} {r r' : Request} (h : r.stamp = r'.stamp) : headerOf c r = headerOf c r' := by
  simp only [Request.stamp, Prod.mk.injEq] at h
  rw [headerOf, headerOf, h.2.1, h.2.2]

theorem sessionOf_nonce {k : KdfConfig} {r r' : Request} (h : r.nonce = r'.nonce) : sessionOf k r = sessionOf k r' := by
  simp only [Request.nonce, Prod.mk.injEq] at h
  unfold sessionOf
  rw [h.1, h.2.1, h.2.2.1, h.2.2.2]

theorem first_block {c : Sizes} (hacc : Accepted c) (hle : c.innerHeaderBytes ≤ c.blocksize) {r : Request} (hv : r.Valid c) :
    ∃ b bs, plainBlocks c r = b :: bs ∧ b.take c.innerHeaderBytes = headerOf c r := by
  obtain ⟨padded, hp, hb, hne, hbl, _⟩ := plainBlocks_spec hacc hv
  have hd := hv.draws
  have hst : c.startPadding r.draws.reading r.draws.sivKey = .ok (beDigits c.timestampBytes r.draws.reading.toNat ++ r.draws.sivKey) :=
    Sizes.startPadding_ok.2 ⟨hd.reading_nonneg, hd.reading_lt, rfl⟩
  unfold Sizes.padPlaintext at hp
  rw [hst] at hp
  simp only [bind_eq_ok, pure, Except.pure, Except.ok.injEq] at hp
  obtain ⟨x, rfl, y, _, rfl⟩ := hp
  have hpne : beDigits c.timestampBytes r.draws.reading.toNat ++ r.draws.sivKey ++ r.data ++ y ≠ [] := by
    intro e
    rw [hb, e] at hne
    exact hne (by simp [Text.batch])
  rw [hb, Text.batch_cons hpne hacc.blocksize_pos]
  refine ⟨_, _, rfl, ?_⟩
  rw [List.take_take, Nat.min_eq_left hle, List.append_assoc]
  exact List.take_left' (length_headerOf hv)

/-! ### sessions that repeat -/

/-- What begins with these bytes. -/
def extending (x : Bytes) : Set Bytes := {q | ∃ w, q = x ++ w}

theorem self_extending (x : Bytes) : x ∈ extending x := ⟨[], by simp⟩

theorem extending_append (x w : Bytes) : x ++ w ∈ extending x := ⟨w, rfl⟩

section
variable {E : DualEnv} (h : DualSetup E) {n : Nat} (hsep : Separated E n) (hK : E.cfg.primerKeyBytes (5 * E.cfg.innerHeaderBytes) ≤ K)

def dualPart (E : DualEnv) (r : Request) (e : Digest n × Digest n) : Set Bytes :=
  extending (sessionOf E.shmacKdf r ++ headerOf E.cfg r) ∪ (extending (sessionOf E.leftKdf r ++ e.1.1) ∪ extending (sessionOf E.rightKdf r ++ e.2.1))

def dualAfter (E : DualEnv) (r : Request) (a : Digest K) : HashTree K Bytes :=
  (rest E.cfg (dualStep E) (permFrom E.toEnv E.cfg.innerHeaderBytes a.1) (plainBlocks E.cfg r) (sessionOf E.shmacKdf r) (a.1.take E.cfg.shmacBlocksize) a
    ⟨sessionOf E.leftKdf r, sessionOf E.rightKdf r, false⟩).map fun x => x.1 ++ r.usedSalt ++ r.draws.iv ++ x.2.flatten

theorem dual_message (E : DualEnv) (r : Request) :
    (message E.cfg (dualStep E) (permFrom E.toEnv E.cfg.innerHeaderBytes) (sessionOf E.shmacKdf r) ⟨sessionOf E.leftKdf r, sessionOf E.rightKdf r, false⟩ r : HashTree K Bytes) =
      .ask (sessionOf E.shmacKdf r) (dualAfter E r) := rfl

include h hsep

theorem dual_apart {r r' : Request} (hv : r.Valid E.cfg) (hv' : r'.Valid E.cfg) :
    Apart (sessionOf E.shmacKdf r) (sessionOf E.leftKdf r') ∧ Apart (sessionOf E.shmacKdf r) (sessionOf E.rightKdf r') ∧ Apart (sessionOf E.leftKdf r) (sessionOf E.rightKdf r') := by
  have u := h.usable
  have diff : ∀ {f g x y : Bytes}, f.length = g.length → f ≠ g → (∃ w, x = f ++ w) → (∃ w, y = g ++ w) → Apart x y := by
    rintro f g _ _ hl hne ⟨w, rfl⟩ ⟨w', rfl⟩ v v' e
    rw [List.append_assoc, List.append_assoc] at e
    exact hne (List.append_inj e hl).1
  obtain ⟨a, ha⟩ := sessionOf_key (k := E.shmacKdf) u.env.kdf h.salt_lt h.iv_lt hv
  obtain ⟨b, hb⟩ := sessionOf_key (k := E.leftKdf) h.sides.1 h.salt_lt h.iv_lt hv
  obtain ⟨b', hb'⟩ := sessionOf_key (k := E.leftKdf) h.sides.1 h.salt_lt h.iv_lt hv'
  obtain ⟨c', hc'⟩ := sessionOf_key (k := E.rightKdf) h.sides.2 h.salt_lt h.iv_lt hv'
  rw [List.append_assoc] at ha hb hb' hc'
  exact ⟨diff hsep.left_length.symm hsep.left_ne ⟨_, ha⟩ ⟨_, hb'⟩, diff hsep.right_length.symm hsep.right_ne ⟨_, ha⟩ ⟨_, hc'⟩,
    diff (hsep.left_length.trans hsep.right_length.symm) hsep.sides_ne ⟨_, hb⟩ ⟨_, hc'⟩⟩

omit hsep in
/-- Pieces of the same size that follow the sessions of requests: they are the same only if the sessions are. -/
theorem follow_apart {k : KdfConfig} (hk : k.WF) {r r' : Request} (hv : r.Valid E.cfg) (hv' : r'.Valid E.cfg) (hl : r'.key.length = r.key.length) {x x' : Bytes}
    (hx : x.length = x'.length) (hne : r'.nonce = r.nonce → x ≠ x') (w w' : Bytes) : sessionOf k r ++ x ++ w ≠ sessionOf k r' ++ x' ++ w' := by
  intro e
  by_cases hn : r'.nonce = r.nonce
  · rw [sessionOf_nonce hn, List.append_assoc, List.append_assoc, List.append_cancel_left_eq] at e
    exact hne hn (List.append_inj e hx).1
  · rw [List.append_assoc, List.append_assoc] at e
    exact sessions_apart hk h.salt_lt h.iv_lt hv hv' hl.symm (fun e => hn e.symm) _ _ e

theorem dual_new {r : Request} (hv : r.Valid E.cfg) {hist : List (Request × (Digest n × Digest n))} {P : Set Bytes}
    (old : ∀ e ∈ hist, e.1.Valid E.cfg ∧ e.1.key.length = r.key.length ∧ e.1.stamp ≠ r.stamp)
    (macs : ∀ q ∈ P, ∃ r' : Request, r'.Valid E.cfg ∧ r'.key.length = r.key.length ∧ q = sessionOf E.shmacKdf r') :
    (∀ w, sessionOf E.shmacKdf r ++ headerOf E.cfg r ++ w ∉ pastOf (dualPart E) P hist) ∧
    ∀ e : Digest n × Digest n, (∀ x ∈ hist, x.2.1 ≠ e.1 ∧ x.2.2 ≠ e.2) → ∀ q ∈ dualPart E r e, q ∉ pastOf (dualPart E) P hist := by
  have u := h.usable
  have hpos := h.wf.header_pos
  have first : ∀ w, sessionOf E.shmacKdf r ++ headerOf E.cfg r ++ w ∉ pastOf (dualPart E) P hist := by
    rintro w (hq | ⟨⟨r', l', g'⟩, hx, hq⟩)
    · obtain ⟨r', hv', hl, e⟩ := macs _ hq
      by_cases hn : r'.nonce = r.nonce
      · rw [sessionOf_nonce hn] at e
        have := congrArg List.length e
        simp only [List.length_append, length_headerOf hv] at this
        omega
      · refine sessions_apart u.env.kdf h.salt_lt h.iv_lt hv hv' hl.symm (fun e => hn e.symm) (headerOf E.cfg r ++ w) [] ?_
        rw [← List.append_assoc, List.append_nil]
        exact e
    · obtain ⟨hv', hl, hs⟩ := old _ hx
      simp only at hv' hl hs
      rcases hq with ⟨w', e⟩ | ⟨w', e⟩ | ⟨w', e⟩
      · refine follow_apart h u.env.kdf hv hv' hl (by rw [length_headerOf hv, length_headerOf hv']) (fun hn => ?_) w w' e
        exact headerOf_inj hv hv' hn.symm (fun e => hs e.symm)
      · rw [List.append_assoc, List.append_assoc] at e
        exact (dual_apart h hsep hv hv').1 _ _ e
      · rw [List.append_assoc, List.append_assoc] at e
        exact (dual_apart h hsep hv hv').2.1 _ _ e
  refine ⟨first, ?_⟩
  rintro e hne q (⟨w, rfl⟩ | ⟨w, rfl⟩ | ⟨w, rfl⟩) hq
  · exact first w hq
  · rcases hq with hq | ⟨⟨r', l', g'⟩, hx, hq⟩
    · obtain ⟨r', hv', hl, e'⟩ := macs _ hq
      refine (dual_apart h hsep hv' hv).1 [] (e.1.1 ++ w) ?_
      rw [List.append_nil, ← e', List.append_assoc]
    · obtain ⟨hv', hl, hs⟩ := old _ hx
      simp only at hv' hl hs
      rcases hq with ⟨w', e'⟩ | ⟨w', e'⟩ | ⟨w', e'⟩
      · rw [List.append_assoc, List.append_assoc] at e'
        exact (dual_apart h hsep hv' hv).1 _ _ e'.symm
      · exact follow_apart h h.sides.1 hv hv' hl (by rw [e.1.2, l'.2]) (fun _ he => (hne _ hx).1 (Subtype.ext he.symm)) w w' e'
      · rw [List.append_assoc, List.append_assoc] at e'
        exact (dual_apart h hsep hv hv').2.2 _ _ e'
  · rcases hq with hq | ⟨⟨r', l', g'⟩, hx, hq⟩
    · obtain ⟨r', hv', hl, e'⟩ := macs _ hq
      refine (dual_apart h hsep hv' hv).2.1 [] (e.2.1 ++ w) ?_
      rw [List.append_nil, ← e', List.append_assoc]
    · obtain ⟨hv', hl, hs⟩ := old _ hx
      simp only at hv' hl hs
      rcases hq with ⟨w', e'⟩ | ⟨w', e'⟩ | ⟨w', e'⟩
      · rw [List.append_assoc, List.append_assoc] at e'
        exact (dual_apart h hsep hv' hv).2.1 _ _ e'.symm
      · rw [List.append_assoc, List.append_assoc] at e'
        exact (dual_apart h hsep hv' hv).2.2 _ _ e'.symm
      · exact follow_apart h h.sides.2 hv hv' hl (by rw [e.2.2, g'.2]) (fun _ he => (hne _ hx).2 (Subtype.ext he.symm)) w w' e'

omit h hsep in
/-- After the first block, all that is asked extends what was asked. -/
theorem rest_extends (E : DualEnv) {perm : Chain} {M L R : Bytes} : ∀ (bs : List Bytes) (m p : Bytes) (a : Digest K) (k : DualKeys), k.started = true → m ∈ extending M →
    k.left ∈ extending L → k.right ∈ extending R → (rest E.cfg (dualStep E) perm bs m p a k).AllIn (extending M ∪ (extending L ∪ extending R))
  | [], _, _, _, _, _, _, _, _ => trivial
  | b :: bs, m, p, a, k, hst, hm, hl, hr => by
    have more : ∀ {x y w : Bytes}, y ∈ extending x → y ++ w ∈ extending x := by
      rintro x _ w ⟨v, rfl⟩
      exact ⟨v ++ w, by simp⟩
    rw [rest]
    unfold dualStep
    rw [hst]
    refine ⟨.inr (.inl (more hl)), fun al => ⟨.inr (.inr (more hr)), fun ar => ⟨.inl (more hm), fun a' => Tree.AllIn.map ?_⟩⟩⟩
    exact rest_extends E bs _ _ a' _ hst (more hm) (more hl) (more hr)

omit h hsep in
theorem allOut_map {α β : Type} {Q : β → Prop} {f : α → β} (hf : ∀ x, Q (f x)) : ∀ t : HashTree K α, (t.map f).AllOut Q
  | .done x => hf x
  | .ask _ next => fun a => allOut_map hf (next a)

include hK

theorem dual_rest_same {r : Request} (hv : r.Valid E.cfg) {b b' : Bytes} {bs bs' : List Bytes} (hl : bs'.length = bs.length)
    (hb : ∀ x ∈ b :: bs, x.length = E.cfg.blocksize) (hb' : ∀ x ∈ b' :: bs', x.length = E.cfg.blocksize) (he : b'.take E.cfg.innerHeaderBytes = b.take E.cfg.innerHeaderBytes) (a : Digest K) :
    Tree.Same (· = ·)
      (rest E.cfg (dualStep E) (permFrom E.toEnv E.cfg.innerHeaderBytes a.1) (b :: bs) (sessionOf E.shmacKdf r) (a.1.take E.cfg.shmacBlocksize) a
        ⟨sessionOf E.leftKdf r, sessionOf E.rightKdf r, false⟩)
      (rest E.cfg (dualStep E) (permFrom E.toEnv E.cfg.innerHeaderBytes a.1) (b' :: bs') (sessionOf E.shmacKdf r) (a.1.take E.cfg.shmacBlocksize) a
        ⟨sessionOf E.leftKdf r, sessionOf E.rightKdf r, false⟩) := by
  obtain ⟨a1, a2, a3⟩ := dual_apart h hsep hv hv
  have M := dual_machine (K := K) h hsep.bytes hsep.pos hK a1 a2 a3
  have h0 : DualInv E n (sessionOf E.shmacKdf r) (sessionOf E.leftKdf r) (sessionOf E.rightKdf r) 0 (sessionOf E.shmacKdf r)
      ⟨sessionOf E.leftKdf r, sessionOf E.rightKdf r, false⟩ := ⟨rfl, ⟨[], by simp, rfl⟩, ⟨[], by simp, rfl⟩, ⟨[], by simp, rfl⟩⟩
  obtain ⟨hwf, hs⟩ := M.perm a
  have hmask : dualMask E.cfg (permFrom E.toEnv E.cfg.innerHeaderBytes a.1) b' = dualMask E.cfg (permFrom E.toEnv E.cfg.innerHeaderBytes a.1) b := by unfold dualMask; rw [he]
  let L : Bytes × List Bytes → Prop := fun o => (o.1.length = E.cfg.shmacBytes ∧ o.2.length = bs.length + 1 ∧ ∀ x ∈ o.2, x.length = E.cfg.blocksize) ∧
    ∃ f os, o.2 = f :: os ∧ f.take E.cfg.innerHeaderBytes = dualMask E.cfg (permFrom E.toEnv E.cfg.innerHeaderBytes a.1) b
  have out : ∀ {b : Bytes} {bs' : List Bytes}, bs'.length = bs.length → (∀ x ∈ b :: bs', x.length = E.cfg.blocksize) →
      (rest E.cfg (dualStep E) (permFrom E.toEnv E.cfg.innerHeaderBytes a.1) (b :: bs') (sessionOf E.shmacKdf r) (a.1.take E.cfg.shmacBlocksize) a
        ⟨sessionOf E.leftKdf r, sessionOf E.rightKdf r, false⟩).AllOut fun o => (o.1.length = E.cfg.shmacBytes ∧ o.2.length = bs.length + 1 ∧ ∀ x ∈ o.2, x.length = E.cfg.blocksize) ∧
    ∃ f os, o.2 = f :: os ∧ f.take E.cfg.innerHeaderBytes = dualMask E.cfg (permFrom E.toEnv E.cfg.innerHeaderBytes a.1) b := by
    intro b bs' hl hb
    refine Tree.AllOut.and ((M.rest_out hwf hs (b :: bs') 0 _ _ a _ h0 (M.length_last a) hb).mono fun o ho => ⟨ho.1, by rw [ho.2.1, List.length_cons, hl], ho.2.2⟩) ?_
    rw [rest]
    refine Tree.AllOut.bind (P := fun x => ∃ u, x.1 = dualMask E.cfg (permFrom E.toEnv E.cfg.innerHeaderBytes a.1) b ++ u) ?_ ?_
    · rintro ⟨f, m', k'⟩ ⟨u, hu⟩ a'
      refine allOut_map (fun x => ⟨f, x.2, rfl, ?_⟩) _
      simp only at hu
      rw [hu, List.take_left' (dualMask_length ..)]
    · exact fun a al ar => ⟨_, rfl⟩
  have ch : ∀ {b : Bytes} {bs' : List Bytes}, bs'.length = bs.length → (∀ x ∈ b :: bs', x.length = E.cfg.blocksize) → ∀ o : Bytes × List Bytes,
      ((o.1.length = E.cfg.shmacBytes ∧ o.2.length = bs.length + 1 ∧ ∀ x ∈ o.2, x.length = E.cfg.blocksize) ∧
        ∃ f os, o.2 = f :: os ∧ f.take E.cfg.innerHeaderBytes = dualMask E.cfg (permFrom E.toEnv E.cfg.innerHeaderBytes a.1) b) →
      ((rest E.cfg (dualStep E) (permFrom E.toEnv E.cfg.innerHeaderBytes a.1) (b :: bs') (sessionOf E.shmacKdf r) (a.1.take E.cfg.shmacBlocksize) a
        ⟨sessionOf E.leftKdf r, sessionOf E.rightKdf r, false⟩ : HashTree K _).map id).chance o =
      1 / 256 ^ (E.cfg.blocksize - E.cfg.innerHeaderBytes) * (1 / 256 ^ (E.cfg.shmacBytes + E.cfg.blocksize * bs.length)) := by
    rintro b bs' hl hb ⟨tag, _⟩ ⟨⟨o1, o2, o3⟩, f, os, rfl, hf⟩
    simp only at o1 o2 o3
    rw [Tree.chance_map_cons (g := id) (x := (tag, f :: os)) (fun y => Iff.rfl)]
    rw [M.block_chance (r := 1 / 256 ^ (E.cfg.shmacBytes + E.cfg.blocksize * bs.length)) h0 hwf hs (M.length_last a) (hb b (by simp)) fun m' p' k' hi hp' => ?_,
      dual_first_chance h hK rfl (hb b (by simp)) (o3 f (by simp)), if_pos hf.symm]
    rw [← hl]
    exact M.rest_chance hwf hs o1 bs' os 0 m' p' k' hi hp' (by rw [hl]; simpa using o2) (fun x hx => hb x (by simp [hx])) (fun x hx => o3 x (by simp [hx]))
  have key := Tree.Same.uniform (P := fun _ => True) (P' := fun _ => True) (L := L) (g := id) (g' := id)
    (r := 1 / 256 ^ (E.cfg.blocksize - E.cfg.innerHeaderBytes) * (1 / 256 ^ (E.cfg.shmacBytes + E.cfg.blocksize * bs.length)))
    (mul_ne_zero (one_div_ne_zero (pow256_ne _)) (one_div_ne_zero (pow256_ne _))) ((out rfl hb).mono fun o ho => ⟨trivial, ho⟩)
    ((out hl hb').mono fun o ho => ⟨trivial, by rw [hmask] at ho; exact ho⟩) (fun o ho => ch rfl hb o ho) (fun o ho => ch hl hb' o (by rw [hmask]; exact ho))
  exact key.mono fun x x' hx => hx.2.2

end

end Aiootp.Secrecy
