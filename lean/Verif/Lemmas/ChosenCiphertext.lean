import Verif.Spec.ChosenCiphertext
import Verif.Lemmas.Forgery
import Verif.Lemmas.OracleMean
import Verif.Lemmas.SecrecyGame

/-
Players who see what is decrypted learn as much as those to whom all decryptions are refused, unless they guess a tag.
-/

namespace Aiootp.Secrecy

open Cipher Oracle

variable {K : Nat}

/-! ### plays in which all decryptions are refused -/

/-- What is raised for a ciphertext that is not authentic. -/
def refusal (c : Sizes) (a : Attempt) : Err :=
  match Ciphertext.parse c a.data with
  | .ok _ => .invalidSHMAC
  | .error e => e

theorem refusal_length {c : Sizes} (hacc : Accepted c) {a a' : Attempt} (h : a.data.length = a'.data.length) : refusal c a = refusal c a' := by
  have key : ∀ d d' : Bytes, d.length = d'.length → ∀ parts, Ciphertext.parse c d = .ok parts → ∃ parts', Ciphertext.parse c d' = .ok parts' := by
    intro d d' hd parts hp
    unfold Ciphertext.parse at hp ⊢
    rw [← hd]
    by_cases hc : (d.length : Int) - c.headerBytes ≤ 0 ∨ ((d.length : Int) - c.headerBytes) % c.blocksize ≠ 0
    · simp only [if_pos hc] at hp
      cases hp
    · simp only [if_neg hc]
      exact ⟨_, rfl⟩
  unfold refusal
  cases hp : Ciphertext.parse c a.data with
  | ok parts =>
    obtain ⟨parts', hp'⟩ := key _ _ h _ hp
    rw [hp']
  | error e =>
    cases hp' : Ciphertext.parse c a'.data with
    | ok parts =>
      obtain ⟨parts', hp''⟩ := key _ _ h.symm _ hp'
      rw [hp] at hp''
      cases hp''
    | error e' =>
      simp only
      rw [(C25_parts hacc _).2 e hp, (C25_parts hacc _).2 e' hp']

/-- The attempt of the `j`-th decryption (from 0) of a play in which they are refused, and what was seen before. -/
def nth (c : Sizes) (encrypt : Request → Except Err Bytes) (p : Player) : (n j : Nat) → (seen : List Answer) → Option (List Answer × Attempt)
  | 0, _, _ => none
  | n + 1, j, seen =>
    match p seen with
    | .encrypt r => nth c encrypt p n j (seen ++ [.sent (encrypt r)])
    | .decrypt a =>
      match j with
      | 0 => some (seen, a)
      | j + 1 => nth c encrypt p n j (seen ++ [.opened (.error (refusal c a))])

/-- If all are refused, then the play is that in which they are. -/
theorem play_refused {c : Sizes} {encrypt : Request → Except Err Bytes} {decrypt : Attempt → Except Err Bytes} {p : Player} :
    ∀ (n : Nat) (seen : List Answer), (∀ j pre a, nth c encrypt p n j seen = some (pre, a) → decrypt a = .error (refusal c a)) →
      play encrypt decrypt p n seen = play encrypt (fun a => .error (refusal c a)) p n seen
  | 0, _, _ => rfl
  | n + 1, seen, h => by
    rw [play, play]
    cases hp : p seen with
    | encrypt r =>
      refine play_refused n _ fun j pre a hj => h j pre a ?_
      rw [nth, hp]
      exact hj
    | decrypt a =>
      have h0 : decrypt a = .error (refusal c a) := h 0 seen a (by rw [nth, hp])
      simp only [Move.answer, h0]
      refine play_refused n _ fun j pre a' hj => h (j + 1) pre a' ?_
      rw [nth, hp]
      exact hj

theorem nth_lt {c : Sizes} {encrypt : Request → Except Err Bytes} {p : Player} : ∀ (n j q : Nat) (seen : List Answer), p.AtMost n seen q → ∀ {x}, nth c encrypt p n j seen = some x → j < q
  | 0, _, _, _, _, _, h => by simp [nth] at h
  | n + 1, j, q, seen, hq, x, h => by
    rw [Player.AtMost] at hq
    rw [nth] at h
    cases hp : p seen with
    | encrypt r =>
      rw [hp] at hq h
      exact nth_lt n j q _ (hq _) h
    | decrypt a =>
      rw [hp] at hq h
      cases j with
      | zero => exact hq.1
      | succ j =>
        have := nth_lt n j (q - 1) _ (hq.2 _) h
        have := hq.1
        omega

theorem nth_spec {c : Sizes} {encrypt : Request → Except Err Bytes} {p : Player} : ∀ (n j : Nat) (seen : List Answer) {pre a}, nth c encrypt p n j seen = some (pre, a) →
    p pre = .decrypt a ∧ ∃ rest, pre = seen ++ rest
  | 0, _, _, _, _, h => by simp [nth] at h
  | n + 1, j, seen, pre, a, h => by
    rw [nth] at h
    cases hp : p seen with
    | encrypt r =>
      rw [hp] at h
      obtain ⟨h1, rest, rfl⟩ := nth_spec n j _ h
      exact ⟨h1, _, List.append_assoc _ _ _⟩
    | decrypt a' =>
      rw [hp] at h
      cases j with
      | zero =>
        simp only [Option.some.injEq, Prod.mk.injEq] at h
        obtain ⟨rfl, rfl⟩ := h
        exact ⟨hp, [], (List.append_nil _).symm⟩
      | succ j =>
        obtain ⟨h1, rest, rfl⟩ := nth_spec n j _ h
        exact ⟨h1, _, List.append_assoc _ _ _⟩

/-- It depends on the messages before only. -/
theorem nth_congr {c : Sizes} {e e' : Request → Except Err Bytes} {p : Player} : ∀ (n j : Nat) (seen : List Answer) {pre a}, nth c e p n j seen = some (pre, a) →
    (∀ seen' r rest, p seen' = .encrypt r → pre = seen' ++ .sent (e r) :: rest → e' r = e r) → nth c e' p n j seen = some (pre, a)
  | 0, _, _, _, _, h, _ => by simp [nth] at h
  | n + 1, j, seen, pre, a, h, he => by
    rw [nth] at h ⊢
    cases hp : p seen with
    | encrypt r =>
      rw [hp] at h
      simp only at h ⊢
      obtain ⟨_, rest, hr⟩ := nth_spec n j _ h
      rw [he seen r rest hp (by rw [hr]; simp)]
      exact nth_congr n j _ h he
    | decrypt a' =>
      rw [hp] at h
      cases j with
      | zero => exact h
      | succ j => exact nth_congr n j _ h he

theorem nth_finite {c : Sizes} {e : Xof → Request → Except Err Bytes} {p : Player} (hlen : ∀ seen r, p seen = .encrypt r → ∃ n, ∀ x, ∃ m : Bytes, e x r = .ok m ∧ m.length = n) :
    ∀ (n j : Nat) (seen : List Answer), {y | ∃ x, nth c (e x) p n j seen = some y}.Finite
  | 0, _, _ => by simp [nth]
  | n + 1, j, seen => by
    cases hp : p seen with
    | encrypt r =>
      obtain ⟨k, hk⟩ := hlen seen r hp
      refine (Set.Finite.biUnion (List.finite_length_eq UInt8 k) fun m _ => nth_finite (c := c) hlen n j (seen ++ [.sent (.ok m)])).subset ?_
      rintro y ⟨x, h⟩
      rw [nth, hp] at h
      obtain ⟨m, hm, hl⟩ := hk x
      simp only [hm] at h
      exact Set.mem_biUnion (show m ∈ {l : List UInt8 | l.length = k} from hl) ⟨x, h⟩
    | decrypt a =>
      cases j with
      | zero =>
        refine (Set.finite_singleton (seen, a)).subset ?_
        rintro y ⟨x, h⟩
        rw [nth, hp] at h
        exact (Option.some.inj h).symm
      | succ j =>
        refine (nth_finite (c := c) hlen n j (seen ++ [.opened (.error (refusal c a))])).subset ?_
        rintro y ⟨x, h⟩
        rw [nth, hp] at h
        exact ⟨x, h⟩

/-! ### the chance that one gets through -/

section
variable {κ : Type} {F : Family κ} (L : Lawful F)

theorem not_passes {x : Xof} {a : Attempt} (hv : a.Valid F.E.cfg) (h : ¬ Passes ((F.at x).bytesDecrypt a.key a.saltDraw a.now a.ttl a.aad a.data)) (L : Lawful F) :
    (F.at x).bytesDecrypt a.key a.saltDraw a.now a.ttl a.aad a.data = .error (refusal F.E.cfg a) := by
  obtain ⟨hbad, hgood⟩ := tag_checked (L.sound x) (L.usable x) hv.key_ge hv.key_lt hv.saltDraw hv.aad a.data
  unfold refusal
  cases hp : Ciphertext.parse F.E.cfg a.data with
  | error e =>
    simp only
    rw [hbad e hp _ _, (C25_parts (family_accepted L x) a.data).2 e hp]
  | ok parts =>
    obtain ⟨padded, q, hrec, hc⟩ := hgood parts hp
    simp only
    by_cases he : parts.shmac = Shmac.tagOf (rehash F.E x) q
    · exfalso
      refine h ?_
      rw [(hc a.now a.ttl).2 he]
      unfold Sizes.depadPlaintext Clock.testTimestamp
      cases a.ttl with
      | none => exact ⟨by rintro ⟨⟩, by rintro ⟨⟩⟩
      | some ttl =>
        simp only
        split
        · exact ⟨by rintro ⟨⟩, by rintro ⟨⟩⟩
        · exact ⟨by rintro ⟨⟩, by rintro ⟨⟩⟩
    · exact (hc _ _).1 he

include L in
theorem encrypt_ok (x : Xof) (r : Request) (hr : r.Valid F.E.cfg) : ∃ m, (F.at x).bytesEncrypt r.key r.draws r.salt r.aad r.data = .ok m := by
  have u := L.usable x
  have hacc := family_accepted L x
  obtain ⟨pt, hpad, _, hdv⟩ := padPlaintext_blocks hacc hr.draws r.data
  have hsl : (usedSalt r.salt r.draws.salt).length = F.E.cfg.saltBytes := by rw [usedSalt_eq]; exact hr.salt
  obtain ⟨Ps, Xs, m, p, c, perm, keys, _, _, _, _, h5, h6, _⟩ := process_ok (L.sound x) u (show minKeyBytes ≤ r.key.length from hr.key_ge) hr.key_lt hsl hr.aad hr.draws.iv .encryption
    (Text.batch F.E.cfg.blocksize pt) (batch_blocks_of_dvd hacc.blocksize_pos hdv)
  simp only at h5
  subst h5
  unfold Cipher.bytesEncrypt
  rw [SaltAADIV.new_fresh (c := (F.at x).cfg) (aad := r.aad) hsl hr.draws.iv, show (F.at x).cfg.padPlaintext r.draws.reading r.draws.sivKey r.draws.extra r.data = .ok pt from hpad]
  simp only [bind_eq_ok] at h6
  obtain ⟨s, hs1, hs2⟩ := h6
  simp only [bind, Except.bind, hs1]
  rw [show (F.at x).cfg.blocksize = F.E.cfg.blocksize from rfl, hs2]
  simp only [Shmac.finalize_live, pure, Except.pure]
  exact ⟨_, rfl⟩

/-- The `j`-th decryption, if those before are refused, gets through. -/
def Wins (F : Family κ) (x : Xof) (p : Player) (n j : Nat) : Prop :=
  ∃ pre a, nth F.E.cfg (fun r => (F.at x).bytesEncrypt r.key r.draws r.salt r.aad r.data) p n j [] = some (pre, a) ∧
    Passes ((F.at x).bytesDecrypt a.key a.saltDraw a.now a.ttl a.aad a.data)

theorem count_cases {D : Finset Bytes} {P Q R : Hash D K → Prop} (h : ∀ T, R T → P T ∨ Q T) : count R ≤ count P + count Q := (count_mono h).trans (count_or P Q)

include L in
open Classical in
theorem forged_nth (hK : 2 * F.E.cfg.shmacBlocksize ≤ K) (htag : F.E.cfg.shmacBytes ≤ F.E.cfg.shmacBlocksize) (htag0 : 0 < F.E.cfg.shmacBytes) {p : Player} {n : Nat} (fair : p.Fair F.E.cfg n) (known : Xof) (j : Nat) :
    ∃ D0 : Finset Bytes, (∀ q ∈ D0, ∃ seen w, q = F.E.shmacKdf.factory ++ (p seen).key ++ w) ∧ ∀ D, D0 ⊆ D →
      count (fun T : Hash D K => Wins F (T.xof known) p n j) * 256 ^ F.E.cfg.shmacBytes ≤ total D K := by
  have hfin := nth_finite (c := F.E.cfg) (e := fun x r => (F.at x).bytesEncrypt r.key r.draws r.salt r.aad r.data) (p := p) (fun seen r hr => by
    obtain ⟨k, hk⟩ := encrypt_length L (fair.valid seen r hr)
    refine ⟨k, fun x => ?_⟩
    obtain ⟨m, hm⟩ := encrypt_ok L x r (fair.valid seen r hr)
    exact ⟨m, hm, hk x m hm⟩) n j []
  have hfin2 : (⋃ y ∈ {y | ∃ x, nth F.E.cfg (fun r => (F.at x).bytesEncrypt r.key r.draws r.salt r.aad r.data) p n j [] = some y}, finals L y.2).Finite :=
    hfin.biUnion fun y _ => finals_finite L y.2
  refine ⟨hfin2.toFinset, fun q hq => ?_, fun D hD => ?_⟩
  · rw [Set.Finite.mem_toFinset] at hq
    simp only [Set.mem_iUnion] at hq
    obtain ⟨⟨pre, a⟩, ⟨x, hx⟩, hq⟩ := hq
    have hp := (nth_spec n j [] hx).1
    obtain ⟨w, e⟩ := finals_key L known (fair.valid' pre a hp) q hq
    exact ⟨pre, w, by rw [hp]; exact e⟩
  have hi : 2 * F.E.cfg.shmacBlocksize - F.E.cfg.shmacBytes + F.E.cfg.shmacBytes ≤ K := by omega
  let view : Hash D K → Option (D × Digest F.E.cfg.shmacBytes) := fun T =>
    match nth F.E.cfg (fun r => (F.at (T.xof known)).bytesEncrypt r.key r.draws r.salt r.aad r.data) p n j [] with
    | none => none
    | some (_, a) => match target F (T.xof known) a with
      | none => none
      | some (q, v) => if h : q ∈ D ∧ v.length = F.E.cfg.shmacBytes then some (⟨q, h.1⟩, ⟨v, h.2⟩) else none
  refine count_tag hi _ view fun T hT => ?_
  obtain ⟨pre, a, hnth, hpass⟩ := hT
  have hmove := (nth_spec n j [] hnth).1
  have hv := fair.valid' pre a hmove
  have u := L.usable (T.xof known)
  obtain ⟨hbad, hgood⟩ := tag_checked (L.sound (T.xof known)) u hv.key_ge hv.key_lt hv.saltDraw hv.aad a.data
  cases hp : Ciphertext.parse F.E.cfg a.data with
  | error e => exact absurd (hbad e hp _ _) hpass.2
  | ok parts =>
    obtain ⟨padded, q, hrec, hc⟩ := hgood parts hp
    have hshmac : parts.shmac = Shmac.tagOf (rehash F.E (T.xof known)) q :=
      Classical.byContradiction fun hne => hpass.1 ((hc _ _).1 hne)
    obtain ⟨⟨w, hq, hwl, _, _⟩, hsame⟩ := hashed_form L (T.xof known) hv hp hrec
    have hqD : q ∈ D := by
      refine hD ((Set.Finite.mem_toFinset hfin2).2 (Set.mem_biUnion (show (pre, a) ∈ {y | _} from ⟨_, hnth⟩) ?_))
      unfold finals
      rw [hp]
      exact ⟨w, hwl, hq.symm⟩
    obtain ⟨_, h1, _⟩ := (C25_parts (family_accepted L known) a.data).1 parts hp
    refine ⟨⟨q, hqD⟩, ⟨parts.shmac, h1⟩, ?_, ?_, fun s => ?_⟩
    · simp only [view]
      rw [hnth]
      simp only [target_some hp hrec]
      rw [dif_pos ⟨hqD, h1⟩]
    · simp only
      rw [hshmac]
      exact tag_piece hK htag htag0 known T ⟨q, hqD⟩
    · have hsb := (patch_same hi known T ⟨q, hqD⟩ s).mono (k' := F.E.cfg.shmacBlocksize) (by omega)
      have hnth' : nth F.E.cfg (fun r => (F.at ((patch _ _ hi T ⟨q, hqD⟩ s).xof known)).bytesEncrypt r.key r.draws r.salt r.aad r.data) p n j [] = some (pre, a) := by
        refine nth_congr n j [] hnth fun seen r rest hr e => ?_
        have hl : r.key.length = a.key.length := by
          have := fair.size seen pre
          rwa [hr, hmove] at this
        refine encrypt_same L hsb (fair.valid seen r hr) hv (.inl hl) hp hrec hshmac fun message hmess => ?_
        refine fair.new seen message rest r a hr ?_
        rw [← hmess, ← e]
        exact hmove
      simp only [view]
      rw [hnth']
      simp only [target_some hp (hsame _ hsb)]
      rw [dif_pos ⟨hqD, h1⟩]

include L in
theorem forged_some (hK : 2 * F.E.cfg.shmacBlocksize ≤ K) (htag : F.E.cfg.shmacBytes ≤ F.E.cfg.shmacBlocksize) (htag0 : 0 < F.E.cfg.shmacBytes) {p : Player} {n : Nat} (fair : p.Fair F.E.cfg n) (known : Xof) :
    ∀ q : Nat, ∃ D0 : Finset Bytes, (∀ m ∈ D0, ∃ seen w, m = F.E.shmacKdf.factory ++ (p seen).key ++ w) ∧ ∀ D, D0 ⊆ D →
      count (fun T : Hash D K => ∃ j < q, Wins F (T.xof known) p n j) * 256 ^ F.E.cfg.shmacBytes ≤ q * total D K
  | 0 => by
    classical
    refine ⟨∅, by simp, fun D _ => ?_⟩
    have : count (fun T : Hash D K => ∃ j < 0, Wins F (T.xof known) p n j) = 0 := by
      unfold count
      refine Finset.card_eq_zero.2 (Finset.eq_empty_of_forall_notMem fun T hT => ?_)
      simp at hT
    rw [this]
    simp
  | q + 1 => by
    classical
    obtain ⟨D1, a1, b1⟩ := forged_some hK htag htag0 fair known q
    obtain ⟨D2, a2, b2⟩ := forged_nth L hK htag htag0 fair known q
    refine ⟨D1 ∪ D2, fun m hm => (Finset.mem_union.1 hm).elim (a1 m) (a2 m), fun D hD => ?_⟩
    have h1 := b1 D (Finset.union_subset_left hD)
    have h2 := b2 D (Finset.union_subset_right hD)
    have h3 : count (fun T : Hash D K => ∃ j < q + 1, Wins F (T.xof known) p n j) ≤ count (fun T : Hash D K => ∃ j < q, Wins F (T.xof known) p n j) + count (fun T : Hash D K => Wins F (T.xof known) p n q) := by
      refine count_cases fun T hT => ?_
      obtain ⟨j, hj, h⟩ := hT
      rcases Nat.lt_succ_iff_lt_or_eq.1 hj with hj | rfl
      · exact .inl ⟨j, hj, h⟩
      · exact .inr h
    refine (Nat.mul_le_mul_right _ h3).trans ?_
    rw [Nat.add_mul, Nat.add_mul, Nat.one_mul]
    exact Nat.add_le_add h1 h2

end

/-! ### what the messages say -/

/-- A play in which all decryptions are refused. -/
def playT (c : Sizes) (enc : Request → HashTree K Bytes) (p : Player) : Nat → List Answer → HashTree K (List Answer)
  | 0, seen => .done seen
  | n + 1, seen =>
    match p seen with
    | .encrypt r => (enc r).bind fun m => playT c enc p n (seen ++ [.sent (.ok m)])
    | .decrypt a => playT c enc p n (seen ++ [.opened (.error (refusal c a))])

section
variable {c : Sizes} {enc : Request → HashTree K Bytes} {own : Request → Set Bytes} (H : Scheme c enc own) {p p' : Player} {n : Nat}
include H

def askedIn (own : Request → Set Bytes) (p : Player) (seen : List Answer) : Set Bytes := {q | ∃ h more r, more ≠ [] ∧ h ++ more = seen ∧ p h = .encrypt r ∧ q ∈ own r}

theorem Scheme.play_fresh (fair : p.Fair c n) : ∀ (k : Nat) (seen : List Answer), seen.length + k ≤ n → (playT c enc p k seen).Fresh (askedIn own p seen)
  | 0, _, _ => trivial
  | k + 1, seen, hk => by
    rw [playT]
    cases hp : p seen with
    | encrypt r =>
      have hv := fair.valid seen r hp
      refine Tree.Fresh.bind (U := own r) (fun m => Tree.Fresh.mono ?_ (Scheme.play_fresh fair k (seen ++ [.sent (.ok m)]) (by simp; omega))) ?_ (H.within hv)
      · rintro q (⟨h, more, r', hne, rfl, hr', hq⟩ | hq)
        · exact ⟨h, more ++ [.sent (.ok m)], r', by simp, by simp, hr', hq⟩
        · exact ⟨seen, [.sent (.ok m)], r, by simp, rfl, hp, hq⟩
      · refine H.fresh hv ?_
        rintro q hq ⟨h, more, r', hne, rfl, hr', hq'⟩
        have hs := fair.size h (h ++ more)
        rw [hr', hp] at hs
        exact H.apart (fair.valid h r' hr') hv hs (fair.nonce h more r' r hne (by omega) hr' hp) q hq' hq
    | decrypt a =>
      refine Tree.Fresh.mono ?_ (Scheme.play_fresh fair k (seen ++ [.opened (.error (refusal c a))]) (by simp; omega))
      rintro q ⟨h, more, r', hne, rfl, hr', hq⟩
      exact ⟨h, more ++ [.opened (.error (refusal c a))], r', by simp, by simp, hr', hq⟩

theorem Scheme.play_within (fair : p.Fair c n) : ∀ (k : Nat) (seen : List Answer), (playT c enc p k seen).AllIn {q | ∃ h r, p h = .encrypt r ∧ q ∈ own r}
  | 0, _ => trivial
  | k + 1, seen => by
    rw [playT]
    cases hp : p seen with
    | encrypt r =>
      have h1 : own r ⊆ {q | ∃ h r, p h = .encrypt r ∧ q ∈ own r} := fun q hq => ⟨seen, r, hp, hq⟩
      exact Tree.AllIn.bind (fun m => Scheme.play_within fair k (seen ++ [.sent (.ok m)])) ((H.within (fair.valid seen r hp)).mono h1)
    | decrypt a => exact Scheme.play_within fair k _

/-- The messages for alike requests. -/
theorem Scheme.same {r r' : Request} (hv : r.Valid c) (hv' : r'.Valid c) (h : r.usedSalt = r'.usedSalt ∧ r.draws.iv = r'.draws.iv ∧ r.data.length = r'.data.length) :
    Tree.Same (· = ·) (enc r) (enc r') := by
  have hfit : ∀ m, Fits c r' m ↔ Fits c r m := fun m => by unfold Fits; rw [h.1, h.2.1, h.2.2]
  have hu := Tree.Same.uniform (P := fun _ => True) (P' := fun _ => True) (L := Fits c r) (g := id) (g' := id) (t := enc r) (t' := enc r')
    (r := 1 / 256 ^ (c.shmacBytes + paddedSize c r.data.length)) (by positivity) ((H.out hv).mono fun m hm => ⟨trivial, hm⟩) ((H.out hv').mono fun m hm => ⟨trivial, (hfit m).1 hm⟩)
    (fun o ho => by rw [Tree.chance_map_cons (g := id) (x := o) (fun y => Iff.rfl), H.chance hv ho])
    (fun o ho => by rw [Tree.chance_map_cons (g := id) (x := o) (fun y => Iff.rfl), H.chance hv' ((hfit o).2 ho), h.2.2])
  exact hu.mono fun x x' hx => hx.2.2

theorem Scheme.play_same (hacc : Accepted c) (fair : p.Fair c n) (fair' : p'.Fair c n) (alike : ∀ seen, (p seen).Alike (p' seen)) :
    ∀ (k : Nat) (seen : List Answer), Tree.Same (· = ·) (playT c enc p k seen) (playT c enc p' k seen)
  | 0, _ => Tree.Same.done rfl
  | k + 1, seen => by
    rw [playT, playT]
    have ha := alike seen
    cases hp : p seen with
    | encrypt r =>
      cases hp' : p' seen with
      | encrypt r' =>
        rw [hp, hp'] at ha
        refine Tree.Same.bind (H.same (fair.valid seen r hp) (fair'.valid seen r' hp') ha) ?_
        rintro m _ rfl
        exact Scheme.play_same hacc fair fair' alike k _
      | decrypt a' => rw [hp, hp'] at ha; exact ha.elim
    | decrypt a =>
      cases hp' : p' seen with
      | encrypt r' => rw [hp, hp'] at ha; exact ha.elim
      | decrypt a' =>
        rw [hp, hp'] at ha
        simp only
        rw [refusal_length hacc ha]
        exact Scheme.play_same hacc fair fair' alike k _

end

theorem play_run {D : Finset Bytes} {T : Hash D K} {c : Sizes} {enc : Request → HashTree K Bytes} {p : Player} {n : Nat} {encrypt : Request → Except Err Bytes}
    (fair : p.Fair c n) (he : ∀ r, r.Valid c → (enc r).AllIn (D : Set Bytes) → encrypt r = .ok ((enc r).run (Tree.ext T))) :
    ∀ (k : Nat) (seen : List Answer), (playT c enc p k seen).AllIn (D : Set Bytes) →
      play encrypt (fun a => .error (refusal c a)) p k seen = (playT c enc p k seen).run (Tree.ext T)
  | 0, _, _ => rfl
  | k + 1, seen, h => by
    rw [playT] at h ⊢
    rw [play]
    cases hp : p seen with
    | encrypt r =>
      rw [hp] at h
      have h1 := Tree.AllIn.left h
      have h2 := Tree.AllIn.right (Tree.ext T) h
      simp only [Move.answer]
      rw [he r (fair.valid seen r hp) h1, Tree.run_bind]
      exact play_run fair he k _ h2
    | decrypt a =>
      rw [hp] at h
      exact play_run fair he k _ h

theorem dirty_fresh {α : Type} : ∀ {t : HashTree K α} {S : Set Bytes}, t.Fresh S → t.dirty S = 0
  | .done _, _, _ => rfl
  | .ask q next, S, h => by
    rw [Tree.dirty, if_neg h.1, Finset.sum_eq_zero fun a _ => dirty_fresh (h.2 a), zero_div]

open Classical in
/-- No test tells two plays apart, if all decryptions are refused. -/
theorem Scheme.play_count {c : Sizes} {enc : Request → HashTree K Bytes} {own : Request → Set Bytes} (H : Scheme c enc own) (hacc : Accepted c) {p p' : Player} {n : Nat} (fair : p.Fair c n)
    (fair' : p'.Fair c n) (alike : ∀ seen, (p seen).Alike (p' seen)) : ∃ D0 : Finset Bytes, (∀ q ∈ D0, ∃ seen r, (p seen = .encrypt r ∨ p' seen = .encrypt r) ∧ q ∈ own r) ∧
    ∀ D, D0 ⊆ D → ∀ encrypt : Hash D K → Request → Except Err Bytes, (∀ T r, r.Valid c → (enc r).AllIn (D : Set Bytes) → encrypt T r = .ok ((enc r).run (Tree.ext T))) →
      ∀ test : List Answer → Prop, Secrecy.count (fun T : Hash D K => test (play (encrypt T) (fun a => .error (refusal c a)) p n [])) =
        Secrecy.count (fun T : Hash D K => test (play (encrypt T) (fun a => .error (refusal c a)) p' n [])) := by
  have one : ∀ {p : Player}, p.Fair c n → ∃ D0 : Finset Bytes, (∀ q ∈ D0, ∃ seen r, p seen = .encrypt r ∧ q ∈ own r) ∧
      ∀ D, D0 ⊆ D → ∀ encrypt : Hash D K → Request → Except Err Bytes, (∀ T r, r.Valid c → (enc r).AllIn (D : Set Bytes) → encrypt T r = .ok ((enc r).run (Tree.ext T))) →
        ∀ test : List Answer → Prop, (Secrecy.count (fun T : Hash D K => test (play (encrypt T) (fun a => .error (refusal c a)) p n [])) : ℚ) =
          ((playT c enc p n []).mean fun x => if test x then 1 else 0) * Fintype.card (D → Digest K) := by
    intro p fair
    obtain ⟨D1, hD1⟩ := Tree.finite (playT c enc p n [])
    have hD0 : (playT c enc p n []).AllIn ((D1.filter fun q => ∃ h r, p h = .encrypt r ∧ q ∈ own r : Finset Bytes) : Set Bytes) :=
      (hD1.inter (H.play_within fair n [])).mono fun q hq => by simpa using hq
    refine ⟨D1.filter fun q => ∃ h r, p h = .encrypt r ∧ q ∈ own r, fun q hq => (Finset.mem_filter.1 hq).2, fun D hD encrypt he test => ?_⟩
    have hin : (playT c enc p n []).AllIn (D : Set Bytes) := hD0.mono (Finset.coe_subset.2 hD)
    have hfresh : (playT c enc p n []).Fresh ∅ := (H.play_fresh fair n [] (by simp)).mono (Set.empty_subset _)
    have ht := Tree.card_test (D := D) test hin
    rw [dirty_fresh hfresh, zero_mul] at ht
    have ht := sub_eq_zero.1 (abs_nonpos_iff.1 ht)
    rw [← ht]
    unfold Secrecy.count
    congr 2
    ext T
    simp only [Finset.mem_filter, Finset.mem_univ, true_and]
    rw [play_run fair (he T) n [] hin]
  obtain ⟨D1, a1, b1⟩ := one fair
  obtain ⟨D2, a2, b2⟩ := one fair'
  refine ⟨D1 ∪ D2, fun q hq => ?_, fun D hD encrypt he test => ?_⟩
  · rcases Finset.mem_union.1 hq with hq | hq
    · obtain ⟨seen, r, h, h'⟩ := a1 q hq
      exact ⟨seen, r, .inl h, h'⟩
    · obtain ⟨seen, r, h, h'⟩ := a2 q hq
      exact ⟨seen, r, .inr h, h'⟩
  · have e1 := b1 D (Finset.union_subset_left hD) encrypt he test
    have e2 := b2 D (Finset.union_subset_right hD) encrypt he test
    rw [H.play_same hacc fair fair' alike n [] (fun x => if test x then 1 else 0) (fun x => if test x then 1 else 0) fun x x' e => by rw [e], ← e2] at e1
    exact_mod_cast e1

theorem Move.Alike.symm : ∀ {m m' : Move}, m.Alike m' → m'.Alike m
  | .encrypt _, .encrypt _, h => ⟨h.1.symm, h.2.1.symm, h.2.2.symm⟩
  | .decrypt _, .decrypt _, h => Eq.symm h
  | .encrypt _, .decrypt _, h => h.elim
  | .decrypt _, .encrypt _, h => h.elim

theorem Player.AtMost.alike {p p' : Player} (h : ∀ seen, (p seen).Alike (p' seen)) : ∀ (n : Nat) (seen : List Answer) (q : Nat), p.AtMost n seen q → p'.AtMost n seen q
  | 0, _, _, _ => trivial
  | n + 1, seen, q, hq => by
    rw [Player.AtMost] at hq ⊢
    have ha := h seen
    cases hp : p seen with
    | encrypt r =>
      cases hp' : p' seen with
      | encrypt r' => rw [hp] at hq; exact fun answer => Player.AtMost.alike h n _ q (hq answer)
      | decrypt a' => rw [hp, hp'] at ha; exact ha.elim
    | decrypt a =>
      cases hp' : p' seen with
      | encrypt r' => rw [hp, hp'] at ha; exact ha.elim
      | decrypt a' => rw [hp] at hq; exact ⟨hq.1, fun answer => Player.AtMost.alike h n _ _ (hq.2 answer)⟩

theorem play_shape {encrypt : Request → Except Err Bytes} {decrypt : Attempt → Except Err Bytes} {p : Player} : ∀ (n : Nat) (seen pre : List Answer) {result post},
    play encrypt decrypt p n seen = pre ++ .opened result :: post → (∃ post', seen = pre ++ .opened result :: post') ∨ ∃ a, result = decrypt a
  | 0, seen, pre, result, post, h => .inl ⟨post, h⟩
  | n + 1, seen, pre, result, post, h => by
    rcases play_shape n _ pre h with ⟨post', h⟩ | h
    · rcases List.eq_nil_or_concat post' with rfl | ⟨post', last, rfl⟩
      · have := List.append_inj' h rfl
        simp only [List.cons.injEq, and_true] at this
        cases hp : p seen with
        | encrypt r => rw [hp] at this; simp [Move.answer] at this
        | decrypt a =>
          rw [hp] at this
          simp only [Move.answer, Answer.opened.injEq] at this
          exact .inr ⟨a, this.2.symm⟩
      · rw [List.concat_eq_append, ← List.cons_append, ← List.append_assoc] at h
        exact .inl ⟨post', (List.append_inj' h rfl).1⟩
    · exact .inr h

theorem refusal_not_passes {c : Sizes} (hacc : Accepted c) (a : Attempt) : ¬ Passes (.error (refusal c a)) := by
  intro h
  unfold refusal at h
  cases hp : Ciphertext.parse c a.data with
  | ok parts => rw [hp] at h; exact h.1 rfl
  | error e =>
    rw [hp] at h
    have := (C25_parts hacc _).2 e hp
    subst this
    exact h.2 rfl

section
variable {κ : Type} {F : Family κ} (L : Lawful F)

/-- Unless a decryption gets through, it is the play in which all are refused. -/
theorem play_cases {x : Xof} {p : Player} {n q : Nat} (fair : p.Fair F.E.cfg n) (hq : p.AtMost n [] q) (L : Lawful F) :
    (∃ j < q, Wins F x p n j) ∨ play (fun r => (F.at x).bytesEncrypt r.key r.draws r.salt r.aad r.data) (fun a => (F.at x).bytesDecrypt a.key a.saltDraw a.now a.ttl a.aad a.data) p n [] =
      play (fun r => (F.at x).bytesEncrypt r.key r.draws r.salt r.aad r.data) (fun a => .error (refusal F.E.cfg a)) p n [] := by
  by_cases h : ∃ j < q, Wins F x p n j
  · exact .inl h
  · refine .inr (play_refused (c := F.E.cfg) n [] fun j pre a hj => ?_)
    refine not_passes (fair.valid' pre a (nth_spec n j [] hj).1) (fun hpass => h ⟨j, nth_lt n j q [] hq hj, pre, a, hj, hpass⟩) L

include L in
theorem authenticated (hK : 2 * F.E.cfg.shmacBlocksize ≤ K) (htag : F.E.cfg.shmacBytes ≤ F.E.cfg.shmacBlocksize) (htag0 : 0 < F.E.cfg.shmacBytes) {enc : Request → HashTree K Bytes}
    {own : Request → Set Bytes} (H : Scheme F.E.cfg enc own) {constants : List Bytes} (hF : F.E.shmacKdf.factory ∈ constants)
    (hown : ∀ r, r.Valid F.E.cfg → ∀ q ∈ own r, ∃ F ∈ constants, ∃ w, q = F ++ r.key ++ w)
    (he : ∀ (known : Xof) (D : Finset Bytes) (T : Hash D K) (r : Request), r.Valid F.E.cfg → (enc r).AllIn (D : Set Bytes) →
      (F.at (T.xof known)).bytesEncrypt r.key r.draws r.salt r.aad r.data = .ok ((enc r).run (Oracle.Tree.ext T))) :
    Authenticated F.E.cfg constants K (fun x r => (F.at x).bytesEncrypt r.key r.draws r.salt r.aad r.data)
      (fun x a => (F.at x).bytesDecrypt a.key a.saltDraw a.now a.ttl a.aad a.data) := by
  classical
  constructor
  · intro known n q p fair hq
    obtain ⟨D0, a0, b0⟩ := forged_some (K := K) L hK htag htag0 fair known q
    refine ⟨D0, fun m hm => ?_, fun D hD => (Nat.mul_le_mul_right _ (count_mono fun T hT => ?_)).trans (b0 D hD)⟩
    · obtain ⟨seen, w, e⟩ := a0 m hm
      exact ⟨_, hF, seen, w, e⟩
    · obtain ⟨pre, result, post, e, hpass⟩ := hT
      rcases play_cases (x := T.xof known) fair hq L with h | h
      · exact h
      · exfalso
        rw [h] at e
        rcases play_shape n [] pre e with ⟨post', h'⟩ | ⟨a, rfl⟩
        · simp at h'
        · exact refusal_not_passes (family_accepted L known) a hpass
  · intro known n q p p' fair fair' alike hq
    obtain ⟨D1, a1, b1⟩ := forged_some (K := K) L hK htag htag0 fair known q
    obtain ⟨D2, a2, b2⟩ := forged_some (K := K) L hK htag htag0 fair' known q
    obtain ⟨D3, a3, b3⟩ := H.play_count (family_accepted L known) fair fair' alike
    refine ⟨D1 ∪ D2 ∪ D3, fun m hm => ?_, fun D hD test => ?_⟩
    · rcases Finset.mem_union.1 hm with hm | hm
      · rcases Finset.mem_union.1 hm with hm | hm
        · obtain ⟨seen, w, e⟩ := a1 m hm
          exact ⟨_, hF, seen, w, .inl e⟩
        · obtain ⟨seen, w, e⟩ := a2 m hm
          exact ⟨_, hF, seen, w, .inr e⟩
      · obtain ⟨seen, r, h | h, hm⟩ := a3 m hm
        · obtain ⟨G, hG, w, e⟩ := hown r (fair.valid seen r h) m hm
          exact ⟨G, hG, seen, w, .inl (by rw [h]; exact e)⟩
        · obtain ⟨G, hG, w, e⟩ := hown r (fair'.valid seen r h) m hm
          exact ⟨G, hG, seen, w, .inr (by rw [h]; exact e)⟩
    · have h1 := b1 D (Finset.union_subset_left (Finset.union_subset_left hD))
      have h2 := b2 D (Finset.union_subset_right (Finset.union_subset_left hD))
      have h3 := b3 D (Finset.union_subset_right hD) (fun T r => (F.at (T.xof known)).bytesEncrypt r.key r.draws r.salt r.aad r.data) (he known D) test
      have hq' := hq.alike alike
      have out : ∀ {p : Player}, p.Fair F.E.cfg n → p.AtMost n [] q →
          count (fun T : Hash D K => test (play (fun r => (F.at (T.xof known)).bytesEncrypt r.key r.draws r.salt r.aad r.data)
            (fun a => (F.at (T.xof known)).bytesDecrypt a.key a.saltDraw a.now a.ttl a.aad a.data) p n [])) ≤
          count (fun T : Hash D K => test (play (fun r => (F.at (T.xof known)).bytesEncrypt r.key r.draws r.salt r.aad r.data) (fun a => .error (refusal F.E.cfg a)) p n [])) +
            count (fun T : Hash D K => ∃ j < q, Wins F (T.xof known) p n j) := by
        intro p fair hq
        refine count_cases fun T hT => ?_
        rcases play_cases (x := T.xof known) fair hq L with h | h
        · exact .inr h
        · rw [h] at hT
          exact .inl hT
      have back : ∀ {p : Player}, p.Fair F.E.cfg n → p.AtMost n [] q →
          count (fun T : Hash D K => test (play (fun r => (F.at (T.xof known)).bytesEncrypt r.key r.draws r.salt r.aad r.data) (fun a => .error (refusal F.E.cfg a)) p n [])) ≤
          count (fun T : Hash D K => test (play (fun r => (F.at (T.xof known)).bytesEncrypt r.key r.draws r.salt r.aad r.data)
            (fun a => (F.at (T.xof known)).bytesDecrypt a.key a.saltDraw a.now a.ttl a.aad a.data) p n [])) +
            count (fun T : Hash D K => ∃ j < q, Wins F (T.xof known) p n j) := by
        intro p fair hq
        refine count_cases fun T hT => ?_
        rcases play_cases (x := T.xof known) fair hq L with h | h
        · exact .inr h
        · rw [← h] at hT
          exact .inl hT
      have o1 := out fair hq
      have o2 := out fair' hq'
      have k1 := back fair hq
      have k2 := back fair' hq'
      rw [h3] at o1 k1
      have sum : 2 * q * total D K = q * total D K + q * total D K := by ring
      rw [sum]
      constructor
      · refine (Nat.mul_le_mul_right _ (o1.trans (Nat.add_le_add_right k2 _))).trans ?_
        rw [Nat.add_mul, Nat.add_mul]
        omega
      · refine (Nat.mul_le_mul_right _ (o2.trans (Nat.add_le_add_right k1 _))).trans ?_
        rw [Nat.add_mul, Nat.add_mul]
        omega

end

end Aiootp.Secrecy
