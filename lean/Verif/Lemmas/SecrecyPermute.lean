import Verif.Lemmas.SecrecyModel
import Verif.Props.Cipher
import Verif.Props.Keystream

/-
The shake-permute ciphers.
-/

namespace Aiootp.Secrecy

open Oracle Cipher Perm

variable {K : Nat}

theorem splice_before {i n j k : Nat} (h : i + n ≤ K) (hj : j + k ≤ i) (a : Digest K) (s : Digest n) : piece j k (splice i n h a s).1 = piece j k a.1 := by
  have := a.2
  unfold splice
  simp only
  rw [List.append_assoc, ← piece_take (k := i) hj, List.take_left' (by rw [List.length_take]; omega), piece_take hj]

theorem splice_after {i n j k : Nat} (h : i + n ≤ K) (hj : i + n ≤ j) (a : Digest K) (s : Digest n) : piece j k (splice i n h a s).1 = piece j k a.1 := by
  have ha := a.2
  have hs := s.2
  obtain ⟨e, rfl⟩ : ∃ e, j = i + n + e := ⟨j - (i + n), by omega⟩
  unfold piece splice
  simp only
  rw [← List.drop_drop, List.drop_left' (by rw [List.length_append, List.length_take]; omega), List.drop_drop]

theorem xor_eq_iff {n y : Nat} {p o : Bytes} (hp : p.length = n) (ho : o.length = n) (hy : y < 256 ^ n) :
    beDigits n (fromBE p ^^^ y) = o ↔ p = beDigits n (fromBE o ^^^ y) := by
  have h1 := fromBE_lt_of_length hp
  have h2 := fromBE_lt_of_length ho
  constructor
  · rintro rfl
    rw [fromBE_beDigits_of_lt (xor_lt h1 hy), Nat.xor_assoc, Nat.xor_self, Nat.xor_zero, beDigits_fromBE_of_length hp]
  · rintro rfl
    rw [fromBE_beDigits_of_lt (xor_lt h2 hy), Nat.xor_assoc, Nat.xor_self, Nat.xor_zero, beDigits_fromBE_of_length ho]

/-- Of a digest that a mask is cut from, and of the rest of which a value depends: the chance of each masked value. -/
theorem masked_chance {i n : Nat} (h : i + n ≤ K) (y : Digest K → Nat) (hy : ∀ a, y a < 256 ^ n) (hf : ∀ a s, y (splice i n h a s) = y a) {o : Bytes} (ho : o.length = n) (r : ℚ) :
    (∑ a : Digest K, if beDigits n (fromBE (piece i n a.1) ^^^ y a) = o then r else 0) / Fintype.card (Digest K) = r / 256 ^ n := by
  rw [← sum_piece h (fun a => beDigits n (fromBE o ^^^ y a)) (fun a => length_beDigits ..) (fun a s => by rw [hf]) r]
  congr 1
  refine Finset.sum_congr rfl fun a _ => ?_
  simp only [xor_eq_iff (length_piece h a) ho (hy a)]

/-! ### blocks -/

def permuteY (c : Sizes) (perm : Chain) (d b : Bytes) : Nat := (perm.uncappedPermute (fromBE (piece 0 c.blocksize d) ^^^ fromBE b)).getD 0

def permuteX (c : Sizes) (perm : Chain) (d b : Bytes) : Bytes := beDigits c.blocksize (fromBE (piece c.blocksize c.blocksize d) ^^^ permuteY c perm d b)

def permuteStep (c : Sizes) : Step K Unit := fun m _ d perm _ b =>
  .done (permuteX c perm d b, m ++ (b ++ permuteX c perm d b ++ c.permutationDigestSlice.of d), ())

def under (base : Bytes) (n : Nat) : Set Bytes := {q | ∃ w, q = base ++ w ∧ w.length ≤ n}

def exactly (base : Bytes) (n : Nat) (m : Bytes) : Prop := ∃ w, m = base ++ w ∧ w.length = n

theorem under_mono {base : Bytes} {n n' : Nat} (h : n ≤ n') : under base n ⊆ under base n' := fun _ ⟨w, e, hw⟩ => ⟨w, e, by omega⟩

theorem exactly.mem {base m : Bytes} {n n' : Nat} (h : exactly base n m) (hn : n ≤ n') : m ∈ under base n' := by
  obtain ⟨w, rfl, hw⟩ := h
  exact ⟨w, rfl, by omega⟩

theorem exactly.notMem {base m : Bytes} {n n' : Nat} (h : exactly base n m) (hn : n' < n) : m ∉ under base n' := by
  obtain ⟨w, rfl, hw⟩ := h
  rintro ⟨v, e, hv⟩
  rw [List.append_cancel_left_eq] at e
  subst e
  omega

theorem exactly.append {base m : Bytes} {n n' : Nat} (h : exactly base n m) {w : Bytes} (hw : w.length = n') : exactly base (n + n') (m ++ w) := by
  obtain ⟨v, rfl, hv⟩ := h
  exact ⟨v ++ w, by simp, by simp [hv, hw]⟩

section
variable {E : Env} (h : PermuteSetup E) (hK : E.cfg.primerKeyBytes (5 * E.cfg.blocksize) ≤ K)
include h

theorem permuteY_lt {perm : Chain} (hwf : perm.WF) (hs : perm.size = E.cfg.blocksize) {d b : Bytes} (hd : d.length = E.cfg.shmacBlocksize) (hb : b.length = E.cfg.blocksize) :
    perm.uncappedPermute (fromBE (piece 0 E.cfg.blocksize d) ^^^ fromBE b) = some (permuteY E.cfg perm d b) ∧ permuteY E.cfg perm d b < 256 ^ E.cfg.blocksize := by
  have hfits := h.permuteWF.fits
  have hin : fromBE (piece 0 E.cfg.blocksize d) < 256 ^ E.cfg.blocksize := by
    apply fromBE_lt_of_length
    rw [piece, List.length_take, List.length_drop]; omega
  obtain ⟨y, hylt, hy, _⟩ := Chain.uncapped_total hwf (x := fromBE (piece 0 E.cfg.blocksize d) ^^^ fromBE b) (by rw [hs]; exact xor_lt hin (fromBE_lt_of_length hb))
  rw [hs] at hylt
  unfold permuteY
  rw [hy]
  exact ⟨rfl, hylt⟩

include hK

theorem permute_machine (base : Bytes) : Machine (K := K) E.cfg E.cfg.blocksize (permFrom E E.cfg.blocksize) (permuteStep E.cfg)
    (fun j m _ => exactly base (E.cfg.shmacBlocksize * j) m) (fun j => under base (E.cfg.shmacBlocksize * j)) (fun j => under base (E.cfg.shmacBlocksize * j)) := by
  have u := h.usable
  have hfits := h.permuteWF.fits
  have hB := h.permuteWF.block_pos
  obtain ⟨p1, p2⟩ := primer_ge (i := E.cfg.blocksize) (E := E) u.env
  have hdlen : ∀ a : Digest K, (a.1.take E.cfg.shmacBlocksize).length = E.cfg.shmacBlocksize := fun a => by
    have := a.2; rw [List.length_take]; omega
  have hchance : ∀ (perm : Digest K → Chain), (∀ a, (perm a).WF ∧ (perm a).size = E.cfg.blocksize) →
      (∀ a s, perm (splice E.cfg.blocksize E.cfg.blocksize (by omega) a s) = perm a) → ∀ {m b o : Bytes} {p : Digest K → Bytes}, b.length = E.cfg.blocksize → o.length = E.cfg.blocksize →
      (∑ a : Digest K, ((permuteStep E.cfg m (p a) (a.1.take E.cfg.shmacBlocksize) (perm a) () b : HashTree K _).map Prod.fst).chance o) / Fintype.card (Digest K)
        = 1 / 256 ^ E.cfg.blocksize := by
    intro perm hperm hsp m b o p hb ho
    rw [← masked_chance (K := K) (i := E.cfg.blocksize) (n := E.cfg.blocksize) (by omega)
      (fun a => permuteY E.cfg (perm a) (a.1.take E.cfg.shmacBlocksize) b) (fun a => (permuteY_lt h (hperm a).1 (hperm a).2 (hdlen a) hb).2) ?_ ho 1]
    · congr 1
      refine Finset.sum_congr rfl fun a _ => ?_
      show (if permuteX E.cfg (perm a) (a.1.take E.cfg.shmacBlocksize) b = o then (1 : ℚ) else 0) = _
      unfold permuteX
      rw [piece_take (by omega)]
    · intro a s
      unfold permuteY
      rw [hsp, piece_take (by omega), piece_take (by omega), splice_before _ (by omega)]
  refine ⟨h.tag_pos, h.tag_le, by unfold Sizes.shmacDoubleBlocksize; omega, fun a => (permFrom_ok u.env hK a).2, fun j => subset_rfl, fun j => under_mono ?_, ?_, ?_, ?_, ?_, ?_⟩
  · exact Nat.mul_le_mul_left _ (Nat.le_succ _)
  · intros; trivial
  · intros; trivial
  · intro j m p d perm k b hm hwf hs hp hd hb
    have hlen : (b ++ permuteX E.cfg perm d b ++ E.cfg.permutationDigestSlice.of d).length = E.cfg.shmacBlocksize := by
      rw [List.length_append, List.length_append, PermuteWF.digest_eq _ hd, List.length_drop, permuteX, length_beDigits]; omega
    have hm' := hm.append hlen
    have hsb : 0 < E.cfg.shmacBlocksize := by omega
    refine ⟨length_beDigits .., hm', hm'.notMem (by omega), hm'.mem (Nat.le_refl _)⟩
  · intro m k b o _ hb ho
    refine hchance (fun a => permFrom E E.cfg.blocksize a.1) (fun a => (permFrom_ok u.env hK a).2) (fun a s => ?_) (p := fun a => a.1.take E.cfg.shmacBlocksize) hb ho
    unfold permFrom
    rw [splice_after _ (by omega)]
  · intro j m p perm k b o _ hwf hs _ hb ho
    exact hchance (fun _ => perm) (fun _ => ⟨hwf, hs⟩) (fun _ _ => rfl) (p := fun _ => p) hb ho

end

/-! ### messages -/

/-- The cipher with another hash function. -/
def rehash (E : Env) (x : Xof) : Env := { E with shmacKdf := { E.shmacKdf with xof := x } }

theorem rehash_setup {E : Env} (h : PermuteSetup E) (x : Xof) : PermuteSetup (rehash E x) :=
  ⟨h.accepted, h.permutation, h.blocksize, h.pad, h.tag_pos, h.tag_le, h.salt_lt, h.iv_lt⟩

/-- What a hash object has absorbed at the start of the session of a request. -/
def sessionOf (k : KdfConfig) (r : Request) : Bytes :=
  match (do
    let summary ← Canon.canonicalPack [r.usedSalt, r.aad, r.draws.iv] 1 [0] 4
    let kdf ← k.keyed r.key
    k.newSessionCopy kdf summary : Except Err Bytes) with
  | .ok b => b
  | .error _ => []

theorem sessionOf_ok {c : Sizes} {k : KdfConfig} (hwf : k.WF) (hs : c.saltBytes < 256 ^ 4) (hi : c.ivBytes < 256 ^ 4) {r : Request} (hv : r.Valid c) :
    ∃ summary kdf, Canon.canonicalPack [r.usedSalt, r.aad, r.draws.iv] 1 [0] 4 = .ok summary ∧ k.keyed r.key = .ok kdf ∧
      k.newSessionCopy kdf summary = .ok (sessionOf k r) := by
  obtain ⟨summary, hsum⟩ := summary_total (salt := r.usedSalt) (aad := r.aad) (iv := r.draws.iv) (by rw [hv.salt]; exact hs) hv.aad (by rw [hv.draws.iv]; exact hi)
  have hne : r.key ≠ [] := by
    intro e
    have := hv.key_ge
    rw [e] at this
    simp at this
  obtain ⟨kdf, hkdf⟩ := hwf.keyed_ok hne hv.key_lt
  obtain ⟨mac, hmac⟩ := hwf.session_ok kdf summary
  refine ⟨summary, kdf, hsum, hkdf, ?_⟩
  have : sessionOf k r = mac := by
    unfold sessionOf
    simp only [hsum, hkdf, hmac, bind, Except.bind]
  rw [this]; exact hmac

/-- The key follows the constant of the hash object. -/
theorem sessionOf_key {c : Sizes} {k : KdfConfig} (hwf : k.WF) (hs : c.saltBytes < 256 ^ 4) (hi : c.ivBytes < 256 ^ 4) {r : Request} (hv : r.Valid c) :
    ∃ w, sessionOf k r = k.factory ++ r.key ++ w := by
  obtain ⟨s1, k1, a1, a2, a3⟩ := sessionOf_ok hwf hs hi hv
  unfold KdfConfig.newSessionCopy at a3
  unfold KdfConfig.keyed Canon.encodeKey at a2
  by_cases hk : r.key.isEmpty = true
  · rw [if_pos hk] at a2; cases a2
  · rw [if_neg hk] at a2
    simp only [bind_eq_ok, pure, Except.pure, Except.ok.injEq] at a2 a3
    obtain ⟨x, ⟨l, _, b, _, hx⟩, rfl⟩ := a2
    obtain ⟨y, _, e⟩ := a3
    obtain ⟨_, p, _, rfl⟩ := Canon.fullblockLjust_ok.1 hx
    exact ⟨_, by rw [← e]; simp only [List.append_assoc]; rfl⟩

/-- The hash objects of two sessions never absorb the same. -/
theorem sessions_apart {c : Sizes} {k : KdfConfig} (hwf : k.WF) (hs : c.saltBytes < 256 ^ 4) (hi : c.ivBytes < 256 ^ 4) {r r' : Request} (hv : r.Valid c) (hv' : r'.Valid c)
    (hl : r.key.length = r'.key.length) (hn : r.nonce ≠ r'.nonce) (w w' : Bytes) : sessionOf k r ++ w ≠ sessionOf k r' ++ w' := by
  intro e
  obtain ⟨s1, k1, a1, a2, a3⟩ := sessionOf_ok hwf hs hi hv
  obtain ⟨s2, k2, b1, b2, b3⟩ := sessionOf_ok hwf hs hi hv'
  obtain ⟨g1, g2, g3, g4, _⟩ := side_inj hwf hl a1 b1 a2 b2 a3 b3 e
  exact hn (by unfold Request.nonce; rw [g1, g2, g3, g4])

section
variable {E : Env} (h : PermuteSetup E) (hK : E.cfg.primerKeyBytes (5 * E.cfg.blocksize) ≤ K)
include h hK

theorem permute_scheme : Scheme (K := K) E.cfg
    (fun r => message E.cfg (permuteStep E.cfg) (permFrom E E.cfg.blocksize) (sessionOf E.shmacKdf r) () r)
    (fun r => {q | ∃ j, q ∈ under (sessionOf E.shmacKdf r) (E.cfg.shmacBlocksize * j)}) := by
  have u := h.usable
  have h0 : ∀ r, exactly (sessionOf E.shmacKdf r) (E.cfg.shmacBlocksize * 0) (sessionOf E.shmacKdf r) := fun r => ⟨[], by simp, rfl⟩
  refine ⟨fun {r} hv => ?_, fun {r _} hv hf => ?_, fun {r _} hv hS => ?_, fun {r} hv => ?_, fun {r r'} hv hv' hl hn => ?_⟩
  · exact (permute_machine h hK (sessionOf E.shmacKdf r)).message_out u.accepted hv (h0 r)
  · exact (permute_machine h hK (sessionOf E.shmacKdf r)).message_chance u.accepted hv (h0 r) hf
  · refine (permute_machine h hK (sessionOf E.shmacKdf r)).message_fresh u.accepted hv (h0 r) ⟨[], by simp, by simp⟩ ?_ hS
    rintro q ⟨w, rfl, hw⟩
    have : w = [] := List.eq_nil_of_length_eq_zero (by simpa using hw)
    simp [this]
  · exact (permute_machine h hK (sessionOf E.shmacKdf r)).message_within u.accepted hv (h0 r) ⟨[], by simp, by simp⟩
  · rintro q ⟨j, w, rfl, _⟩ ⟨j', w', e, _⟩
    exact sessions_apart u.env.kdf h.salt_lt h.iv_lt hv hv' hl hn w w' e

omit hK in
theorem permute_turns {D : Finset Bytes} (known : Xof) (T : Hash D K) (base : Bytes) :
    Turns (permuteCipher (rehash E (T.xof known))) T (permuteStep E.cfg) (fun j m _ => exactly base (E.cfg.shmacBlocksize * j) m) := by
  intro j m p d perm k b _ hwf hs hp hd hb _
  obtain ⟨hy, hlt⟩ := permuteY_lt h hwf hs hd hb
  have hd' : d.length = E.cfg.shmacBlocksize := hd
  have hfits := h.permuteWF.fits
  have hout : fromBE (piece E.cfg.blocksize E.cfg.blocksize d) < 256 ^ E.cfg.blocksize := by
    apply fromBE_lt_of_length
    rw [piece, List.length_take, List.length_drop]; omega
  have ho : E.cfg.outKeySlice.of d = piece E.cfg.blocksize E.cfg.blocksize d := PermuteWF.out_eq _ _
  have hi : E.cfg.inKeySlice.of d = piece 0 E.cfg.blocksize d := (PermuteWF.in_eq _ _).trans rfl
  have := permuteTurn_encryption (E := rehash E (T.xof known)) (g := false) (m := m) (p := p) (c := d) (perm := perm) (P := b) (y := permuteY E.cfg perm d b)
    (by show perm.uncappedPermute (fromBE (E.cfg.inKeySlice.of d) ^^^ fromBE b) = _; rw [hi]; exact hy)
    (by show fromBE (E.cfg.outKeySlice.of d) ^^^ _ < 256 ^ E.cfg.blocksize; rw [ho]; exact xor_lt hout hlt)
  refine (this : permuteTurn _ _ _ _ = _).trans ?_
  show Except.ok _ = Except.ok _
  simp only [show (rehash E (T.xof known)).cfg = E.cfg from rfl, ho]
  rfl

theorem permute_encrypt {D : Finset Bytes} (known : Xof) (T : Hash D K) (r : Request) (hv : r.Valid E.cfg)
    (hD : (message E.cfg (permuteStep E.cfg) (permFrom E E.cfg.blocksize) (sessionOf E.shmacKdf r) () r : HashTree K Bytes).AllIn (D : Set Bytes)) :
    (permuteCipher (rehash E (T.xof known))).bytesEncrypt r.key r.draws r.salt r.aad r.data =
      .ok ((message E.cfg (permuteStep E.cfg) (permFrom E E.cfg.blocksize) (sessionOf E.shmacKdf r) () r).run (Tree.ext T)) := by
  have h' := rehash_setup h (T.xof known)
  obtain ⟨summary, kdf, h1, h2, h3⟩ := sessionOf_ok (k := E.shmacKdf) h.usable.env.kdf h.salt_lt h.iv_lt hv
  exact encrypt_tree (C := permuteCipher (rehash E (T.xof known))) (T := T) rfl hK h'.usable (permute_machine h' hK (sessionOf E.shmacKdf r)) (permute_turns h known T _) hv
    h1 h2 h3 rfl ⟨[], by simp, rfl⟩ hD

end

end Aiootp.Secrecy
