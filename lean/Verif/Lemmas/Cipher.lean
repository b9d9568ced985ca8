import Verif.Model.Cipher
import Verif.Lemmas.Padding
import Verif.Lemmas.Perm
import Verif.Lemmas.Text
import Verif.Lemmas.Canon

namespace Aiootp.Cipher

open Perm

theorem xor_cancel_left (a b : Nat) : a ^^^ (a ^^^ b) = b := by
  rw [← Nat.xor_assoc, Nat.xor_self, Nat.zero_xor]

theorem beDigits_fromBE_of_length {b : Bytes} {n : Nat} (h : b.length = n) : beDigits n (fromBE b) = b := by
  subst h; exact beDigits_fromBE b

theorem fromBE_lt_of_length {b : Bytes} {n : Nat} (h : b.length = n) : fromBE b < 256 ^ n := by
  subst h; exact fromBE_lt b

/-- A stream-hmac that has a mode and is not finalized. -/
def Shmac.live (g : Bool) (d : Direction) (m p c : Bytes) (perm : Chain) : Shmac :=
  { ivGiven := g, mode := some d, finalized := false, mac := some m, previous := some p, current := some c
    result := none, perm }

theorem Shmac.update_live (E : Env) (g : Bool) (d : Direction) (m p c : Bytes) (perm : Chain) (b : Bytes) :
    (live g d m p c perm).update E b
      = .ok (live g d (m ++ b) c (E.shmacKdf.xof.digest (m ++ b) E.cfg.shmacBlocksize) perm) := rfl

theorem Shmac.finalize_live (E : Env) (g : Bool) (d : Direction) (m p c : Bytes) (perm : Chain) :
    (live g d m p c perm).finalize E
      = .ok (tagOf E m, { ivGiven := g, mode := some d, finalized := true, mac := none, previous := none
                          current := none, result := some (tagOf E m), perm }) := rfl

/-- What both ciphers have in common: every block of plaintext has one ciphertext and conversely, whatever the keys and
the state; both directions absorb the same bytes `w`, whose number only depends on whether the block is the first one
and from which the ciphertext can be read. -/
structure Sound {κ : Type} (C : Cipher κ) where
  started : κ → Bool
  width : Bool → Nat
  extract : Bool → Bytes → Bytes
  width_pos : ∀ b, 0 < width b
  block_pos : 0 < C.cfg.blocksize
  fresh : Bool
  session : ∀ key summary k, C.sessionKdfs key summary = .ok k → started k = fresh
  session_ok : ∀ key summary, key ≠ [] → key.length < 256 ^ 8 → ∃ k, C.sessionKdfs key summary = .ok k
  step : ∀ (d : Direction) (m p c : Bytes) (perm : Chain) (k : κ) (block : Bytes),
    perm.WF → perm.size = C.configId → p.length = C.cfg.shmacBlocksize → c.length = C.cfg.shmacBlocksize →
    block.length = C.cfg.blocksize →
    ∃ P X w k', P.length = C.cfg.blocksize ∧ X.length = C.cfg.blocksize ∧ w.length = width (started k) ∧
      extract (started k) w = X ∧ started k' = true ∧ (match d with | .encryption => block = P | .decryption => block = X) ∧
      (∀ g, C.turn (.live g .encryption m p c perm) k P = .ok (X, .live g .encryption (m ++ w) c
        (C.shmacKdf.xof.digest (m ++ w) C.cfg.shmacBlocksize) perm, k')) ∧
      (∀ g, C.turn (.live g .decryption m p c perm) k X = .ok (P, .live g .decryption (m ++ w) c
        (C.shmacKdf.xof.digest (m ++ w) C.cfg.shmacBlocksize) perm, k'))

/-! ### the shake-permute ciphers -/

/-- What is needed of the configuration of a shake-permute cipher. -/
structure PermuteWF (c : Sizes) : Prop where
  block_pos : 0 < c.blocksize
  fits : 2 * c.blocksize ≤ c.shmacBlocksize

theorem permuteWF_of_accept {c : Sizes} (h : c.acceptPermute = .ok ()) : PermuteWF c := by
  obtain ⟨hm, _, _, _, h3, _⟩ := Sizes.acceptPermute_ok.1 h
  exact ⟨(Sizes.permutationSizes_pos hm).1, by omega⟩

theorem PermuteWF.in_eq (c : Sizes) (d : Bytes) : c.inKeySlice.of d = d.take c.blocksize := by
  unfold Sizes.inKeySlice; rw [slice_zero_nat]

theorem PermuteWF.out_eq (c : Sizes) (d : Bytes) : c.outKeySlice.of d = (d.drop c.blocksize).take c.blocksize := by
  unfold Sizes.outKeySlice
  rw [show (2 * (c.blocksize : Int)) = ((2 * c.blocksize : Nat) : Int) by omega, slice_nat_nat, List.drop_take]
  congr 1; omega

theorem PermuteWF.digest_eq (c : Sizes) {d : Bytes} (hd : d.length = c.shmacBlocksize) :
    c.permutationDigestSlice.of d = d.drop (2 * c.blocksize) := by
  unfold Sizes.permutationDigestSlice
  rw [show (2 * (c.blocksize : Int)) = ((2 * c.blocksize : Nat) : Int) by omega, slice_nat_nat,
    List.take_of_length_le (by omega)]

theorem toBytesBE_of_lt {s n : Nat} (h : n < 256 ^ s) : toBytesBE s n = .ok (beDigits s n) := toBytesBE_ok.2 ⟨h, rfl⟩

theorem permuteTurn_encryption {E : Env} {g : Bool} {m p c : Bytes} {perm : Chain} {P : Bytes} {y : Nat}
    (hy : perm.uncappedPermute (fromBE (E.cfg.inKeySlice.of c) ^^^ fromBE P) = some y)
    (hlt : fromBE (E.cfg.outKeySlice.of c) ^^^ y < 256 ^ E.cfg.blocksize) :
    permuteTurn E (.live g .encryption m p c perm) () P =
      let X := beDigits E.cfg.blocksize (fromBE (E.cfg.outKeySlice.of c) ^^^ y)
      let w := P ++ X ++ E.cfg.permutationDigestSlice.of c
      .ok (X, .live g .encryption (m ++ w) c (E.shmacKdf.xof.digest (m ++ w) E.cfg.shmacBlocksize) perm, ()) := by
  unfold permuteTurn
  simp only [Shmac.live, permuteEncipher, attr, bind, Except.bind, hy, terminates, toBytesBE_of_lt hlt]
  rfl

theorem permuteTurn_decryption {E : Env} {g : Bool} {m p c : Bytes} {perm : Chain} {X : Bytes} {y : Nat}
    (hy : perm.uncappedInvert (fromBE (E.cfg.outKeySlice.of c) ^^^ fromBE X) = some y)
    (hlt : fromBE (E.cfg.inKeySlice.of c) ^^^ y < 256 ^ E.cfg.blocksize) :
    permuteTurn E (.live g .decryption m p c perm) () X =
      let P := beDigits E.cfg.blocksize (fromBE (E.cfg.inKeySlice.of c) ^^^ y)
      let w := P ++ X ++ E.cfg.permutationDigestSlice.of c
      .ok (P, .live g .decryption (m ++ w) c (E.shmacKdf.xof.digest (m ++ w) E.cfg.shmacBlocksize) perm, ()) := by
  unfold permuteTurn
  simp only [Shmac.live, permuteDecipher, attr, bind, Except.bind, hy, terminates, toBytesBE_of_lt hlt]
  rfl

def permuteSound (E : Env) (h : PermuteWF E.cfg) : Sound (permuteCipher E) where
  started := fun _ => true
  width := fun _ => E.cfg.shmacBlocksize
  extract := fun _ w => (w.drop E.cfg.blocksize).take E.cfg.blocksize
  width_pos := fun _ => by have := h.block_pos; have := h.fits; omega
  block_pos := h.block_pos
  fresh := true
  session := fun _ _ _ _ => rfl
  session_ok := fun _ _ _ _ => ⟨(), rfl⟩
  step := by
    intro d m p c perm k block hwf hsz hp hc hb
    have hsz : perm.size = E.cfg.blocksize := hsz
    have hc : c.length = E.cfg.shmacBlocksize := hc
    have hb : block.length = E.cfg.blocksize := hb
    have hfits := h.fits
    have hin : fromBE (E.cfg.inKeySlice.of c) < 256 ^ E.cfg.blocksize := by
      apply fromBE_lt_of_length
      rw [PermuteWF.in_eq, List.length_take]; omega
    have hout : fromBE (E.cfg.outKeySlice.of c) < 256 ^ E.cfg.blocksize := by
      apply fromBE_lt_of_length
      rw [PermuteWF.out_eq, List.length_take, List.length_drop]; omega
    have hbl : fromBE block < 256 ^ E.cfg.blocksize := fromBE_lt_of_length hb
    have hdig : (E.cfg.permutationDigestSlice.of c).length = E.cfg.shmacBlocksize - 2 * E.cfg.blocksize := by
      rw [PermuteWF.digest_eq _ hc, List.length_drop, hc]
    cases d with
    | encryption =>
      obtain ⟨y, hylt, hy, hinv⟩ := Chain.uncapped_total hwf (x := fromBE (E.cfg.inKeySlice.of c) ^^^ fromBE block)
        (by rw [hsz]; exact xor_lt hin hbl)
      rw [hsz] at hylt
      have hX : fromBE (E.cfg.outKeySlice.of c) ^^^ y < 256 ^ E.cfg.blocksize := xor_lt hout hylt
      refine ⟨block, beDigits E.cfg.blocksize (fromBE (E.cfg.outKeySlice.of c) ^^^ y), _, (), hb, length_beDigits .., ?_, ?_,
        rfl, rfl, fun g => permuteTurn_encryption hy hX, fun g => ?_⟩
      · simp only [List.length_append, length_beDigits, hdig, hb]; omega
      · rw [List.append_assoc, List.drop_left' hb, List.take_left' (length_beDigits ..)]
      · have h2 : perm.uncappedInvert (fromBE (E.cfg.outKeySlice.of c) ^^^
            fromBE (beDigits E.cfg.blocksize (fromBE (E.cfg.outKeySlice.of c) ^^^ y)))
            = some (fromBE (E.cfg.inKeySlice.of c) ^^^ fromBE block) := by
          rw [fromBE_beDigits_of_lt hX, xor_cancel_left, hinv]
        have h3 := permuteTurn_decryption (g := g) (m := m) (p := p) h2 (by rw [xor_cancel_left]; exact hbl)
        rw [xor_cancel_left, beDigits_fromBE_of_length hb] at h3
        exact h3
    | decryption =>
      obtain ⟨x, hxlt, hx, hinv⟩ := Chain.uncapped_onto hwf (y := fromBE (E.cfg.outKeySlice.of c) ^^^ fromBE block)
        (by rw [hsz]; exact xor_lt hout hbl)
      rw [hsz] at hxlt
      have hP : fromBE (E.cfg.inKeySlice.of c) ^^^ x < 256 ^ E.cfg.blocksize := xor_lt hin hxlt
      refine ⟨beDigits E.cfg.blocksize (fromBE (E.cfg.inKeySlice.of c) ^^^ x), block, _, (), length_beDigits .., hb, ?_, ?_,
        rfl, rfl, fun g => ?_, fun g => permuteTurn_decryption hx hP⟩
      · simp only [List.length_append, length_beDigits, hdig, hb]; omega
      · rw [List.append_assoc, List.drop_left' (length_beDigits ..), List.take_left' hb]
      · have h2 : perm.uncappedPermute (fromBE (E.cfg.inKeySlice.of c) ^^^
            fromBE (beDigits E.cfg.blocksize (fromBE (E.cfg.inKeySlice.of c) ^^^ x)))
            = some (fromBE (E.cfg.outKeySlice.of c) ^^^ fromBE block) := by
          rw [fromBE_beDigits_of_lt hP, xor_cancel_left, hinv]
        have h3 := permuteTurn_encryption (g := g) (m := m) (p := p) h2 (by rw [xor_cancel_left]; exact hbl)
        rw [xor_cancel_left, beDigits_fromBE_of_length hb] at h3
        exact h3

/-! ### the dual-output ciphers -/

theorem encodeKey_total {key pad : Bytes} {b : Nat} (hk : key ≠ []) (hl : key.length < 256 ^ 8) (hb : 0 < b)
    (hb2 : b < 256 ^ 8) (hp : ∃ p, pad = [p]) : ∃ r, Canon.encodeKey key b pad = .ok r := by
  obtain ⟨p, rfl⟩ := hp
  have h1 : key.isEmpty = false := by cases key with
    | nil => exact absurd rfl hk
    | cons => rfl
  unfold Canon.encodeKey
  rw [h1, toBytesLE_ok.2 ⟨hl, rfl⟩, toBytesLE_ok.2 ⟨hb2, rfl⟩]
  simp only [Bool.false_eq_true, if_false, bind, Except.bind]
  exact ⟨_, Canon.fullblockLjust_ok.2 ⟨hb, p, rfl, rfl⟩⟩

/-- What is needed of a hash configuration. -/
structure KdfConfig.WF (k : KdfConfig) : Prop where
  pad : ∃ p, k.pad = [p]
  pos : 0 < k.blocksize
  small : k.blocksize < 256 ^ 8

theorem KdfConfig.WF.keyed_ok {k : KdfConfig} (h : k.WF) {key : Bytes} (hk : key ≠ []) (hl : key.length < 256 ^ 8) :
    ∃ r, k.keyed key = .ok r := by
  obtain ⟨r, hr⟩ := encodeKey_total hk hl h.pos h.small h.pad
  exact ⟨_, by unfold KdfConfig.keyed; rw [hr]; rfl⟩

theorem KdfConfig.WF.session_ok {k : KdfConfig} (h : k.WF) (kdf summary : Bytes) :
    ∃ r, k.newSessionCopy kdf summary = .ok r := by
  obtain ⟨p, hp⟩ := h.pad
  exact ⟨_, by unfold KdfConfig.newSessionCopy; rw [Canon.fullblockLjust_ok.2 ⟨h.pos, p, hp, rfl⟩]; rfl⟩

theorem keystream_length (E : DualEnv) (k : DualKeys) (r : Bytes) :
    (keystream E k r).1.length = E.cfg.shmacDoubleBlocksize := by
  unfold keystream Sizes.shmacDoubleBlocksize
  simp only [List.length_append, Xof.length_digest]
  omega

theorem toBytesSigned_ok {c : Sizes} {n : Nat} (hle : c.innerHeaderBytes ≤ c.blocksize)
    (h : n < 256 ^ (c.blocksize - c.innerHeaderBytes)) :
    Sizes.toBytesSigned c.firstContentBytes n = .ok (beDigits (c.blocksize - c.innerHeaderBytes) n) := by
  have hfc : c.firstContentBytes = ((c.blocksize - c.innerHeaderBytes : Nat) : Int) := by
    unfold Sizes.firstContentBytes; omega
  unfold Sizes.toBytesSigned
  rw [if_neg (by omega), hfc, Int.toNat_natCast]
  exact toBytesBE_ok.2 ⟨h, rfl⟩

/-- The bytes absorbed for the header of the first block, and the key made from it. -/
def sivBytes (E : DualEnv) (c header masked : Bytes) : Bytes := header ++ masked ++ E.cfg.sivDigestSlice.of c

def sivKeystream (E : DualEnv) (k : DualKeys) (m : Bytes) : Bytes × DualKeys :=
  keystream E k (E.shmacKdf.xof.digest m E.cfg.shmacDoubleBlocksize)

/-- The bytes absorbed for a ciphertext block. -/
def embedded (c : Sizes) (key X : Bytes) : Bytes := c.embeddedLeftSlice.of key ++ X ++ c.embeddedRightSlice.of key

theorem uniqueCipher_live {E : DualEnv} {g : Bool} {m p c : Bytes} {perm : Chain} {k : DualKeys} {block masked content : Bytes}
    {y : Nat} (hy : perm.permute (fromBE (E.cfg.innerHeaderSlice.of block)) = some y)
    (hm : toBytesBE E.cfg.innerHeaderBytes y = .ok masked)
    (hc : Sizes.toBytesSigned E.cfg.firstContentBytes
      (fromBE (E.cfg.firstKeySlice.of
        (sivKeystream E k (m ++ sivBytes E c (E.cfg.innerHeaderSlice.of block) masked)).1)
        ^^^ fromBE (E.cfg.firstContentSlice.of block)) = .ok content) :
    uniqueCipher E (.live g .encryption m p c perm) k block =
      let m1 := m ++ sivBytes E c (E.cfg.innerHeaderSlice.of block) masked
      let ks := sivKeystream E k m1
      let m2 := m1 ++ embedded E.cfg ks.1 (masked ++ content)
      .ok (masked ++ content, .live g .encryption m2 c (E.shmacKdf.xof.digest m2 E.cfg.shmacBlocksize) perm,
        { ks.2 with started := true }) := by
  unfold sivKeystream sivBytes at *
  unfold uniqueCipher
  simp only [Shmac.live, attr, bind, Except.bind, hy, terminates, hm, hc]
  rfl

theorem uniqueDecipher_live {E : DualEnv} {g : Bool} {m p c : Bytes} {perm : Chain} {k : DualKeys} {block header content : Bytes}
    {y : Nat} (hy : perm.invert (fromBE (E.cfg.innerHeaderSlice.of block)) = some y)
    (hm : toBytesBE E.cfg.innerHeaderBytes y = .ok header)
    (hc : Sizes.toBytesSigned E.cfg.firstContentBytes
      (fromBE (E.cfg.firstKeySlice.of
        (sivKeystream E k (m ++ sivBytes E c header (E.cfg.innerHeaderSlice.of block))).1)
        ^^^ fromBE (E.cfg.firstContentSlice.of block)) = .ok content) :
    uniqueDecipher E (.live g .decryption m p c perm) k block =
      let m1 := m ++ sivBytes E c header (E.cfg.innerHeaderSlice.of block)
      let ks := sivKeystream E k m1
      let m2 := m1 ++ embedded E.cfg ks.1 block
      .ok (header ++ content, .live g .decryption m2 c (E.shmacKdf.xof.digest m2 E.cfg.shmacBlocksize) perm,
        { ks.2 with started := true }) := by
  unfold sivKeystream sivBytes at *
  unfold uniqueDecipher
  simp only [Shmac.live, attr, bind, Except.bind, hy, terminates, hm, hc]
  rfl

/-- The first block: header `H` masked as `M`, content `T` encrypted as `U`. -/
theorem dual_first {E : DualEnv} (h : E.cfg.DualWF) {m p c : Bytes} {perm : Chain} {k : DualKeys}
    (hc : c.length = E.cfg.shmacBlocksize) {H M T U : Bytes} (hH : H.length = E.cfg.innerHeaderBytes)
    (hM : M.length = E.cfg.innerHeaderBytes) (hT : T.length = E.cfg.blocksize - E.cfg.innerHeaderBytes)
    (hU : U.length = E.cfg.blocksize - E.cfg.innerHeaderBytes)
    (hp1 : perm.permute (fromBE H) = some (fromBE M)) (hp2 : perm.invert (fromBE M) = some (fromBE H))
    (hx : fromBE (E.cfg.firstKeySlice.of (sivKeystream E k (m ++ sivBytes E c H M)).1) ^^^ fromBE T = fromBE U) :
    let m1 := m ++ sivBytes E c H M
    let ks := sivKeystream E k m1
    let m2 := m1 ++ embedded E.cfg ks.1 (M ++ U)
    (sivBytes E c H M ++ embedded E.cfg ks.1 (M ++ U)).length = 3 * E.cfg.shmacBlocksize ∧
    (((sivBytes E c H M ++ embedded E.cfg ks.1 (M ++ U)).drop (E.cfg.shmacBlocksize + E.cfg.cap)).take E.cfg.blocksize
      = M ++ U) ∧
    (∀ g, uniqueCipher E (.live g .encryption m p c perm) k (H ++ T) =
      .ok (M ++ U, .live g .encryption m2 c (E.shmacKdf.xof.digest m2 E.cfg.shmacBlocksize) perm,
        { ks.2 with started := true })) ∧
    (∀ g, uniqueDecipher E (.live g .decryption m p c perm) k (M ++ U) =
      .ok (H ++ T, .live g .decryption m2 c (E.shmacKdf.xof.digest m2 E.cfg.shmacBlocksize) perm,
        { ks.2 with started := true })) := by
  intro m1 ks m2
  have hks : ks.1.length = E.cfg.shmacDoubleBlocksize := keystream_length _ _ _
  have hle := h.header_le
  have hd := h.header_digest
  have hsiv : (sivBytes E c H M).length = E.cfg.shmacBlocksize := by
    unfold sivBytes
    rw [Sizes.siv_digest_eq, List.length_append, List.length_append, List.length_drop, hH, hM, hc]
    omega
  have hcap := h.cap_eq
  have hemb : (embedded E.cfg ks.1 (M ++ U)).length = 2 * E.cfg.shmacBlocksize := by
    unfold embedded
    have hdb : E.cfg.shmacDoubleBlocksize = 2 * E.cfg.shmacBlocksize := rfl
    rw [List.length_append, List.length_append, h.length_left hks, h.length_right hks, List.length_append, hM, hU]
    omega
  have hMU : (M ++ U).length = E.cfg.blocksize := by rw [List.length_append, hM, hU]; omega
  have e1 : E.cfg.innerHeaderSlice.of (H ++ T) = H := by rw [Sizes.inner_header_eq, List.take_left' hH]
  have e2 : E.cfg.innerHeaderSlice.of (M ++ U) = M := by rw [Sizes.inner_header_eq, List.take_left' hM]
  have e3 : E.cfg.firstContentSlice.of (H ++ T) = T := by rw [Sizes.first_content_eq, List.drop_left' hH]
  have e4 : E.cfg.firstContentSlice.of (M ++ U) = U := by rw [Sizes.first_content_eq, List.drop_left' hM]
  refine ⟨by rw [List.length_append, hsiv, hemb]; omega, ?_, fun g => ?_, fun g => ?_⟩
  · rw [← List.drop_drop, List.drop_left' hsiv]
    unfold embedded
    rw [List.append_assoc, List.drop_left' (h.length_left hks), List.take_left' hMU]
  · refine (uniqueCipher_live (y := fromBE M) (masked := M) (content := U) ?_ ?_ ?_).trans ?_
    · rw [e1]; exact hp1
    · exact toBytesBE_ok.2 ⟨fromBE_lt_of_length hM, (beDigits_fromBE_of_length hM).symm⟩
    · rw [e1, e3, hx, toBytesSigned_ok hle (fromBE_lt_of_length hU), beDigits_fromBE_of_length hU]
    · simp only [e1]; rfl
  · refine (uniqueDecipher_live (y := fromBE H) (header := H) (content := T) ?_ ?_ ?_).trans ?_
    · rw [e2]; exact hp2
    · exact toBytesBE_ok.2 ⟨fromBE_lt_of_length hH, (beDigits_fromBE_of_length hH).symm⟩
    · rw [e2, e4, ← hx, xor_cancel_left, toBytesSigned_ok hle (fromBE_lt_of_length hT), beDigits_fromBE_of_length hT]
    · simp only [e2]; rfl

/-- A later block. -/
theorem dual_later {E : DualEnv} (h : E.cfg.DualWF) {m p c : Bytes} {perm : Chain} {k : DualKeys}
    (hk : k.started = true) {P X : Bytes} (hP : P.length = E.cfg.blocksize) (hX : X.length = E.cfg.blocksize)
    (hx : fromBE (E.cfg.embeddedCiphertextSlice.of (keystream E k (c ++ p)).1) ^^^ fromBE P = fromBE X) :
    let ks := keystream E k (c ++ p)
    let w := embedded E.cfg ks.1 X
    w.length = 2 * E.cfg.shmacBlocksize ∧ ((w.drop E.cfg.cap).take E.cfg.blocksize = X) ∧ ks.2.started = true ∧
    (∀ g, dualTurn E (.live g .encryption m p c perm) k P =
      .ok (X, .live g .encryption (m ++ w) c (E.shmacKdf.xof.digest (m ++ w) E.cfg.shmacBlocksize) perm, ks.2)) ∧
    (∀ g, dualTurn E (.live g .decryption m p c perm) k X =
      .ok (P, .live g .decryption (m ++ w) c (E.shmacKdf.xof.digest (m ++ w) E.cfg.shmacBlocksize) perm, ks.2)) := by
  intro ks w
  have hks : ks.1.length = E.cfg.shmacDoubleBlocksize := keystream_length _ _ _
  have hcap := h.cap_eq
  have hw : w.length = 2 * E.cfg.shmacBlocksize := by
    show (embedded E.cfg ks.1 X).length = _
    unfold embedded
    have hdb : E.cfg.shmacDoubleBlocksize = 2 * E.cfg.shmacBlocksize := rfl
    rw [List.length_append, List.length_append, h.length_left hks, h.length_right hks, hX]
    omega
  refine ⟨hw, ?_, hk, fun g => ?_, fun g => ?_⟩
  · show ((embedded E.cfg ks.1 X).drop E.cfg.cap).take E.cfg.blocksize = X
    unfold embedded
    rw [List.append_assoc, List.drop_left' (h.length_left hks), List.take_left' hX]
  · have ht : toBytesBE E.cfg.blocksize (fromBE (E.cfg.embeddedCiphertextSlice.of (keystream E k (c ++ p)).1) ^^^ fromBE P)
        = .ok X := by
      rw [hx]; exact toBytesBE_ok.2 ⟨fromBE_lt_of_length hX, (beDigits_fromBE_of_length hX).symm⟩
    unfold dualTurn
    rw [hk]
    simp only [Shmac.live, ratchetKey, attr, bind, Except.bind, pure, Except.pure, dualEncipher, ht]
    rfl
  · have ht : toBytesBE E.cfg.blocksize (fromBE (E.cfg.embeddedCiphertextSlice.of (keystream E k (c ++ p)).1) ^^^ fromBE X)
        = .ok P := by
      rw [← hx, xor_cancel_left]; exact toBytesBE_ok.2 ⟨fromBE_lt_of_length hP, (beDigits_fromBE_of_length hP).symm⟩
    unfold dualTurn
    rw [hk]
    simp only [Shmac.live, ratchetKey, attr, bind, Except.bind, pure, Except.pure, dualDecipher, Shmac.update,
      raiseIf, Option.isNone, Bool.false_eq_true, if_false, ht]
    rfl

theorem dualTurn_first (E : DualEnv) (g : Bool) (m p c : Bytes) (perm : Chain) (k : DualKeys) (hk : k.started = false)
    (b : Bytes) :
    dualTurn E (.live g .encryption m p c perm) k b = uniqueCipher E (.live g .encryption m p c perm) k b ∧
    dualTurn E (.live g .decryption m p c perm) k b = uniqueDecipher E (.live g .decryption m p c perm) k b := by
  unfold dualTurn
  rw [hk]
  exact ⟨rfl, rfl⟩

def dualSound (E : DualEnv) (h : E.cfg.DualWF) (hl : E.leftKdf.WF) (hr : E.rightKdf.WF) : Sound (dualCipher E) where
  started := DualKeys.started
  width := fun b => if b then 2 * E.cfg.shmacBlocksize else 3 * E.cfg.shmacBlocksize
  extract := fun b w => (w.drop (if b then E.cfg.cap else E.cfg.shmacBlocksize + E.cfg.cap)).take E.cfg.blocksize
  width_pos := fun b => by
    have := h.header_pos
    have := h.header_digest
    cases b <;> simp <;> omega
  block_pos := by
    have h1 := h.header_pos
    have h2 := h.header_le
    show 0 < E.cfg.blocksize
    omega
  fresh := false
  session := by
    intro key summary k hk
    simp only [dualCipher, bind_eq_ok] at hk
    obtain ⟨_, _, _, _, _, _, _, _, he⟩ := hk
    cases he; rfl
  session_ok := by
    intro key summary h1 h2
    obtain ⟨a, ha⟩ := hl.keyed_ok h1 h2
    obtain ⟨b, hb⟩ := hr.keyed_ok h1 h2
    obtain ⟨a', ha'⟩ := hl.session_ok a summary
    obtain ⟨b', hb'⟩ := hr.session_ok b summary
    exact ⟨_, by simp only [dualCipher, bind_eq_ok]; exact ⟨_, ha, _, hb, _, ha', _, hb', rfl⟩⟩
  step := by
    intro d m p c perm k block hwf hsz hp hc hb
    have hsz : perm.size = E.cfg.innerHeaderBytes := hsz
    have hc : c.length = E.cfg.shmacBlocksize := hc
    have hb : block.length = E.cfg.blocksize := hb
    have hle := h.header_le
    cases hst : k.started with
    | true =>
      have hks : (keystream E k (c ++ p)).1.length = E.cfg.shmacDoubleBlocksize := keystream_length _ _ _
      have hlt : fromBE (E.cfg.embeddedCiphertextSlice.of (keystream E k (c ++ p)).1) ^^^ fromBE block
          < 256 ^ E.cfg.blocksize := Sizes.xor_fromBE_lt (h.length_ciphertext hks) hb
      cases d with
      | encryption =>
        obtain ⟨h1, h2, h3, h4, h5⟩ := dual_later (m := m) (perm := perm) h hst hb (length_beDigits _ _)
          (fromBE_beDigits_of_lt hlt).symm
        exact ⟨block, _, _, _, hb, length_beDigits _ _, h1, h2, h3, rfl, h4, h5⟩
      | decryption =>
        obtain ⟨h1, h2, h3, h4, h5⟩ := dual_later (m := m) (perm := perm) (P := beDigits E.cfg.blocksize
            (fromBE (E.cfg.embeddedCiphertextSlice.of (keystream E k (c ++ p)).1) ^^^ fromBE block)) h hst
          (length_beDigits _ _) hb (by rw [fromBE_beDigits_of_lt hlt, xor_cancel_left])
        exact ⟨_, block, _, _, length_beDigits _ _, hb, h1, h2, h3, rfl, h4, h5⟩
    | false =>
      have hsplit : block = block.take E.cfg.innerHeaderBytes ++ block.drop E.cfg.innerHeaderBytes :=
        (List.take_append_drop ..).symm
      have hH : (block.take E.cfg.innerHeaderBytes).length = E.cfg.innerHeaderBytes := by
        rw [List.length_take]; omega
      have hT : (block.drop E.cfg.innerHeaderBytes).length = E.cfg.blocksize - E.cfg.innerHeaderBytes := by
        rw [List.length_drop]; omega
      have hHlt := fromBE_lt_of_length hH
      generalize block.take E.cfg.innerHeaderBytes = H at hsplit hH hHlt
      generalize block.drop E.cfg.innerHeaderBytes = T at hsplit hT
      subst hsplit
      have hfk : ∀ m', fromBE (E.cfg.firstKeySlice.of (sivKeystream E k m').1) ^^^ fromBE T
          < 256 ^ (E.cfg.blocksize - E.cfg.innerHeaderBytes) := fun m' =>
        Sizes.xor_fromBE_lt (h.length_first_key (keystream_length _ _ _)) hT
      cases d with
      | encryption =>
        obtain ⟨y, hylt, hy, hinv⟩ := Chain.permute_total hwf (x := fromBE H) (by rw [hsz]; exact hHlt)
        rw [hsz] at hylt
        have hM := fromBE_beDigits_of_lt hylt
        obtain ⟨h1, h2, h3, h4⟩ := dual_first (m := m) (p := p) (k := k) (M := beDigits E.cfg.innerHeaderBytes y)
          (U := beDigits (E.cfg.blocksize - E.cfg.innerHeaderBytes)
            (fromBE (E.cfg.firstKeySlice.of (sivKeystream E k (m ++ sivBytes E c H (beDigits E.cfg.innerHeaderBytes y))).1)
              ^^^ fromBE T)) h hc hH (length_beDigits _ _) hT (length_beDigits _ _) (by rw [hM]; exact hy)
          (by rw [hM]; exact hinv) (fromBE_beDigits_of_lt (hfk _)).symm
        refine ⟨H ++ T, _, _,
          { (sivKeystream E k (m ++ sivBytes E c H (beDigits E.cfg.innerHeaderBytes y))).2 with started := true },
          hb, ?_, h1, h2, rfl, rfl, fun g => ?_, fun g => ?_⟩
        · show _ = E.cfg.blocksize
          simp only [List.length_append, length_beDigits]; omega
        · refine (dualTurn_first E g m p c perm k hst _).1.trans ((h3 g).trans ?_)
          simp only [List.append_assoc]; rfl
        · refine (dualTurn_first E g m p c perm k hst _).2.trans ((h4 g).trans ?_)
          simp only [List.append_assoc]; rfl
      | decryption =>
        obtain ⟨y, hylt, hy, hinv⟩ := Chain.invert_total hwf (y := fromBE H) (by rw [hsz]; exact hHlt)
        rw [hsz] at hylt
        have hM := fromBE_beDigits_of_lt hylt
        obtain ⟨h1, h2, h3, h4⟩ := dual_first (m := m) (p := p) (k := k) (H := beDigits E.cfg.innerHeaderBytes y)
          (M := H) (U := T) (T := beDigits (E.cfg.blocksize - E.cfg.innerHeaderBytes)
            (fromBE (E.cfg.firstKeySlice.of (sivKeystream E k (m ++ sivBytes E c (beDigits E.cfg.innerHeaderBytes y) H)).1)
              ^^^ fromBE T)) h hc (length_beDigits _ _) hH (length_beDigits _ _) hT (by rw [hM]; exact hinv)
          (by rw [hM]; exact hy) (by rw [fromBE_beDigits_of_lt (hfk _), xor_cancel_left])
        refine ⟨beDigits E.cfg.innerHeaderBytes y ++ beDigits (E.cfg.blocksize - E.cfg.innerHeaderBytes)
            (fromBE (E.cfg.firstKeySlice.of (sivKeystream E k (m ++ sivBytes E c (beDigits E.cfg.innerHeaderBytes y) H)).1)
              ^^^ fromBE T), H ++ T, _,
          { (sivKeystream E k (m ++ sivBytes E c (beDigits E.cfg.innerHeaderBytes y) H)).2 with started := true },
          ?_, hb, h1, h2, rfl, rfl, fun g => ?_, fun g => ?_⟩
        · show _ = E.cfg.blocksize
          simp only [List.length_append, length_beDigits]; omega
        · refine (dualTurn_first E g m p c perm k hst _).1.trans ((h3 g).trans ?_)
          simp only [List.append_assoc]; rfl
        · refine (dualTurn_first E g m p c perm k hst _).2.trans ((h4 g).trans ?_)
          simp only [List.append_assoc]; rfl

end Aiootp.Cipher
