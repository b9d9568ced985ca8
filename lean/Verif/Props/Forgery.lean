import Verif.Lemmas.Forgery
import Verif.Props.Secrecy

/-
Property C96: ciphertexts that were not made with the key do not get through, as far as the hash function cannot be told from a random one.
-/

namespace Aiootp.Secrecy

open Cipher Perm

theorem update_same {E E' : Env} {x x' : Xof} {q : Bytes} (hs : SameBut x x' q E.cfg.shmacBlocksize) (hx : E.shmacKdf.xof = x) (hx' : E'.shmacKdf.xof = x') (hc : E'.cfg = E.cfg)
    (s : Shmac) (b : Bytes) : s.update E b = s.update E' b := by
  unfold Shmac.update
  simp only [hx, hx', hc, fun m => hs m _ (.inr (Nat.le_refl _))]

/-! ### the shake-permute ciphers -/

def permuteFamily (E : Env) : Family Unit where
  E := E
  configId := E.cfg.blocksize
  sessionKdfs := fun _ _ => .ok ()
  turn := fun x => permuteTurn (rehash E x)

theorem permuteFamily_at (E : Env) (x : Xof) : (permuteFamily E).at x = permuteCipher (rehash E x) := rfl

def permute_lawful {E : Env} (h : PermuteSetup E) : Lawful (permuteFamily E) where
  sound := fun x => permuteSound (rehash E x) (rehash_setup h x).permuteWF
  begun := fun _ => true
  width := fun _ => E.cfg.shmacBlocksize
  started_eq := fun _ => rfl
  width_eq := fun _ => rfl
  fresh := true
  fresh_eq := fun _ => rfl
  wide := fun h => by cases h
  usable := fun x => (rehash_setup h x).usable
  same := by
    intro x x' q hs g d m p c perm k b _ _ _
    have e : ∀ s w, Shmac.update (rehash E x) s w = Shmac.update (rehash E x') s w := fun s w => update_same (E := rehash E x) (E' := rehash E x') hs rfl rfl rfl s w
    show permuteTurn (rehash E x) _ k b = permuteTurn (rehash E x') _ k b
    unfold permuteTurn permuteEncipher permuteDecipher
    simp only [e]
    rfl

/-! ### the dual output ciphers -/

def dualFamily (E : DualEnv) : Family DualKeys where
  E := E.toEnv
  configId := E.cfg.innerHeaderBytes
  sessionKdfs := (dualCipher E).sessionKdfs
  turn := fun x => dualTurn (rehashDual E x)

theorem dualFamily_at (E : DualEnv) (x : Xof) : (dualFamily E).at x = dualCipher (rehashDual E x) := rfl

theorem keystream_same {E : DualEnv} {x x' : Xof} {q : Bytes} (hs : SameBut x x' q E.cfg.shmacBlocksize) (k : DualKeys) (r : Bytes) :
    keystream (rehashDual E x) k r = keystream (rehashDual E x') k r := by
  unfold keystream
  simp only [rehashDual, fun m => hs m E.cfg.shmacBlocksize (.inr (Nat.le_refl _))]

def dual_lawful {E : DualEnv} (h : DualSetup E) : Lawful (dualFamily E) where
  sound := fun x => dualSound (rehashDual E x) (rehashDual_setup h x).wf (rehashDual_setup h x).sides.1 (rehashDual_setup h x).sides.2
  begun := DualKeys.started
  width := fun b => if b then 2 * E.cfg.shmacBlocksize else 3 * E.cfg.shmacBlocksize
  started_eq := fun _ => rfl
  width_eq := fun _ => rfl
  fresh := false
  fresh_eq := fun _ => rfl
  wide := fun _ => by
    have h1 := h.wf.header_pos
    have h2 := h.wf.header_digest
    show E.cfg.shmacBlocksize < 3 * E.cfg.shmacBlocksize
    omega
  usable := fun x => (rehashDual_setup h x).usable
  same := by
    intro x x' q hs g d m p c perm k b hc hb hq
    have e : ∀ s w, Shmac.update (rehashDual E x).toEnv s w = Shmac.update (rehashDual E x').toEnv s w :=
      fun s w => update_same (E := (rehashDual E x).toEnv) (E' := (rehashDual E x').toEnv) hs rfl rfl rfl s w
    have e2 := keystream_same (E := E) hs
    show dualTurn (rehashDual E x) _ k b = dualTurn (rehashDual E x') _ k b
    unfold dualTurn
    cases hst : k.started with
    | true =>
      unfold dualEncipher dualDecipher
      simp only [e, e2]
      cases d <;> rfl
    | false =>
      have hq := hq hst
      have e3 : ∀ H M : Bytes, H.length = E.cfg.innerHeaderBytes → M.length = E.cfg.innerHeaderBytes → ∀ n,
          x.digest (m ++ (H ++ M ++ E.cfg.sivDigestSlice.of c)) n = x'.digest (m ++ (H ++ M ++ E.cfg.sivDigestSlice.of c)) n := by
        intro H M hH hM n
        refine hs _ _ (.inl (hq _ ?_))
        have h2 := h.wf.header_digest
        rw [Sizes.siv_digest_eq, List.length_append, List.length_append, List.length_drop, hH, hM, show c.length = E.cfg.shmacBlocksize from hc]
        show _ = E.cfg.shmacBlocksize
        omega
      have h1 := h.wf.header_le
      have hh : (E.cfg.innerHeaderSlice.of b).length = E.cfg.innerHeaderBytes := by
        rw [Sizes.inner_header_eq, List.length_take, show b.length = E.cfg.blocksize from hb]
        omega
      cases d with
      | encryption =>
        simp only [Shmac.live]
        unfold uniqueCipher
        simp only [e, e2]
        refine bind_congr_ok fun y _ => bind_congr_ok fun M hM => ?_
        have hM' : M.length = E.cfg.innerHeaderBytes := by
          rw [(toBytesBE_ok.1 hM).2]; exact length_beDigits ..
        simp only [attr, bind, Except.bind]
        have := e3 _ M hh hM' E.cfg.shmacDoubleBlocksize
        simp only [rehashDual] at this ⊢
        rw [this]
      | decryption =>
        simp only [Shmac.live]
        unfold uniqueDecipher
        simp only [e, e2]
        refine bind_congr_ok fun y _ => bind_congr_ok fun M hM => ?_
        have hM' : M.length = E.cfg.innerHeaderBytes := by
          rw [(toBytesBE_ok.1 hM).2]; exact length_beDigits ..
        simp only [attr, bind, Except.bind]
        have := e3 M _ hM' hh E.cfg.shmacDoubleBlocksize
        simp only [rehashDual] at this ⊢
        rw [this]

/-! ### the bound -/

theorem parse_sized {c : Sizes} {data : Bytes} {n : Nat} (hb : 0 < c.blocksize) (hn : 0 < n) (h : data.length = c.headerBytes + n * c.blocksize) : ∃ parts, Ciphertext.parse c data = .ok parts := by
  have hpos : 0 < n * c.blocksize := Nat.mul_pos hn hb
  unfold Ciphertext.parse
  rw [if_neg]
  · exact ⟨_, rfl⟩
  · rw [h]
    push_cast
    rw [add_sub_cancel_left, Int.mul_emod_left]
    simp only [ne_eq, not_true_eq_false, or_false]
    exact_mod_cast Nat.not_le_of_lt hpos

/-- **C96**. Made up ciphertexts of the shake-permute ciphers get through for as many hash functions as a guess of the tag would. -/
theorem C96_permute {E : Env} (h : PermuteSetup E) {K : Nat} (hK : 2 * E.cfg.shmacBlocksize ≤ K) (htag : E.cfg.shmacBytes ≤ E.cfg.shmacBlocksize) :
    Unforgeable E.cfg [E.shmacKdf.factory] K
      (fun x r => (permuteCipher { E with shmacKdf := { E.shmacKdf with xof := x } }).bytesEncrypt r.key r.draws r.salt r.aad r.data)
      (fun x a => (permuteCipher { E with shmacKdf := { E.shmacKdf with xof := x } }).bytesDecrypt a.key a.saltDraw a.now a.ttl a.aad a.data) :=
  forged_many (permute_lawful h) hK htag h.tag_pos

/-- **C96**. Made up ciphertexts of the dual output ciphers get through for as many hash functions as a guess of the tag would. -/
theorem C96_dual {E : DualEnv} (h : DualSetup E) {K : Nat} (hK : 2 * E.cfg.shmacBlocksize ≤ K) (htag : E.cfg.shmacBytes ≤ E.cfg.shmacBlocksize) :
    Unforgeable E.cfg [E.shmacKdf.factory] K
      (fun x r => (dualCipher { E with shmacKdf := { E.shmacKdf with xof := x }, leftKdf := { E.leftKdf with xof := x }, rightKdf := { E.rightKdf with xof := x } }).bytesEncrypt
        r.key r.draws r.salt r.aad r.data)
      (fun x a => (dualCipher { E with shmacKdf := { E.shmacKdf with xof := x }, leftKdf := { E.leftKdf with xof := x }, rightKdf := { E.rightKdf with xof := x } }).bytesDecrypt
        a.key a.saltDraw a.now a.ttl a.aad a.data) :=
  forged_many (dual_lawful h) hK htag h.tag_pos

/-- **C96**. No better bound holds: if the size of the ciphertext is right, the attempt does get through for that many hash functions. -/
theorem C96_guess_permute {E : Env} (h : PermuteSetup E) {K : Nat} (hK : 2 * E.cfg.shmacBlocksize ≤ K) (htag : E.cfg.shmacBytes ≤ E.cfg.shmacBlocksize) (ask : Chooser) (known : Xof)
    {a : Attempt} (hv : a.Valid E.cfg) {n : Nat} (hn : 0 < n) (hsize : a.data.length = E.cfg.headerBytes + n * E.cfg.blocksize) : ∃ D0 : Finset Bytes, ∀ D, D0 ⊆ D →
      total D K ≤ count (fun T : Hash D K => Succeeds
        (fun r => (permuteCipher { E with shmacKdf := { E.shmacKdf with xof := T.xof known } }).bytesEncrypt r.key r.draws r.salt r.aad r.data)
        (fun a => (permuteCipher { E with shmacKdf := { E.shmacKdf with xof := T.xof known } }).bytesDecrypt a.key a.saltDraw a.now a.ttl a.aad a.data) ask 0 fun _ => a) *
        256 ^ E.cfg.shmacBytes := by
  obtain ⟨parts, hp⟩ := parse_sized (h.permuteWF.block_pos) hn hsize
  exact forged_guess (permute_lawful h) hK htag h.tag_pos ask known hv hp

/-- The same for the dual output ciphers. -/
theorem C96_guess_dual {E : DualEnv} (h : DualSetup E) {K : Nat} (hK : 2 * E.cfg.shmacBlocksize ≤ K) (htag : E.cfg.shmacBytes ≤ E.cfg.shmacBlocksize) (ask : Chooser) (known : Xof)
    {a : Attempt} (hv : a.Valid E.cfg) {n : Nat} (hn : 0 < n) (hsize : a.data.length = E.cfg.headerBytes + n * E.cfg.blocksize) : ∃ D0 : Finset Bytes, ∀ D, D0 ⊆ D →
      total D K ≤ count (fun T : Hash D K => Succeeds
        (fun r => (dualCipher { E with shmacKdf := { E.shmacKdf with xof := T.xof known }, leftKdf := { E.leftKdf with xof := T.xof known }, rightKdf := { E.rightKdf with xof := T.xof known } }).bytesEncrypt r.key r.draws r.salt r.aad r.data)
        (fun a => (dualCipher { E with shmacKdf := { E.shmacKdf with xof := T.xof known }, leftKdf := { E.leftKdf with xof := T.xof known }, rightKdf := { E.rightKdf with xof := T.xof known } }).bytesDecrypt a.key a.saltDraw a.now a.ttl a.aad a.data) ask 0 fun _ => a) * 256 ^ E.cfg.shmacBytes := by
  obtain ⟨parts, hp⟩ := parse_sized (c := E.cfg) (by have h1 := h.wf.header_pos; have h2 := h.wf.header_le; omega) hn hsize
  exact forged_guess (dual_lawful h) hK htag h.tag_pos ask known hv hp

/-- Someone who turns the last message around, or sends zeros if there is none. -/
def sampleForger (c : Sizes) : Forger := fun seen => ⟨sampleKey, [], (seen.getLast?.getD (List.replicate 1000 0)).reverse, none, 0, List.replicate c.saltBytes 0⟩

theorem sampleForger_valid (c : Sizes) (seen : List Bytes) : (sampleForger c seen).Valid c :=
  ⟨(by decide : 64 ≤ sampleKey.length), (by decide : sampleKey.length < 256 ^ 8), (by decide : ([] : Bytes).length < 256 ^ 4), List.length_replicate⟩

example := C96_permute sampleSlick_setup (K := 1000) (by decide) (by decide) sampleXof (sampleAsk sampleSlick.cfg) [(0, sampleForger sampleSlick.cfg), (12, sampleForger sampleSlick.cfg)]
  (sample_fair rfl).1.valid (fun p hp seen => by simp at hp; rcases hp with rfl | rfl <;> exact sampleForger_valid _ seen) fun p hp seen seen' => by
    simp at hp; rcases hp with rfl | rfl <;> rfl

example := C96_dual sampleDual_setup (K := 1000) (by decide) (by decide) sampleXof (sampleAsk sampleDual.cfg) [(0, sampleForger sampleDual.cfg), (12, sampleForger sampleDual.cfg)]
  (sample_fair rfl).1.valid (fun p hp seen => by simp at hp; rcases hp with rfl | rfl <;> exact sampleForger_valid _ seen) fun p hp seen seen' => by
    simp at hp; rcases hp with rfl | rfl <;> rfl

example := C96_guess_permute sampleSlick_setup (K := 1000) (by decide) (by decide) (sampleAsk sampleSlick.cfg) sampleXof
  (a := { sampleForger sampleSlick.cfg [] with data := List.replicate (sampleSlick.cfg.headerBytes + 2 * sampleSlick.cfg.blocksize) 7 })
  ⟨(by decide : 64 ≤ sampleKey.length), (by decide : sampleKey.length < 256 ^ 8), (by decide : ([] : Bytes).length < 256 ^ 4), List.length_replicate⟩ (n := 2) (by decide) List.length_replicate

example := C96_guess_dual sampleDual_setup (K := 1000) (by decide) (by decide) (sampleAsk sampleDual.cfg) sampleXof
  (a := { sampleForger sampleDual.cfg [] with data := List.replicate (sampleDual.cfg.headerBytes + 2 * sampleDual.cfg.blocksize) 7 })
  ⟨(by decide : 64 ≤ sampleKey.length), (by decide : sampleKey.length < 256 ^ 8), (by decide : ([] : Bytes).length < 256 ^ 4), List.length_replicate⟩ (n := 2) (by decide) List.length_replicate

end Aiootp.Secrecy
