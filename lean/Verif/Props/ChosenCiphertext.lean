import Verif.Lemmas.ChosenCiphertext
import Verif.Props.Forgery

/-
Property C99: messages say nothing of what was encrypted to those who also have other messages decrypted, as far as the hash function cannot be told from a random one.
-/

namespace Aiootp.Secrecy

open Cipher

/-- **C99**. The shake-permute ciphers hide what they encrypt from those who have made up ciphertexts decrypted. -/
theorem C99_permute {E : Env} (h : PermuteSetup E) {K : Nat} (hK : E.cfg.primerKeyBytes (5 * E.cfg.blocksize) ≤ K) (hK' : 2 * E.cfg.shmacBlocksize ≤ K)
    (htag : E.cfg.shmacBytes ≤ E.cfg.shmacBlocksize) :
    Authenticated E.cfg [E.shmacKdf.factory] K
      (fun x r => (permuteCipher { E with shmacKdf := { E.shmacKdf with xof := x } }).bytesEncrypt r.key r.draws r.salt r.aad r.data)
      (fun x a => (permuteCipher { E with shmacKdf := { E.shmacKdf with xof := x } }).bytesDecrypt a.key a.saltDraw a.now a.ttl a.aad a.data) := by
  refine authenticated (permute_lawful h) hK' htag h.tag_pos (permute_scheme h hK) (by exact List.mem_singleton.2 rfl) ?_ fun known D T r hv hD => permute_encrypt h hK known T r hv hD
  rintro r hv q ⟨j, w, rfl, _⟩
  obtain ⟨w', e⟩ := sessionOf_key (k := E.shmacKdf) h.usable.env.kdf h.salt_lt h.iv_lt hv
  exact ⟨E.shmacKdf.factory, by simp, w' ++ w, by rw [show sessionOf (permuteFamily E).E.shmacKdf r = _ from e]; simp only [List.append_assoc]⟩

/-- **C99**. The dual output ciphers hide what they encrypt from those who have made up ciphertexts decrypted, under the conditions of `C95_dual`. -/
theorem C99_dual {E : DualEnv} (h : DualSetup E) {K n : Nat} (hK : E.cfg.primerKeyBytes (5 * E.cfg.innerHeaderBytes) ≤ K) (hK' : 2 * E.cfg.shmacBlocksize ≤ K)
    (htag : E.cfg.shmacBytes ≤ E.cfg.shmacBlocksize) (hll : E.leftKdf.factory.length = E.shmacKdf.factory.length) (hlr : E.rightKdf.factory.length = E.shmacKdf.factory.length)
    (h1 : E.shmacKdf.factory ≠ E.leftKdf.factory) (h2 : E.shmacKdf.factory ≠ E.rightKdf.factory) (h3 : E.leftKdf.factory ≠ E.rightKdf.factory)
    (hn0 : 0 < n) (hn : ∀ r : Bytes, r.length = 2 * E.cfg.shmacBlocksize → (E.leftSlice r).length = n ∧ (E.rightSlice r).length = n) :
    Authenticated E.cfg [E.shmacKdf.factory, E.leftKdf.factory, E.rightKdf.factory] K
      (fun x r => (dualCipher { E with shmacKdf := { E.shmacKdf with xof := x }, leftKdf := { E.leftKdf with xof := x }, rightKdf := { E.rightKdf with xof := x } }).bytesEncrypt
        r.key r.draws r.salt r.aad r.data)
      (fun x a => (dualCipher { E with shmacKdf := { E.shmacKdf with xof := x }, leftKdf := { E.leftKdf with xof := x }, rightKdf := { E.rightKdf with xof := x } }).bytesDecrypt
        a.key a.saltDraw a.now a.ttl a.aad a.data) := by
  have hsep : Separated E n := ⟨hll, hlr, h1, h2, h3, hn0, hn⟩
  refine authenticated (dual_lawful h) hK' htag h.tag_pos (dual_scheme h hsep hK) (by exact List.mem_cons_self) ?_ fun known D T r hv hD => dual_encrypt h hsep hK known T r hv hD
  rintro r hv q ⟨j, ⟨w, rfl, _⟩ | ⟨w, rfl, _⟩ | ⟨w, rfl, _⟩⟩
  · obtain ⟨w', e⟩ := sessionOf_key (k := E.shmacKdf) h.usable.env.kdf h.salt_lt h.iv_lt hv
    exact ⟨E.shmacKdf.factory, by simp, w' ++ w, by rw [e]; simp only [List.append_assoc]⟩
  · obtain ⟨w', e⟩ := sessionOf_key (k := E.leftKdf) h.sides.1 h.salt_lt h.iv_lt hv
    exact ⟨E.leftKdf.factory, by simp, w' ++ w, by rw [e]; simp only [List.append_assoc]⟩
  · obtain ⟨w', e⟩ := sessionOf_key (k := E.rightKdf) h.sides.2 h.salt_lt h.iv_lt hv
    exact ⟨E.rightKdf.factory, by simp, w' ++ w, by rw [e]; simp only [List.append_assoc]⟩

/-- The last of the messages and plaintexts seen. -/
def lastSeen : List Answer → Bytes
  | [] => []
  | seen@(_ :: _) =>
    match seen.getLast? with
    | some (.sent (.ok m)) | some (.opened (.ok m)) => m
    | _ => []

/-- Someone who has `data` encrypted, or, every other time, `forged` decrypted, with an aad that no message was made for. -/
def samplePlayer (c : Sizes) (data forged : List Answer → Bytes) : Player := fun seen =>
  if seen.length % 2 = 0 then .encrypt ⟨sampleKey, sampleDraws c, none, beDigits 4 seen.length, data seen⟩
  else .decrypt ⟨sampleKey, [], forged seen, none, 0, List.replicate c.saltBytes 0⟩

theorem samplePlayer_fair {c : Sizes} (h : c.timestampBytes = 4) (data forged : List Answer → Bytes) : (samplePlayer c data forged).Fair c 1000 := by
  refine ⟨fun seen r e => ?_, fun seen a e => ?_, fun seen seen' => ?_, fun seen more r r' hne hl e e' => ?_, fun seen m more r a e e' => ?_⟩
  · unfold samplePlayer at e
    split at e
    · cases e
      exact ⟨(by decide : 64 ≤ sampleKey.length), (by decide : sampleKey.length < 256 ^ 8), sampleDraws_fit c h, (sampleDraws_fit c h).salt, by rw [length_beDigits]; decide⟩
    · cases e
  · unfold samplePlayer at e
    split at e
    · cases e
    · cases e
      exact ⟨(by decide : 64 ≤ sampleKey.length), (by decide : sampleKey.length < 256 ^ 8), (by decide : ([] : Bytes).length < 256 ^ 4), List.length_replicate⟩
  · unfold samplePlayer
    split <;> split <;> rfl
  · unfold samplePlayer at e e'
    split at e <;> split at e' <;> cases e
    · cases e'
      intro e
      have e3 : beDigits 4 seen.length = beDigits 4 (seen ++ more).length := congrArg (fun x => x.2.2.1) e
      have := congrArg fromBE e3
      rw [List.length_append] at hl
      rw [fromBE_beDigits_of_lt (by omega), fromBE_beDigits_of_lt (by rw [List.length_append]; omega), List.length_append] at this
      have : more.length = 0 := by omega
      exact hne (List.eq_nil_of_length_eq_zero this)
    · cases e'
  · unfold samplePlayer at e e'
    split at e <;> split at e' <;> cases e
    · cases e'
    · cases e'
      rintro ⟨_, _, e⟩
      have := congrArg List.length e
      rw [length_beDigits] at this
      cases this

/-- Every other call is a decryption. -/
theorem samplePlayer_atMost {c : Sizes} (data forged : List Answer → Bytes) : ∀ (n : Nat) (seen : List Answer) (q : Nat),
    n + seen.length % 2 ≤ 2 * q → (samplePlayer c data forged).AtMost n seen q
  | 0, _, _, _ => trivial
  | n + 1, seen, q, hq => by
    rw [Player.AtMost]
    by_cases he : seen.length % 2 = 0
    · rw [show samplePlayer c data forged seen = .encrypt ⟨sampleKey, sampleDraws c, none, beDigits 4 seen.length, data seen⟩ from if_pos he]
      exact fun answer => samplePlayer_atMost data forged n _ q (by rw [List.length_append, List.length_singleton]; omega)
    · rw [show samplePlayer c data forged seen = .decrypt ⟨sampleKey, [], forged seen, none, 0, List.replicate c.saltBytes 0⟩ from if_neg he]
      exact ⟨by omega, fun answer => samplePlayer_atMost data forged n _ (q - 1) (by rw [List.length_append, List.length_singleton]; omega)⟩

/-- Someone who has three bytes of what was seen last encrypted, and what was seen last turned around decrypted, and someone who has zeros encrypted. -/
theorem samplePlayer_alike (c : Sizes) : ∀ seen, (samplePlayer c (fun seen => ([1, 2, 3] ++ lastSeen seen).reverse.take 3) (fun seen => (lastSeen seen).reverse) seen).Alike
    (samplePlayer c (fun _ => [0, 0, 0]) lastSeen seen) := by
  intro seen
  unfold samplePlayer
  split
  · exact ⟨rfl, rfl, by simp⟩
  · exact List.length_reverse

example := (C99_permute sampleSlick_setup (K := 1000) (by decide) (by decide) (by decide)).blind sampleXof 1000 500 _ _ (samplePlayer_fair rfl _ _) (samplePlayer_fair rfl _ _)
  (samplePlayer_alike _) (samplePlayer_atMost _ _ 1000 [] 500 (by decide))

example := (C99_permute sampleSlick_setup (K := 1000) (by decide) (by decide) (by decide)).refused sampleXof 1000 500 _ (samplePlayer_fair rfl (fun _ => [0, 0, 0]) lastSeen)
  (samplePlayer_atMost _ _ 1000 [] 500 (by decide))

example := (C99_dual sampleDual_setup (K := 1000) (n := 168) (by decide) (by decide) (by decide) rfl rfl (by decide) (by decide) (by decide) (by decide)
  fun r hr => ⟨by simp [sampleDual, sampleChunky, hr]; decide, by simp [sampleDual, sampleChunky, hr]; decide⟩).blind sampleXof 1000 500 _ _ (samplePlayer_fair rfl _ _)
    (samplePlayer_fair rfl _ _) (samplePlayer_alike _) (samplePlayer_atMost _ _ 1000 [] 500 (by decide))

end Aiootp.Secrecy
