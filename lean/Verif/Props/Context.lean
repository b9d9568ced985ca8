import Verif.Lemmas.Context
import Verif.Props.Misuse

/-
Property C102: what is said of the risk that a context repeats is right, and as long as none does the messages hide what was encrypted.
-/

namespace Aiootp.Secrecy

open Cipher

/-- **C102**. Of all draws of ivs and siv keys for `n` messages, at most `n * (n - 1) / 2` in `256 ** len(iv + siv_key)` repeat. -/
theorem C102_repeats (c : Sizes) (n : Nat) : repeats c n * 256 ^ (c.ivBytes + c.sivKeyBytes) * 2 ≤ n * (n - 1) * Fintype.card (Tape c n) := by
  classical
  have := card_repeats (n := n) (A := Digest c.ivBytes × Digest c.sivKeyBytes)
  rw [Fintype.card_prod, card_digest, card_digest, ← pow_add] at this
  unfold repeats Repeats
  convert this

/-- **C102**. What the documentation says: with `r = len(iv + siv_key) / 3`, after `256 ** r` messages the probability of a repeat is about `256 ** -r`. It is at most half of that. -/
theorem C102_risk (c : Sizes) (n : Nat) (h : n ^ 3 ≤ 256 ^ (c.ivBytes + c.sivKeyBytes)) : repeats c n * n * 2 ≤ Fintype.card (Tape c n) := by
  rcases Nat.eq_zero_or_pos n with rfl | hn
  · simp
  · have h1 := C102_repeats c n
    have h2 : repeats c n * n ^ 3 * 2 ≤ n ^ 2 * Fintype.card (Tape c n) :=
      calc repeats c n * n ^ 3 * 2 ≤ repeats c n * 256 ^ (c.ivBytes + c.sivKeyBytes) * 2 := Nat.mul_le_mul_right _ (Nat.mul_le_mul_left _ h)
        _ ≤ n * (n - 1) * Fintype.card (Tape c n) := h1
        _ ≤ n ^ 2 * Fintype.card (Tape c n) := Nat.mul_le_mul_right _ (by rw [pow_two]; exact Nat.mul_le_mul_left _ (Nat.sub_le _ _))
    refine Nat.le_of_mul_le_mul_left ?_ (show 0 < n ^ 2 by positivity)
    calc n ^ 2 * (repeats c n * n * 2) = repeats c n * n ^ 3 * 2 := by ring
      _ ≤ _ := h2

/-- Of all pairs of a tape and a hash function, those for which the messages are made and pass a test are as many for one as for the other of two who choose alike, up to `loss n` in `scale`. -/
def ResistsDrawn (c : Sizes) (constants : List Bytes) (K : Nat) (encrypt : Xof → Request → Except Err Bytes) (like : Request → Request → Prop) (scale : Nat) (loss : Nat → Nat) : Prop :=
  ∀ (known : Xof) (n : Nat) (ask ask' : Chooser), ask.Plain c → ask'.Plain c → (∀ seen, like (ask seen) (ask' seen)) → ∃ D0 : Finset Bytes,
    (∀ q ∈ D0, ∃ F ∈ constants, ∃ seen w, q = F ++ (ask seen).key ++ w ∨ q = F ++ (ask' seen).key ++ w) ∧ ∀ D, D0 ⊆ D → ∀ test : List Bytes → Prop,
      passingDrawn c K known D encrypt ask n test * scale ≤ passingDrawn c K known D encrypt ask' n test * scale + loss n * totalDrawn c K D n ∧
      passingDrawn c K known D encrypt ask' n test * scale ≤ passingDrawn c K known D encrypt ask n test * scale + loss n * totalDrawn c K D n

theorem passing_le (K : Nat) (known : Xof) (D : Finset Bytes) (encrypt : Xof → Request → Except Err Bytes) (ask : Chooser) (n : Nat) (test : List Bytes → Prop) :
    passing K known D encrypt ask n test ≤ total D K := by
  classical
  unfold passing count total
  exact (Finset.card_filter_le _ _).trans (le_of_eq Finset.card_univ)

/-- Sums over tapes of which some are bad. -/
theorem sum_tapes {A : Type} [Fintype A] {bad : A → Prop} [DecidablePred bad] {f g : A → Nat} {s l t : Nat} (good : ∀ a, ¬ bad a → f a * s ≤ g a * s + l * t) (all : ∀ a, f a ≤ t) :
    (∑ a, f a) * s ≤ (∑ a, g a) * s + l * (Fintype.card A * t) + (Finset.univ.filter bad).card * t * s := by
  have each : ∀ a, f a * s ≤ g a * s + l * t + if bad a then t * s else 0 := fun a => by
    by_cases h : bad a
    · rw [if_pos h]
      have := Nat.mul_le_mul_right s (all a)
      omega
    · rw [if_neg h]
      exact good a h
  calc (∑ a, f a) * s = ∑ a, f a * s := Finset.sum_mul ..
    _ ≤ ∑ a, (g a * s + l * t + if bad a then t * s else 0) := Finset.sum_le_sum fun a _ => each a
    _ = _ := by
      rw [Finset.sum_add_distrib, Finset.sum_add_distrib, ← Finset.sum_mul, Finset.sum_const, Finset.card_univ, ← Finset.sum_filter, Finset.sum_const, nsmul_eq_mul, nsmul_eq_mul, Nat.cast_id, Nat.cast_id]
      ring

theorem drawn_of_resists {c : Sizes} {K scale : Nat} {loss : Nat → Nat} {constants : List Bytes} {encrypt : Xof → Request → Except Err Bytes} {like : Request → Request → Prop}
    (hl : ∀ {ask ask' : Chooser} {n : Nat}, (∀ seen, like (ask seen) (ask' seen)) → ∀ (tape : Tape c n) seen, like (ask.drawn tape seen) (ask'.drawn tape seen))
    (h : Resists c constants K encrypt like scale loss) :
    ResistsDrawn c constants K encrypt like (scale * (2 * 256 ^ (c.ivBytes + c.sivKeyBytes)))
      (fun n => loss n * (2 * 256 ^ (c.ivBytes + c.sivKeyBytes)) + n * (n - 1) * scale) := by
  classical
  intro known n ask ask' hp hp' like
  have hkey : ∀ {ask : Chooser} (tape : Tape c n) seen, (ask.drawn tape seen).key = (ask seen).key := fun tape seen => by
    unfold Chooser.drawn; split <;> rfl
  have each : ∀ tape : Tape c n, ∃ D0 : Finset Bytes,
      (∀ q ∈ D0, ∃ F ∈ constants, ∃ seen w, q = F ++ (ask seen).key ++ w ∨ q = F ++ (ask' seen).key ++ w) ∧ (¬ Repeats tape → ∀ D, D0 ⊆ D → ∀ test : List Bytes → Prop,
      passing K known D encrypt (ask.drawn tape) n test * scale ≤ passing K known D encrypt (ask'.drawn tape) n test * scale + loss n * total D K ∧
      passing K known D encrypt (ask'.drawn tape) n test * scale ≤ passing K known D encrypt (ask.drawn tape) n test * scale + loss n * total D K) := by
    intro tape
    by_cases hr : Repeats tape
    · exact ⟨∅, by simp, fun h => absurd hr h⟩
    · obtain ⟨D0, a, b⟩ := h known n _ _ (drawn_stamped hp hr) (drawn_stamped hp' hr) (hl like tape)
      refine ⟨D0, fun q hq => ?_, fun _ D hD test => (b D hD).2.2 test⟩
      obtain ⟨F, hF, seen, w, e⟩ := a q hq
      rw [hkey, hkey] at e
      exact ⟨F, hF, seen, w, e⟩
  choose D0 a b using each
  refine ⟨Finset.univ.biUnion D0, fun q hq => ?_, fun D hD test => ?_⟩
  · obtain ⟨tape, _, hq⟩ := Finset.mem_biUnion.1 hq
    exact a tape q hq
  · have sub : ∀ tape, D0 tape ⊆ D := fun tape => (Finset.subset_biUnion_of_mem D0 (Finset.mem_univ tape)).trans hD
    have hrep := C102_repeats c n
    have finish : ∀ {x y : Nat}, x * scale ≤ y * scale + loss n * (Fintype.card (Tape c n) * total D K) + repeats c n * total D K * scale →
        x * (scale * (2 * 256 ^ (c.ivBytes + c.sivKeyBytes))) ≤ y * (scale * (2 * 256 ^ (c.ivBytes + c.sivKeyBytes))) +
          (loss n * (2 * 256 ^ (c.ivBytes + c.sivKeyBytes)) + n * (n - 1) * scale) * totalDrawn c K D n := by
      intro x y hxy
      have h1 := Nat.mul_le_mul_right (2 * 256 ^ (c.ivBytes + c.sivKeyBytes)) hxy
      have h2 := Nat.mul_le_mul_right (total D K * scale) hrep
      unfold totalDrawn
      calc x * (scale * (2 * 256 ^ (c.ivBytes + c.sivKeyBytes))) = x * scale * (2 * 256 ^ (c.ivBytes + c.sivKeyBytes)) := by ring
        _ ≤ _ := h1
        _ = y * (scale * (2 * 256 ^ (c.ivBytes + c.sivKeyBytes))) + loss n * (2 * 256 ^ (c.ivBytes + c.sivKeyBytes)) * (Fintype.card (Tape c n) * total D K) +
          repeats c n * 256 ^ (c.ivBytes + c.sivKeyBytes) * 2 * (total D K * scale) := by ring
        _ ≤ y * (scale * (2 * 256 ^ (c.ivBytes + c.sivKeyBytes))) + loss n * (2 * 256 ^ (c.ivBytes + c.sivKeyBytes)) * (Fintype.card (Tape c n) * total D K) +
          n * (n - 1) * Fintype.card (Tape c n) * (total D K * scale) := Nat.add_le_add_left h2 _
        _ = _ := by ring
    refine ⟨finish ?_, finish ?_⟩
    · exact sum_tapes (bad := Repeats) (fun tape hr => (b tape hr D (sub tape) test).1) fun tape => passing_le ..
    · exact sum_tapes (bad := Repeats) (fun tape hr => (b tape hr D (sub tape) test).2) fun tape => passing_le ..

/-- **C102**. The dual output ciphers, under the conditions of `C101_dual`, with ivs and siv keys that are drawn. All else may be the same for all messages. -/
theorem C102_dual {E : DualEnv} (h : DualSetup E) {K : Nat} (hK : E.cfg.primerKeyBytes (5 * E.cfg.innerHeaderBytes) ≤ K)
    (hll : E.leftKdf.factory.length = E.shmacKdf.factory.length) (hlr : E.rightKdf.factory.length = E.shmacKdf.factory.length)
    (h1 : E.shmacKdf.factory ≠ E.leftKdf.factory) (h2 : E.shmacKdf.factory ≠ E.rightKdf.factory) (h3 : E.leftKdf.factory ≠ E.rightKdf.factory)
    (hl : ∀ k, k.length = 2 * E.cfg.shmacBlocksize → E.leftSlice k = evens k) (hr : ∀ k, k.length = 2 * E.cfg.shmacBlocksize → E.rightSlice k = odds k) :
    ResistsDrawn E.cfg [E.shmacKdf.factory, E.leftKdf.factory, E.rightKdf.factory] K
      (fun x r => (dualCipher { E with shmacKdf := { E.shmacKdf with xof := x }, leftKdf := { E.leftKdf with xof := x }, rightKdf := { E.rightKdf with xof := x } }).bytesEncrypt
        r.key r.draws r.salt r.aad r.data)
      Request.Twin (256 ^ E.cfg.shmacBlocksize * (2 * 256 ^ (E.cfg.ivBytes + E.cfg.sivKeyBytes)))
      (fun n => 2 * n * (n - 1) * (2 * 256 ^ (E.cfg.ivBytes + E.cfg.sivKeyBytes)) + n * (n - 1) * 256 ^ E.cfg.shmacBlocksize) :=
  drawn_of_resists (fun h tape seen => drawn_twin h tape seen) (C101_dual h hK hll hlr h1 h2 h3 hl hr)

/-- **C102**. The shake-permute ciphers, under the conditions of `C101_permute`. -/
theorem C102_permute {E : Env} (h : PermuteSetup E) {K : Nat} (hK : E.cfg.primerKeyBytes (5 * E.cfg.blocksize) ≤ K) (hle : E.cfg.innerHeaderBytes ≤ E.cfg.blocksize) :
    ResistsDrawn E.cfg [E.shmacKdf.factory] K (fun x r => (permuteCipher { E with shmacKdf := { E.shmacKdf with xof := x } }).bytesEncrypt r.key r.draws r.salt r.aad r.data)
      (Request.FirstTwin E.cfg) (2 * 256 ^ (E.cfg.ivBytes + E.cfg.sivKeyBytes)) (fun n => n * (n - 1)) := by
  have := drawn_of_resists (fun h tape seen => drawn_first h tape seen) (C101_permute h hK hle)
  simpa only [Nat.one_mul, Nat.zero_mul, Nat.zero_add, Nat.mul_one] using this

/-! ### examples -/

/-- Someone for whom all is the same for each message but the plaintext: five bytes of the messages so far, after forty zeros. -/
def sampleSame (c : Sizes) : Chooser := fun seen => ⟨sampleKey, sampleDraws c, none, [], List.replicate 40 0 ++ ([1, 2, 3, 4, 5] ++ seen.flatten).reverse.take 5⟩

/-- Someone who has zeros encrypted. -/
def sampleSameZeros (c : Sizes) : Chooser := fun _ => ⟨sampleKey, sampleDraws c, none, [], List.replicate 45 0⟩

theorem sample_plain {c : Sizes} (h : c.timestampBytes = 4) (data : List Bytes → Bytes) : Chooser.Plain c fun seen => ⟨sampleKey, sampleDraws c, none, [], data seen⟩ :=
  ⟨fun _ => ⟨(by decide : 64 ≤ sampleKey.length), (by decide : sampleKey.length < 256 ^ 8), sampleDraws_fit c h, (sampleDraws_fit c h).salt, (by decide : ([] : Bytes).length < 256 ^ 4)⟩,
    fun _ _ => rfl⟩

theorem same_twin (c : Sizes) (seen : List Bytes) : (sampleSame c seen).Twin (sampleSameZeros c seen) := ⟨rfl, by simp [sampleSame, sampleSameZeros]⟩

theorem same_first (c : Sizes) (h : c.blocksize - c.innerHeaderBytes ≤ 40) (seen : List Bytes) : (sampleSame c seen).FirstTwin c (sampleSameZeros c seen) := by
  refine ⟨same_twin c seen, ?_, rfl⟩
  simp only [sampleSame, sampleSameZeros]
  rw [List.take_append_of_le_length (by simpa using h), List.take_replicate, List.take_replicate]
  congr 1
  omega

example := C102_permute sampleSlick_setup (K := 1000) (by decide) (by decide) sampleXof 1000 _ _ (sample_plain rfl _) (sample_plain rfl _) (same_first _ (by decide))

example := C102_dual sampleDual_setup (K := 1000) (by decide) rfl rfl (by decide) (by decide) (by decide)
  (fun k hk => by have := (evens_eq 168 k hk).1; rw [← this, ← show k.length / 2 = 168 by rw [hk]; decide]; rfl)
  (fun k hk => by have := (evens_eq 168 k hk).2; rw [← this, ← show k.length / 2 = 168 by rw [hk]; decide]; rfl) sampleXof 1000 _ _
    (sample_plain rfl _) (sample_plain rfl _) (same_twin (chunky2048 0))

/-- For Chunky2048, 256 ** 8 messages: one tape in 2 * 256 ** 8 repeats. -/
example := C102_risk (chunky2048 0) (256 ^ 8) (by decide)

end Aiootp.Secrecy
