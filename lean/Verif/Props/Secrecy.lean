import Verif.Lemmas.SecrecyPermute
import Verif.Lemmas.SecrecyDual

/-
Property C95: messages say nothing of what was encrypted, as far as the hash function cannot be told from a random one.
-/

namespace Aiootp.Secrecy

open Cipher

/-! ### tests -/

/-- If all conversations are as frequent for one as for the other, no test tells the one from the other. -/
theorem count_test {D : Finset Bytes} {K : Nat} {f g : Hash D K → Except Err (List Bytes)}
    (h : ∀ messages, count (fun T => f T = .ok messages) = count (fun T => g T = .ok messages)) (test : List Bytes → Prop) :
    count (fun T => ∃ messages, f T = .ok messages ∧ test messages) = count (fun T => ∃ messages, g T = .ok messages ∧ test messages) := by
  classical
  let value : Except Err (List Bytes) → List Bytes := fun | .ok l => l | .error _ => []
  let I : Finset (List Bytes) := (Finset.univ.image fun T => value (f T)) ∪ (Finset.univ.image fun T => value (g T))
  have key : ∀ u : Hash D K → Except Err (List Bytes), (∀ T, value (u T) ∈ I) →
      count (fun T => ∃ messages, u T = .ok messages ∧ test messages) = ∑ messages ∈ I.filter test, count (fun T => u T = .ok messages) := by
    intro u hu
    unfold count
    rw [Finset.card_eq_sum_card_fiberwise (f := fun T => value (u T)) (t := I.filter test)]
    · refine Finset.sum_congr rfl fun messages hm => congrArg Finset.card ?_
      ext T
      simp only [Finset.mem_filter, Finset.mem_univ, true_and]
      constructor
      · rintro ⟨⟨l, h1, _⟩, h3⟩
        rw [h1] at h3 ⊢
        rw [← h3]
      · intro e
        exact ⟨⟨messages, e, (Finset.mem_filter.1 hm).2⟩, by rw [e]⟩
    · intro T hT
      obtain ⟨l, h1, h2⟩ := (Finset.mem_filter.1 hT).2
      have := hu T
      simp only [h1, value] at this ⊢
      exact Finset.mem_filter.2 ⟨this, h2⟩
  rw [key f fun T => Finset.mem_union_left _ (Finset.mem_image_of_mem _ (Finset.mem_univ T)),
    key g fun T => Finset.mem_union_right _ (Finset.mem_image_of_mem _ (Finset.mem_univ T))]
  exact Finset.sum_congr rfl fun messages _ => h messages

theorem count_zero {D : Finset Bytes} {K : Nat} {P : Hash D K → Prop} (h : ∀ T, ¬ P T) : count P = 0 := by
  classical
  unfold count
  exact Finset.card_eq_zero.2 (Finset.filter_eq_empty_iff.2 fun T _ => h T)

theorem Alike.fit {c : Sizes} {ask ask' : Chooser} (h : Alike ask ask') : ∀ (messages seen : List Bytes),
    (AllFit c ask seen messages ↔ AllFit c ask' seen messages) ∧ hiddenBytes c ask seen messages = hiddenBytes c ask' seen messages
  | [], _ => ⟨Iff.rfl, rfl⟩
  | m :: ms, seen => by
    obtain ⟨i1, i2⟩ := Alike.fit (c := c) h ms (seen ++ [m])
    obtain ⟨h1, h2, h3⟩ := h seen
    constructor
    · simp only [AllFit, Fits, h1, h2, h3, i1]
    · simp only [hiddenBytes, h3, i2]

theorem conversation_length {encrypt : Request → Except Err Bytes} {ask : Chooser} : ∀ (n : Nat) (seen : List Bytes) {l : List Bytes},
    conversation encrypt ask n seen = .ok l → l.length = seen.length + n
  | 0, _, _, h => by cases h; rfl
  | n + 1, seen, l, h => by
    simp only [conversation, bind_eq_ok] at h
    obtain ⟨m, _, h⟩ := h
    have := conversation_length n _ h
    simp at this
    omega

/-! ### the ciphers -/

/-- The messages of a cipher are uniform, and say nothing but the sizes, if its hash function is drawn at random on the inputs that have a key after one of `constants`. `encrypt x` is
`bytes_encrypt` with the hash function `x`. For all known values of the hash function elsewhere, and all ways to choose what is encrypted: -/
structure Hides (c : Sizes) (constants : List Bytes) (K : Nat) (encrypt : Xof → Request → Except Err Bytes) : Prop where
  /-- Each of the lists of messages that look right is made by the same share of hash functions: one in 256 for each byte of the tags and of the blocks. No others are made. Only inputs
  that have the key of the request need be random. -/
  uniform : ∀ (known : Xof) (n : Nat) (ask : Chooser), ask.Fair c n → ∃ D0 : Finset Bytes,
    (∀ q ∈ D0, ∃ F ∈ constants, ∃ seen w, q = F ++ (ask seen).key ++ w) ∧ ∀ D, D0 ⊆ D → ∀ messages : List Bytes, messages.length = n →
    (AllFit c ask [] messages → count (fun T : Hash D K => conversation (encrypt (T.xof known)) ask n [] = .ok messages) * 256 ^ hiddenBytes c ask [] messages = total D K) ∧
    (¬ AllFit c ask [] messages → count (fun T : Hash D K => conversation (encrypt (T.xof known)) ask n [] = .ok messages) = 0)
  /-- No test of the messages tells two ways to choose apart, if the plaintexts have the same sizes. -/
  blind : ∀ (known : Xof) (n : Nat) (ask ask' : Chooser), ask.Fair c n → ask'.Fair c n → Alike ask ask' → ∃ D0 : Finset Bytes,
    (∀ q ∈ D0, ∃ F ∈ constants, ∃ seen w, q = F ++ (ask seen).key ++ w ∨ q = F ++ (ask' seen).key ++ w) ∧ ∀ D, D0 ⊆ D → ∀ test : List Bytes → Prop,
    count (fun T : Hash D K => ∃ messages, conversation (encrypt (T.xof known)) ask n [] = .ok messages ∧ test messages) =
      count (fun T : Hash D K => ∃ messages, conversation (encrypt (T.xof known)) ask' n [] = .ok messages ∧ test messages)

theorem hides_of_scheme {c : Sizes} {K : Nat} {constants : List Bytes} {encrypt : Xof → Request → Except Err Bytes} {enc : Request → HashTree K Bytes} {own : Request → Set Bytes}
    (H : Scheme c enc own) (hown : ∀ r, r.Valid c → ∀ q ∈ own r, ∃ F ∈ constants, ∃ w, q = F ++ r.key ++ w)
    (he : ∀ (known : Xof) (D : Finset Bytes) (T : Hash D K) r, r.Valid c → (enc r).AllIn (D : Set Bytes) → encrypt (T.xof known) r = .ok ((enc r).run (Oracle.Tree.ext T))) :
    Hides c constants K encrypt := by
  classical
  have uniform : ∀ (known : Xof) (n : Nat) (ask : Chooser), ask.Fair c n → ∃ D0 : Finset Bytes,
      (∀ q ∈ D0, ∃ F ∈ constants, ∃ seen w, q = F ++ (ask seen).key ++ w) ∧ ∀ D, D0 ⊆ D → ∀ messages : List Bytes, messages.length = n →
      (AllFit c ask [] messages → count (fun T : Hash D K => conversation (encrypt (T.xof known)) ask n [] = .ok messages) * 256 ^ hiddenBytes c ask [] messages = total D K) ∧
      (¬ AllFit c ask [] messages → count (fun T : Hash D K => conversation (encrypt (T.xof known)) ask n [] = .ok messages) = 0) := by
    intro known n ask fair
    obtain ⟨D0, h0, h1⟩ := H.count fair
    refine ⟨D0, fun q hq => ?_, fun D hD => h1 D hD (fun T r => encrypt (T.xof known) r) (he known D)⟩
    obtain ⟨seen, hs⟩ := h0 q hq
    obtain ⟨F, hF, w, e⟩ := hown _ (fair.valid seen) q hs
    exact ⟨F, hF, seen, w, e⟩
  refine ⟨uniform, fun known n ask ask' fair fair' alike => ?_⟩
  obtain ⟨D1, a1, b1⟩ := uniform known n ask fair
  obtain ⟨D2, a2, b2⟩ := uniform known n ask' fair'
  refine ⟨D1 ∪ D2, fun q hq => ?_, fun D hD test => count_test (fun messages => ?_) test⟩
  · rcases Finset.mem_union.1 hq with hq | hq
    · obtain ⟨F, hF, seen, w, e⟩ := a1 q hq
      exact ⟨F, hF, seen, w, .inl e⟩
    · obtain ⟨F, hF, seen, w, e⟩ := a2 q hq
      exact ⟨F, hF, seen, w, .inr e⟩
  · by_cases hn : messages.length = n
    · obtain ⟨u1, u2⟩ := b1 D (Finset.union_subset_left hD) messages hn
      obtain ⟨v1, v2⟩ := b2 D (Finset.union_subset_right hD) messages hn
      obtain ⟨i1, i2⟩ := alike.fit (c := c) messages []
      by_cases hf : AllFit c ask [] messages
      · have e1 := u1 hf
        have e2 := v1 (i1.1 hf)
        rw [← i2] at e2
        exact Nat.eq_of_mul_eq_mul_right (pow_pos (by norm_num) _) (e1.trans e2.symm)
      · rw [u2 hf, v2 fun h => hf (i1.2 h)]
    · have zero : ∀ ask : Chooser, count (fun T : Hash D K => conversation (encrypt (T.xof known)) ask n [] = .ok messages) = 0 := by
        intro ask
        refine count_zero fun T e => ?_
        have := conversation_length n [] e
        simp at this
        exact hn this
      rw [zero, zero]

/-- **C95**. The shake-permute ciphers hide what they encrypt. -/
theorem C95_permute {E : Env} (h : PermuteSetup E) {K : Nat} (hK : E.cfg.primerKeyBytes (5 * E.cfg.blocksize) ≤ K) :
    Hides E.cfg [E.shmacKdf.factory] K fun x r => (permuteCipher { E with shmacKdf := { E.shmacKdf with xof := x } }).bytesEncrypt r.key r.draws r.salt r.aad r.data := by
  refine hides_of_scheme (permute_scheme h hK) ?_ fun known D T r hv hD => permute_encrypt h hK known T r hv hD
  rintro r hv q ⟨j, w, rfl, _⟩
  obtain ⟨w', e⟩ := sessionOf_key (k := E.shmacKdf) h.usable.env.kdf h.salt_lt h.iv_lt hv
  exact ⟨E.shmacKdf.factory, by simp, w' ++ w, by rw [e]; simp only [List.append_assoc]⟩

/-- **C95**. The dual output ciphers hide what they encrypt, if the constants of their three hash objects are different and as long as one another, and each ratchet key gives as many bytes
to the left one as to the right one. -/
theorem C95_dual {E : DualEnv} (h : DualSetup E) {K n : Nat} (hK : E.cfg.primerKeyBytes (5 * E.cfg.innerHeaderBytes) ≤ K)
    (hll : E.leftKdf.factory.length = E.shmacKdf.factory.length) (hlr : E.rightKdf.factory.length = E.shmacKdf.factory.length)
    (h1 : E.shmacKdf.factory ≠ E.leftKdf.factory) (h2 : E.shmacKdf.factory ≠ E.rightKdf.factory) (h3 : E.leftKdf.factory ≠ E.rightKdf.factory)
    (hn0 : 0 < n) (hn : ∀ r : Bytes, r.length = 2 * E.cfg.shmacBlocksize → (E.leftSlice r).length = n ∧ (E.rightSlice r).length = n) :
    Hides E.cfg [E.shmacKdf.factory, E.leftKdf.factory, E.rightKdf.factory] K fun x r =>
      (dualCipher { E with shmacKdf := { E.shmacKdf with xof := x }, leftKdf := { E.leftKdf with xof := x }, rightKdf := { E.rightKdf with xof := x } }).bytesEncrypt
        r.key r.draws r.salt r.aad r.data := by
  have hsep : Separated E n := ⟨hll, hlr, h1, h2, h3, hn0, hn⟩
  refine hides_of_scheme (dual_scheme h hsep hK) ?_ fun known D T r hv hD => dual_encrypt h hsep hK known T r hv hD
  rintro r hv q ⟨j, ⟨w, rfl, _⟩ | ⟨w, rfl, _⟩ | ⟨w, rfl, _⟩⟩
  · obtain ⟨w', e⟩ := sessionOf_key (k := E.shmacKdf) h.usable.env.kdf h.salt_lt h.iv_lt hv
    exact ⟨E.shmacKdf.factory, by simp, w' ++ w, by rw [e]; simp only [List.append_assoc]⟩
  · obtain ⟨w', e⟩ := sessionOf_key (k := E.leftKdf) h.sides.1 h.salt_lt h.iv_lt hv
    exact ⟨E.leftKdf.factory, by simp, w' ++ w, by rw [e]; simp only [List.append_assoc]⟩
  · obtain ⟨w', e⟩ := sessionOf_key (k := E.rightKdf) h.sides.2 h.salt_lt h.iv_lt hv
    exact ⟨E.rightKdf.factory, by simp, w' ++ w, by rw [e]; simp only [List.append_assoc]⟩

/-- Someone who has three bytes of the messages so far encrypted. -/
def sampleAsk (c : Sizes) : Chooser := fun seen =>
  ⟨sampleKey, sampleDraws c, none, beDigits 4 seen.length, ([1, 2, 3] ++ seen.flatten).reverse.take 3⟩

/-- Someone who has zeros encrypted. -/
def sampleZeros (c : Sizes) : Chooser := fun seen => ⟨sampleKey, sampleDraws c, none, beDigits 4 seen.length, [0, 0, 0]⟩

theorem sample_fair {c : Sizes} (h : c.timestampBytes = 4) : (sampleAsk c).Fair c 1000 ∧ (sampleZeros c).Fair c 1000 ∧ Alike (sampleAsk c) (sampleZeros c) := by
  have key : ∀ (data : List Bytes → Bytes), Chooser.Fair c 1000 fun seen => ⟨sampleKey, sampleDraws c, none, beDigits 4 seen.length, data seen⟩ := fun data => by
    refine ⟨fun seen => ⟨(by decide : 64 ≤ sampleKey.length), (by decide : sampleKey.length < 256 ^ 8), sampleDraws_fit c h, (sampleDraws_fit c h).salt, by rw [length_beDigits]; decide⟩, fun _ _ => rfl, fun seen more hne hl e => ?_⟩
    have e3 : beDigits 4 seen.length = beDigits 4 (seen ++ more).length := congrArg (fun x => x.2.2.1) e
    have := congrArg fromBE e3
    rw [List.length_append] at hl
    rw [fromBE_beDigits_of_lt (by omega), fromBE_beDigits_of_lt (by rw [List.length_append]; omega), List.length_append] at this
    have : more.length = 0 := by omega
    exact hne (List.eq_nil_of_length_eq_zero this)
  refine ⟨key _, key fun _ => [0, 0, 0], fun seen => ⟨rfl, rfl, ?_⟩⟩
  simp [sampleAsk, sampleZeros]

example := (C95_permute sampleSlick_setup (K := 1000) (by decide)).blind sampleXof 1000 _ _ (sample_fair rfl).1 (sample_fair rfl).2.1 (sample_fair rfl).2.2

/-- Chunky2048 with three different constants. -/
def sampleDual : DualEnv := { sampleChunky with leftKdf := { sampleKdf with factory := [4, 5, 6] }, rightKdf := { sampleKdf with factory := [7, 8, 9] } }

theorem sampleDual_setup : DualSetup sampleDual :=
  have h := sampleChunky_setup
  ⟨h.accepted, h.permutation, h.blocksize, h.pad, h.left_pad, h.right_pad, h.left_lt, h.tag_pos, h.tag_le, h.salt_lt, h.iv_lt⟩

example := (C95_dual sampleDual_setup (K := 1000) (n := 168) (by decide) rfl rfl (by decide) (by decide) (by decide) (by decide)
  fun r hr => ⟨by simp [sampleDual, sampleChunky, hr]; decide, by simp [sampleDual, sampleChunky, hr]; decide⟩).blind sampleXof 1000 _ _
    (sample_fair rfl).1 (sample_fair rfl).2.1 (sample_fair rfl).2.2

/-- There are hash functions to draw. -/
theorem total_pos (D : Finset Bytes) (K : Nat) : 0 < total D K := by
  unfold total
  exact Fintype.card_pos_iff.2 ⟨fun _ => ⟨List.replicate K 0, by simp⟩⟩

end Aiootp.Secrecy
