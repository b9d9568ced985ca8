import Verif.Lemmas.MisusePermute
import Verif.Props.Secrecy

/-
Property C101: messages hide what was encrypted even if salts and ivs repeat, as long as the clock readings or the siv keys do not.
-/

namespace Aiootp.Secrecy

open Cipher

/-- Of all hash functions, those for which the messages are made and pass a test are as many for one as for the other of two who choose alike, up to `loss n` in `scale`. `encrypt x` is
`bytes_encrypt` with the hash function `x`, `like` says which requests are alike, and `n` is the number of messages. No salts or ivs need differ. -/
def Resists (c : Sizes) (constants : List Bytes) (K : Nat) (encrypt : Xof → Request → Except Err Bytes) (like : Request → Request → Prop) (scale : Nat) (loss : Nat → Nat) : Prop :=
  ∀ (known : Xof) (n : Nat) (ask ask' : Chooser), ask.Stamped c n → ask'.Stamped c n → (∀ seen, like (ask seen) (ask' seen)) → ∃ D0 : Finset Bytes,
    (∀ q ∈ D0, ∃ F ∈ constants, ∃ seen w, q = F ++ (ask seen).key ++ w ∨ q = F ++ (ask' seen).key ++ w) ∧ ∀ D, D0 ⊆ D →
    (passing K known D encrypt ask n fun _ => True) = total D K ∧ (passing K known D encrypt ask' n fun _ => True) = total D K ∧
    ∀ test : List Bytes → Prop,
      passing K known D encrypt ask n test * scale ≤ passing K known D encrypt ask' n test * scale + loss n * total D K ∧
      passing K known D encrypt ask' n test * scale ≤ passing K known D encrypt ask n test * scale + loss n * total D K

theorem resists_of_reuse {c : Sizes} {K scale : Nat} {loss : Nat → Nat} {constants : List Bytes} {encrypt : Xof → Request → Except Err Bytes} {ε : Type} {mac : Request → Bytes}
    {after : Request → Digest K → HashTree K Bytes} {own : Request → Set Bytes} {part : Request → ε → Set Bytes} {like : Request → Request → Prop} {δ : ℚ} (H : Reuse c mac after own part like δ)
    (hs : 0 < scale) (hδ : ∀ n : Nat, (n : ℚ) * (n - 1) * δ * scale ≤ loss n)
    (hown : ∀ r, r.Valid c → ∀ q ∈ own r, ∃ F ∈ constants, ∃ w, q = F ++ r.key ++ w)
    (he : ∀ (known : Xof) (D : Finset Bytes) (T : Hash D K) r, r.Valid c → (Oracle.Tree.ask (mac r) (after r)).AllIn (D : Set Bytes) →
      encrypt (T.xof known) r = .ok ((Oracle.Tree.ask (mac r) (after r)).run (Oracle.Tree.ext T))) :
    Resists c constants K encrypt like scale loss := by
  intro known n ask ask' fair fair' ht
  obtain ⟨D0, h0, h1⟩ := H.two fair fair' ht
  refine ⟨D0, fun q hq => ?_, fun D hD => ?_⟩
  · obtain ⟨seen, hs | hs⟩ := h0 q hq
    · obtain ⟨F, hF, w, e⟩ := hown _ (fair.valid seen) q hs
      exact ⟨F, hF, seen, w, .inl e⟩
    · obtain ⟨F, hF, w, e⟩ := hown _ (fair'.valid seen) q hs
      exact ⟨F, hF, seen, w, .inr e⟩
  · obtain ⟨made, close⟩ := h1 D hD (fun T r => encrypt (T.xof known) r) (he known D)
    have all : ∀ {P : Hash D K → Prop}, (∀ T, P T) → count P = total D K := fun {P} h => by
      classical
      unfold count total
      exact (congrArg Finset.card (Finset.filter_true_of_mem fun T _ => h T)).trans Finset.card_univ
    refine ⟨all fun T => ?_, all fun T => ?_, fun test => ?_⟩
    · obtain ⟨m, e⟩ := (made T).1
      exact ⟨m, e, trivial⟩
    · obtain ⟨m, e⟩ := (made T).2
      exact ⟨m, e, trivial⟩
    · have key := close test
      rw [abs_le] at key
      have hsc : (0 : ℚ) < scale := by exact_mod_cast hs
      have bound : (n : ℚ) * (n - 1) * δ * total D K * scale ≤ loss n * total D K := by
        have := mul_le_mul_of_nonneg_right (hδ n) (show (0 : ℚ) ≤ total D K by positivity)
        calc (n : ℚ) * (n - 1) * δ * total D K * scale = (n : ℚ) * (n - 1) * δ * scale * total D K := by ring
          _ ≤ _ := this
      have k1 := mul_le_mul_of_nonneg_right key.1 hsc.le
      have k2 := mul_le_mul_of_nonneg_right key.2 hsc.le
      constructor
      · have : ((passing K known D encrypt ask n test * scale : Nat) : ℚ) ≤ ((passing K known D encrypt ask' n test * scale + loss n * total D K : Nat) : ℚ) := by
          push_cast
          unfold passing
          linarith
        exact_mod_cast this
      · have : ((passing K known D encrypt ask' n test * scale : Nat) : ℚ) ≤ ((passing K known D encrypt ask n test * scale + loss n * total D K : Nat) : ℚ) := by
          push_cast
          unfold passing
          linarith
        exact_mod_cast this

/-- **C101**. The dual output ciphers, if their ratchet keys are split into the bytes at even and the bytes at odd indexes: two who have plaintexts of the same sizes encrypted, with the same
keys, salts, aads, ivs, clock readings and siv keys, of which no two messages have all in common, are told apart by no test, but for a share of `2 * n * (n - 1)` in `256 ** s` hash
functions, with `s` the digest size of the stream mac. -/
theorem C101_dual {E : DualEnv} (h : DualSetup E) {K : Nat} (hK : E.cfg.primerKeyBytes (5 * E.cfg.innerHeaderBytes) ≤ K)
    (hll : E.leftKdf.factory.length = E.shmacKdf.factory.length) (hlr : E.rightKdf.factory.length = E.shmacKdf.factory.length)
    (h1 : E.shmacKdf.factory ≠ E.leftKdf.factory) (h2 : E.shmacKdf.factory ≠ E.rightKdf.factory) (h3 : E.leftKdf.factory ≠ E.rightKdf.factory)
    (hl : ∀ k, k.length = 2 * E.cfg.shmacBlocksize → E.leftSlice k = evens k) (hr : ∀ k, k.length = 2 * E.cfg.shmacBlocksize → E.rightSlice k = odds k) :
    Resists E.cfg [E.shmacKdf.factory, E.leftKdf.factory, E.rightKdf.factory] K
      (fun x r => (dualCipher { E with shmacKdf := { E.shmacKdf with xof := x }, leftKdf := { E.leftKdf with xof := x }, rightKdf := { E.rightKdf with xof := x } }).bytesEncrypt
        r.key r.draws r.salt r.aad r.data)
      Request.Twin (256 ^ E.cfg.shmacBlocksize) (fun n => 2 * n * (n - 1)) := by
  have hpos : 0 < E.cfg.shmacBlocksize := by
    have := h.tag_pos; have := h.tag_le; omega
  have hsep : Separated E E.cfg.shmacBlocksize := ⟨hll, hlr, h1, h2, h3, hpos, fun k hk => by
    rw [hl k hk, hr k hk, length_evens, length_odds, hk]; omega⟩
  refine resists_of_reuse (dual_reuse h hsep hK hl hr) (by positivity) (fun n => ?_) ?_ fun known D T r hv hD => dual_encrypt h hsep hK known T r hv hD
  · push_cast
    have h256 : (256 : ℚ) ^ E.cfg.shmacBlocksize ≠ 0 := by positivity
    rcases n with _ | n
    · simp
    · rw [Nat.add_sub_cancel]
      push_cast
      field_simp
      ring_nf
      exact le_refl _
  · rintro r hv q ⟨j, ⟨w, rfl, _⟩ | ⟨w, rfl, _⟩ | ⟨w, rfl, _⟩⟩
    · obtain ⟨w', e⟩ := sessionOf_key (k := E.shmacKdf) h.usable.env.kdf h.salt_lt h.iv_lt hv
      exact ⟨E.shmacKdf.factory, by simp, w' ++ w, by rw [e]; simp only [List.append_assoc]⟩
    · obtain ⟨w', e⟩ := sessionOf_key (k := E.leftKdf) h.sides.1 h.salt_lt h.iv_lt hv
      exact ⟨E.leftKdf.factory, by simp, w' ++ w, by rw [e]; simp only [List.append_assoc]⟩
    · obtain ⟨w', e⟩ := sessionOf_key (k := E.rightKdf) h.sides.2 h.salt_lt h.iv_lt hv
      exact ⟨E.rightKdf.factory, by simp, w' ++ w, by rw [e]; simp only [List.append_assoc]⟩

/-- **C101**. The shake-permute ciphers, if the clock reading and the siv key fit in a block: no test at all tells the two apart, if the first blocks of their plaintexts are the same as well. -/
theorem C101_permute {E : Env} (h : PermuteSetup E) {K : Nat} (hK : E.cfg.primerKeyBytes (5 * E.cfg.blocksize) ≤ K) (hle : E.cfg.innerHeaderBytes ≤ E.cfg.blocksize) :
    Resists E.cfg [E.shmacKdf.factory] K (fun x r => (permuteCipher { E with shmacKdf := { E.shmacKdf with xof := x } }).bytesEncrypt r.key r.draws r.salt r.aad r.data)
      (Request.FirstTwin E.cfg) 1 (fun _ => 0) := by
  refine resists_of_reuse (permute_reuse h hK hle) Nat.one_pos (fun n => by simp) ?_ fun known D T r hv hD => permute_encrypt h hK known T r hv hD
  rintro r hv q ⟨j, w, rfl, _⟩
  obtain ⟨w', e⟩ := sessionOf_key (k := E.shmacKdf) h.usable.env.kdf h.salt_lt h.iv_lt hv
  exact ⟨E.shmacKdf.factory, by simp, w' ++ w, by rw [e]; simp only [List.append_assoc]⟩

/-! ### examples -/

/-- Someone who has five bytes of the messages so far encrypted, after forty zeros. All is the same for each message but the clock reading. -/
def sampleReuse (c : Sizes) : Chooser := fun seen =>
  ⟨sampleKey, { sampleDraws c with reading := seen.length }, none, [], List.replicate 40 0 ++ ([1, 2, 3, 4, 5] ++ seen.flatten).reverse.take 5⟩

/-- Someone who has zeros encrypted. -/
def sampleReuseZeros (c : Sizes) : Chooser := fun seen => ⟨sampleKey, { sampleDraws c with reading := seen.length }, none, [], List.replicate 45 0⟩

/-- The same, with no clock reading above 999. -/
def clip (ask : Chooser) : Chooser := fun seen => ask (seen.take 999)

theorem sample_stamped {c : Sizes} (h : c.timestampBytes = 4) (data : List Bytes → Bytes) :
    (clip fun seen => ⟨sampleKey, { sampleDraws c with reading := seen.length }, none, [], data seen⟩).Stamped c 1000 := by
  have fit : ∀ seen : List Bytes, Draws.Fit { sampleDraws c with reading := (seen.take 999).length } c := fun seen => by
    have := sampleDraws_fit c h
    refine ⟨this.salt, this.iv, this.sivKey, this.extra, Int.natCast_nonneg _, ?_⟩
    rw [h, List.length_take]
    push_cast
    omega
  refine ⟨fun seen => ⟨(by decide : 64 ≤ sampleKey.length), (by decide : sampleKey.length < 256 ^ 8), fit seen, (sampleDraws_fit c h).salt, (by decide : ([] : Bytes).length < 256 ^ 4)⟩, fun _ _ => rfl, fun seen more hne hl e => ?_⟩
  have e3 : ((seen.take 999).length : Int) = (((seen ++ more).take 999).length : Int) := congrArg (fun x => x.2.1) e
  rw [List.length_append] at hl
  rw [List.length_take, List.length_take, List.length_append] at e3
  have : more.length = 0 := by omega
  exact hne (List.eq_nil_of_length_eq_zero this)

theorem sample_same (c : Sizes) (seen : List Bytes) : (clip (sampleReuse c) seen).Twin (clip (sampleReuseZeros c) seen) :=
  ⟨rfl, by simp [clip, sampleReuse, sampleReuseZeros]⟩

theorem sample_twin (c : Sizes) (h : c.blocksize - c.innerHeaderBytes ≤ 40) (seen : List Bytes) : (clip (sampleReuse c) seen).FirstTwin c (clip (sampleReuseZeros c) seen) := by
  refine ⟨sample_same c seen, ?_, rfl⟩
  simp only [clip, sampleReuse, sampleReuseZeros]
  rw [List.take_append_of_le_length (by simpa using h), List.take_replicate, List.take_replicate]
  congr 1
  omega

example := C101_permute sampleSlick_setup (K := 1000) (by decide) (by decide) sampleXof 1000 _ _ (sample_stamped rfl _) (sample_stamped rfl _) (sample_twin _ (by decide))

theorem evens_eq : ∀ (n : Nat) (k : Bytes), k.length = 2 * n → (List.range n).map (fun i => k.getD (2 * i) 0) = evens k ∧ (List.range n).map (fun i => k.getD (2 * i + 1) 0) = odds k
  | 0, k, h => by
    obtain rfl : k = [] := List.length_eq_zero_iff.1 (by simpa using h)
    exact ⟨rfl, rfl⟩
  | n + 1, k, h => by
    match k, h with
    | a :: b :: k, h =>
      obtain ⟨h1, h2⟩ := evens_eq n k (by simp at h; omega)
      have e : ∀ i, 2 * (i + 1) = 2 * i + 1 + 1 := fun i => by omega
      constructor
      · rw [List.range_succ_eq_map, List.map_cons, List.map_map, evens, ← h1]
        rfl
      · rw [List.range_succ_eq_map, List.map_cons, List.map_map]
        have : odds (a :: b :: k) = b :: odds k := by
          cases k with
          | nil => rfl
          | cons => rfl
        rw [this, ← h2]
        rfl

example := C101_dual sampleDual_setup (K := 1000) (by decide) rfl rfl (by decide) (by decide) (by decide)
  (fun k hk => by have := (evens_eq 168 k hk).1; rw [← this, ← show k.length / 2 = 168 by rw [hk]; decide]; rfl)
  (fun k hk => by have := (evens_eq 168 k hk).2; rw [← this, ← show k.length / 2 = 168 by rw [hk]; decide]; rfl) sampleXof 1000 _ _
    (sample_stamped rfl _) (sample_stamped rfl _) (sample_same (chunky2048 0))

end Aiootp.Secrecy
