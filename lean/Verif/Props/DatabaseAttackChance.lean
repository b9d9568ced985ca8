import Verif.Lemmas.DatabaseKeys
import Verif.Props.DatabaseAttack

/-
Property C105, if the hash function of the names and keys is drawn, too.
-/

namespace Aiootp.Database

open Cipher (Draws Sizes DualEnv DualSetup dualCipher)
open Secrecy

variable {J : Type}

/-- What is hashed for the keys of the files is drawn, too, whatever the names of the files may be. -/
structure DrawnKeys (K : KdfEnv) (known : Xof) (key salt : Bytes) (tags : Finset String) (B : Finset Bytes) : Prop extends Drawn K known key salt tags B where
  keys : ∀ d : Bytes, d.length = 24 → ∃ m ∈ B, Use.message (K.rehash known) (orElse ((K.rehash known).root key) []) (.cipherKey salt (encodeFilename d) []) = .ok m

/-- **C105**. As for C105, and the hash function of the names and keys is drawn, too. Then nothing is left to assume of them: the chance that one of `n` calls `query_tag` or `pop_tag` returns a
value that was not stored with this tag by an earlier call is at most `n` times the number of files in `256 ^ shmacBytes`, and twice the number of tags, times one more, in `256 ^ 24`. -/
theorem C105_chance {X : DualEnv} (h : DualSetup X) (hframe : X.cfg.paddingFrame ≤ 256) {N : Nat} (hN : 2 * X.cfg.shmacBlocksize ≤ N) (htag : X.cfg.shmacBytes ≤ X.cfg.shmacBlocksize)
    {K : KdfEnv} (hK : K.Shapes) (dumps : J → Except Err Bytes) (loads : Bytes → Except Err J) (dumpManifest : Manifest → Bytes) (loadManifest : Bytes → Except Err Manifest)
    (known known' : Xof) {tags : Finset String} {key salt : Bytes} {B : Finset Bytes} {L : Nat} (hL : 168 ≤ L) (hB : DrawnKeys K known key salt tags B)
    {f : Attacker Draws J} (hw : ∀ seen, (f seen).2.Within tags) (hfit : ∀ seen i d, (f seen).2.draws i d → d.Fit X.cfg)
    (hcodec : ∀ seen t v, (f seen).2.Stores t v → ∀ text, encodeValue (realEnv K X dumps loads dumpManifest loadManifest) v = .ok text →
      decodeValue (realEnv K X dumps loads dumpManifest loadManifest) text = .ok v) (n : Nat) :
    ∃ D0 : Finset Bytes, (∀ q ∈ D0, ∃ k w, 64 ≤ k.length ∧ q = X.shmacKdf.factory ++ k ++ w) ∧ ∀ D, D0 ⊆ D →
      chance (fun (G : Hash B L) (T : Hash D N) =>
        Invented (realEnv (K.rehash (G.xof known)) (rehashed X (T.xof known')) dumps loads dumpManifest loadManifest) f key salt n) ≤
      (n * (tags.card + 1) : ℕ) / 256 ^ X.cfg.shmacBytes + (2 * (tags.card * (tags.card + 1)) : ℕ) / 256 ^ 24 := by
  classical
  let bad : Hash B L → Prop := fun G => Unlucky (realEnv (K.rehash (G.xof known)) X dumps loads dumpManifest loadManifest) tags key salt ∨
    KeysMeet (realEnv (K.rehash (G.xof known)) X dumps loads dumpManifest loadManifest) tags key salt
  have hbad : count bad * 256 ^ 24 ≤ 2 * (tags.card * (tags.card + 1)) * total B L := by
    have b1 := unlucky_count hK hL known X dumps loads dumpManifest loadManifest hB.first hB.root hB.rootName hB.manifest hB.names
    have b2 := keys_count hK (le_trans (by decide) hL) known X dumps loads dumpManifest loadManifest hB.first hB.root hB.names hB.keys
    refine le_trans (Nat.mul_le_mul_right _ (count_or _ _)) ?_
    rw [Nat.add_mul]
    refine le_trans (Nat.add_le_add b1 b2) (le_of_eq ?_)
    ring
  have one : ∀ G : Hash B L, ∃ D0 : Finset Bytes, (∀ q ∈ D0, ∃ k w, 64 ≤ k.length ∧ q = X.shmacKdf.factory ++ k ++ w) ∧ (¬ bad G → ∀ D, D0 ⊆ D →
      count (fun T : Hash D N => Invented (realEnv (K.rehash (G.xof known)) (rehashed X (T.xof known')) dumps loads dumpManifest loadManifest) f key salt n) * 256 ^ X.cfg.shmacBytes ≤
      n * (tags.card + 1) * total D N) := by
    intro G
    by_cases hg : bad G
    · exact ⟨∅, fun q hq => absurd hq (Finset.notMem_empty q), fun hn => absurd hg hn⟩
    · have hK' := rehash_shapes hK (G.xof known)
      obtain ⟨k1, k2⟩ := key_sizes hK' (X := X) dumps loads dumpManifest loadManifest key salt
      obtain ⟨D0, d1, d2⟩ := C105 h hframe hN htag hK' dumps loads dumpManifest loadManifest known' rfl (fun t ht e => hg (.inl (.inl ⟨t, ht, e⟩))) (fun t ht e => hg (.inl (.inr ⟨t, ht, e⟩)))
        (fun t ht u hu e => Classical.byContradiction fun hne => hg (.inr ⟨t, ht, u, hu, hne, e⟩)) hw hfit
        (fun seen t v hs text ht => by
          rw [← hcodec seen t v hs text (by rw [← ht]; exact encode_congr rfl v)]
          exact decode_congr rfl text) n
      refine ⟨D0, fun q hq => ?_, fun _ => d2⟩
      obtain ⟨k, w, hk, e⟩ := d1 q hq
      refine ⟨k, w, ?_, e⟩
      rcases hk with rfl | ⟨t, _, rfl⟩
      · rw [k2]; decide
      · rw [k1]
  choose D0 d1 d2 using one
  refine ⟨Finset.univ.biUnion D0, fun q hq => ?_, fun D hD => ?_⟩
  · obtain ⟨G, _, hG⟩ := Finset.mem_biUnion.1 hq
    exact d1 G q hG
  · exact chance_small bad (fun G hG => d2 G hG D ((Finset.subset_biUnion_of_mem D0 (Finset.mem_univ G)).trans hD)) hbad

/-! ### a case -/

theorem exists_image (A : Finset Bytes) (g : Digest 24 → Bytes) : ∃ B : Finset Bytes, ∀ m, m ∈ B ↔ m ∈ A ∨ ∃ d, g d = m := by
  classical
  refine ⟨A ∪ Finset.univ.image g, fun m => ?_⟩
  simp only [Finset.mem_union, Finset.mem_image, Finset.mem_univ, true_and]

theorem digitsRev_short {base : Nat} (hb : 2 ≤ base) (k : Nat) : ∀ n < 2 ^ k, (Text.digitsRev base n).length ≤ k := by
  induction k with
  | zero =>
    intro n hn
    cases (by simpa using hn : n = 0)
    unfold Text.digitsRev
    simp
  | succ k ih =>
    intro n hn
    unfold Text.digitsRev
    split
    · simp
    · have : n / base < 2 ^ k := by
        refine Nat.div_lt_of_lt_mul (lt_of_lt_of_le hn ?_)
        rw [pow_succ, Nat.mul_comm]
        exact Nat.mul_le_mul_right _ hb
      simpa using ih _ this

theorem utf8_short (l : List Char) : l.utf8Encode.size ≤ 4 * l.length := by
  induction l with
  | nil => simp
  | cons c l ih =>
    rw [List.utf8Encode_cons, ByteArray.size_append, List.utf8Encode_singleton]
    have := c.utf8Size_le_four
    have h2 : (String.utf8EncodeChar c).toByteArray.size = c.utf8Size := by simp
    rw [h2, List.length_cons]
    omega

theorem encodeFilename_short (d : Bytes) (hd : d.length = 24) : (utf8 (encodeFilename d)).length < 256 ^ 8 := by
  have hlt : fromBE d < 2 ^ 192 := by
    have := fromBE_lt d
    rw [hd] at this
    exact lt_of_lt_of_le this (by norm_num)
  have hlen : ∀ s, Text.bytesToFilename d = .ok s → s.length ≤ 192 := by
    intro s hs
    unfold Text.bytesToFilename Text.intAsBase at hs
    split at hs
    · cases hs; decide
    · simp only [Option.getD_some] at hs
      rw [if_neg (by decide), if_neg (by decide)] at hs
      obtain ⟨cs, h1, h2, _⟩ := Text.lookupAll_ok (table := Text.base38.take 38) (ds := (Text.digitsRev 38 (fromBE d)).reverse) (fun x hx => by
        have := Text.digitsRev_lt (by decide) x (List.mem_reverse.1 hx)
        simpa [Text.base38] using this)
      rw [h1] at hs
      cases hs
      rw [h2, List.length_reverse]
      exact digitsRev_short (by decide) 192 _ hlt
  obtain ⟨s, h1, _⟩ := Text.bytesToFilename_spec d
  have h2 := hlen s h1
  unfold encodeFilename
  rw [h1]
  show (String.ofList (s.map Char.ofNat)).toByteArray.data.toList.length < _
  rw [String.toByteArray_ofList]
  have := utf8_short (s.map Char.ofNat)
  rw [List.length_map] at this
  have h3 : (s.map Char.ofNat).utf8Encode.data.toList.length = (s.map Char.ofNat).utf8Encode.size := rfl
  rw [h3]
  omega

/-- What is hashed for the names, for the manifest's key, and for the keys of files with whatever names. -/
theorem exists_drawnKeys : ∃ B, DrawnKeys spreadKdf spreadXof (List.replicate 64 1) [5] sampleTags B := by
  obtain ⟨B, mem⟩ := exists_image sampleQuestions fun d =>
    orElse (Use.message (spreadKdf.rehash spreadXof) (orElse ((spreadKdf.rehash spreadXof).root (List.replicate 64 1)) []) (.cipherKey [5] (encodeFilename d.1) [])) []
  have hd := sampleQuestions_drawn
  have sub : ∀ {P : Bytes → Prop}, (∃ m ∈ sampleQuestions, P m) → ∃ m ∈ B, P m := by
    rintro P ⟨m, hm, h⟩
    exact ⟨m, (mem _).2 (.inl hm), h⟩
  have msg : ∀ d : Bytes, d.length = 24 → ∃ m, Use.message (spreadKdf.rehash spreadXof) (orElse ((spreadKdf.rehash spreadXof).root (List.replicate 64 1)) []) (.cipherKey [5] (encodeFilename d) []) = .ok m :=
    fun d hd => message_ok (rehash_shapes spreadKdf_shapes spreadXof) _ _ (by
      intro i hi
      simp only [Use.items, List.mem_cons, List.not_mem_nil, or_false] at hi
      rcases hi with rfl | rfl | rfl | rfl
      · decide
      · decide
      · decide
      · exact encodeFilename_short d hd)
  have pre : ∀ m ∈ B, m ∈ sampleQuestions ∨
      orElse (Canon.keyPrefix (some (spreadKdf.shake128.digest (orElse ((spreadKdf.rehash spreadXof).root (List.replicate 64 1)) []) 168)) 168 [0]) [] <+: m := by
    intro m hm
    rcases (mem _).1 hm with hm | hm
    · exact .inl hm
    · obtain ⟨d, rfl⟩ := hm
      obtain ⟨m, hm⟩ := msg d.1 d.2
      obtain ⟨p, packed, hp, _, _, e⟩ := Canon.hashBytesInput_ok.1 hm
      refine .inr ?_
      rw [hm]
      have hp : Canon.keyPrefix (some (spreadKdf.shake128.digest (orElse ((spreadKdf.rehash spreadXof).root (List.replicate 64 1)) []) 168)) 168 [0] = .ok p := hp
      rw [hp]
      exact ⟨packed, e.symm⟩
  refine ⟨B, ⟨fun m hm hin => ?_, fun hin => ?_, sub hd.rootName, sub hd.manifest, fun t ht => sub (hd.names t ht)⟩, fun d hl => ?_⟩
  · rcases pre m hin with h | h
    · exact hd.first m hm h
    · have : m = orElse (spreadKdf.first (List.replicate 64 1)) [] := by rw [hm]; rfl
      rw [this] at h
      revert h
      decide +kernel
  · rcases pre _ hin with h | h
    · exact hd.root h
    · revert h
      decide +kernel
  · obtain ⟨m, hm⟩ := msg d hl
    exact ⟨m, (mem _).2 (.inr ⟨⟨d, hl⟩, by rw [hm]; rfl⟩), hm⟩

example (n : Nat) (B : Finset Bytes) (hB : DrawnKeys spreadKdf spreadXof (List.replicate 64 1) [5] sampleTags B) := C105_chance sampleDual_setup (by decide) (N := 1000) (by decide) (by decide)
  spreadKdf_shapes (Json.dumps Json.sampleFloats) (Json.loads Json.sampleFloats) (dumpManifestJson Json.sampleFloats) (loadManifestJson Json.sampleFloats) spreadXof spreadXof
  (L := 168) le_rfl hB
  (f := sampleAttacker sampleDual.cfg) (sampleAttacker_fits rfl).1 (sampleAttacker_fits rfl).2.1 ((sampleAttacker_fits rfl).2.2 _) n

end Aiootp.Database
