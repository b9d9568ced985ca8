import Verif.Lemmas.DatabaseNames
import Verif.Props.DatabaseManifest
import Verif.Props.Secrecy

/-
What the directory of a database tells someone who does not have its key.
-/

namespace Aiootp.Database

open Cipher (Draws Sizes DualEnv DualSetup dualCipher)
open Secrecy

variable {J : Type}

/-- The cipher with another function for its three hash objects. -/
abbrev rehashed (X : DualEnv) (x : Xof) : DualEnv :=
  { X with shmacKdf := { X.shmacKdf with xof := x }, leftKdf := { X.leftKdf with xof := x }, rightKdf := { X.rightKdf with xof := x } }

/-- **C100**. What is in the values of a database cannot be told from its directory, if no file of a tag has the name of the manifest's file, and no key of a file is the beginning of the
manifest's key: two authors whose calls differ in values of the same sizes make the same of each test of what happens to the directory, for as many of the hash functions of the cipher. -/
theorem C100_values {X : DualEnv} (h : DualSetup X) (hframe : X.cfg.paddingFrame ≤ 256) {N n : Nat} (hN : X.cfg.primerKeyBytes (5 * X.cfg.innerHeaderBytes) ≤ N)
    (hll : X.leftKdf.factory.length = X.shmacKdf.factory.length) (hlr : X.rightKdf.factory.length = X.shmacKdf.factory.length)
    (h1 : X.shmacKdf.factory ≠ X.leftKdf.factory) (h2 : X.shmacKdf.factory ≠ X.rightKdf.factory) (h3 : X.leftKdf.factory ≠ X.rightKdf.factory)
    (hn0 : 0 < n) (hn : ∀ r : Bytes, r.length = 2 * X.cfg.shmacBlocksize → (X.leftSlice r).length = n ∧ (X.rightSlice r).length = n)
    {K : KdfEnv} (hK : K.Shapes) (dumps : J → Except Err Bytes) (loads : Bytes → Except Err J) (dumpManifest : Manifest → Bytes) (loadManifest : Bytes → Except Err Manifest)
    (known : Xof) {tags : Finset String} {key salt : Bytes} {E : Env Draws J} (hE : E = realEnv K X dumps loads dumpManifest loadManifest)
    (hroot : ∀ t ∈ tags, E.fileName key salt t ≠ E.rootName key) (hpre : ∀ t ∈ tags, ¬ E.fileKey key salt (E.fileName key salt t) <+: E.manifestKey key)
    {f f' : Author Draws J} {k : Nat} (hf : f.Fresh X.cfg tags.card k) (ha : ∀ seen, (f seen).Alike E tags id (f' seen)) :
    ∃ D0 : Finset Bytes, (∀ q ∈ D0, ∃ F ∈ [X.shmacKdf.factory, X.leftKdf.factory, X.rightKdf.factory], ∃ s w, 64 ≤ s.length ∧ q = F ++ s ++ w) ∧
      ∀ D, D0 ⊆ D → ∀ test : List (List Write) → Prop,
        count (fun T : Hash D N => test (watch (realEnv K (rehashed X (T.xof known)) dumps loads dumpManifest loadManifest) f k (newNode key salt) noFiles [])) =
        count (fun T : Hash D N => test (watch (realEnv K (rehashed X (T.xof known)) dumps loads dumpManifest loadManifest) f' k (newNode key salt) noFiles [])) :=
  rest_count h hframe ⟨hll, hlr, h1, h2, h3, hn0, hn⟩ hN hK hK dumps loads dumpManifest loadManifest hE hE (fun _ _ => rfl) rfl
    (fun m _ => by simp) hroot hpre hpre hf ha

/-- What is hashed for the names of the tags and of the manifest's file, and for the manifest's key, is in `B`; what is hashed for the first digest of the key is not, nor is what the root kdf has
absorbed then. -/
structure Drawn (K : KdfEnv) (known : Xof) (key salt : Bytes) (tags : Finset String) (B : Finset Bytes) : Prop where
  first : ∀ m, K.first key = .ok m → m ∉ B
  root : orElse ((K.rehash known).root key) [] ∉ B
  rootName : ∃ m ∈ B, Use.message (K.rehash known) (orElse ((K.rehash known).root key) []) .rootFilename = .ok m
  manifest : ∃ m ∈ B, Use.message (K.rehash known) (orElse ((K.rehash known).root key) []) .manifestKey = .ok m
  names : ∀ t ∈ tags, ∃ m ∈ B, Use.message (K.rehash known) (orElse ((K.rehash known).root key) []) (.filename salt t) = .ok m

theorem Call.Alike.env {E E' : Env Draws J} (hd : E'.dumps = E.dumps) (hl : E'.loads = E.loads) {tags : Finset String} {σ : String → String} {a a' : Call Draws J} (h : a.Alike E tags σ a') :
    a.Alike E' tags σ a' := by
  have hs : ∀ v v', SameSize E v v' → SameSize E' v v' := by
    rintro v v' ⟨t, t', e1, e2, e3, e4, e5⟩
    refine ⟨t, t', ?_, ?_, ?_, ?_, e5⟩
    · cases v <;> simpa [encodeValue, hd] using e1
    · simpa [decodeValue, hl] using e2
    · cases v' <;> simpa [encodeValue, hd] using e3
    · simpa [decodeValue, hl] using e4
  cases a with
  | save ds => cases a' with
    | save ds' => exact h
    | tags op => exact h
  | tags op => cases a' with
    | save ds' => exact h
    | tags op' =>
      cases op <;> cases op' <;> try exact h
      obtain ⟨h1, h2, h3, h4⟩ := h
      exact ⟨h1, h2, hs _ _ h3, h4⟩

/-- **C100**. The tags cannot be told from the directory either, but for a small chance, if the hash function of the names and keys is drawn, too: tags may be exchanged for others if the manifest
has the same size with them, and values for others of the same sizes. -/
theorem C100_tags {X : DualEnv} (h : DualSetup X) (hframe : X.cfg.paddingFrame ≤ 256) {N n : Nat} (hN : X.cfg.primerKeyBytes (5 * X.cfg.innerHeaderBytes) ≤ N)
    (hll : X.leftKdf.factory.length = X.shmacKdf.factory.length) (hlr : X.rightKdf.factory.length = X.shmacKdf.factory.length)
    (h1 : X.shmacKdf.factory ≠ X.leftKdf.factory) (h2 : X.shmacKdf.factory ≠ X.rightKdf.factory) (h3 : X.leftKdf.factory ≠ X.rightKdf.factory)
    (hn0 : 0 < n) (hn : ∀ r : Bytes, r.length = 2 * X.cfg.shmacBlocksize → (X.leftSlice r).length = n ∧ (X.rightSlice r).length = n)
    {K : KdfEnv} (hK : K.Shapes) (dumps : J → Except Err Bytes) (loads : Bytes → Except Err J) (dumpManifest : Manifest → Bytes) (loadManifest : Bytes → Except Err Manifest)
    (known known' : Xof) {tags : Finset String} {key salt : Bytes} {B : Finset Bytes} {L : Nat} (hL : 168 ≤ L) (hB : Drawn K known key salt tags B)
    {σ : String → String} (hσ : ∀ t ∈ tags, σ t ∈ tags) (hinj : ∀ t ∈ tags, ∀ u ∈ tags, σ t = σ u → t = u) (hsize : ManifestSizes dumpManifest tags σ)
    {f f' : Author Draws J} {k : Nat} (hf : f.Fresh X.cfg tags.card k) (ha : ∀ seen, (f seen).Alike (realEnv K X dumps loads dumpManifest loadManifest) tags σ (f' seen)) :
    ∃ D0 : Finset Bytes, (∀ q ∈ D0, ∃ F ∈ [X.shmacKdf.factory, X.leftKdf.factory, X.rightKdf.factory], ∃ s w, 64 ≤ s.length ∧ q = F ++ s ++ w) ∧
      ∀ D, D0 ⊆ D → ∀ test : List (List Write) → Prop,
        |chance (fun (G : Hash B L) (T : Hash D N) =>
            test (watch (realEnv (K.rehash (G.xof known)) (rehashed X (T.xof known')) dumps loads dumpManifest loadManifest) f k (newNode key salt) noFiles [])) -
          chance (fun (G : Hash B L) (T : Hash D N) =>
            test (watch (realEnv (K.rehash (G.xof known)) (rehashed X (T.xof known')) dumps loads dumpManifest loadManifest) f' k (newNode key salt) noFiles []))| ≤
        (2 * tags.card : ℕ) / 256 ^ 24 := by
  classical
  obtain ⟨e, he⟩ := exists_swap (L := L) hK known X dumps loads dumpManifest loadManifest hB.first hB.root hB.names hσ hinj
  have hbad := unlucky_count hK hL known X dumps loads dumpManifest loadManifest hB.first hB.root hB.rootName hB.manifest hB.names
  have key : ∀ G : Hash B L, ∃ D0 : Finset Bytes, (∀ q ∈ D0, ∃ F ∈ [X.shmacKdf.factory, X.leftKdf.factory, X.rightKdf.factory], ∃ s w, 64 ≤ s.length ∧ q = F ++ s ++ w) ∧
      (¬ Unlucky (realEnv (K.rehash (G.xof known)) X dumps loads dumpManifest loadManifest) tags key salt → ∀ D, D0 ⊆ D → ∀ test : List (List Write) → Prop,
        count (fun T : Hash D N => test (watch (realEnv (K.rehash (G.xof known)) (rehashDual X (T.xof known')) dumps loads dumpManifest loadManifest) f k (newNode key salt) noFiles [])) =
        count (fun T : Hash D N => test (watch (realEnv (K.rehash ((e G).xof known)) (rehashDual X (T.xof known')) dumps loads dumpManifest loadManifest) f' k (newNode key salt) noFiles []))) := by
    intro G
    by_cases hu : Unlucky (realEnv (K.rehash (G.xof known)) X dumps loads dumpManifest loadManifest) tags key salt
    · exact ⟨∅, fun q hq => absurd hq (Finset.notMem_empty q), fun hn => absurd hu hn⟩
    · obtain ⟨e1, e2, e3, e4⟩ := he G
      have hu1 : ∀ t ∈ tags, (realEnv (K.rehash (G.xof known)) X dumps loads dumpManifest loadManifest).fileName key salt t ≠
          (realEnv (K.rehash (G.xof known)) X dumps loads dumpManifest loadManifest).rootName key := fun t ht eq => hu (.inl ⟨t, ht, eq⟩)
      have hu2 : ∀ t ∈ tags, ¬ (realEnv (K.rehash (G.xof known)) X dumps loads dumpManifest loadManifest).fileKey key salt
          ((realEnv (K.rehash (G.xof known)) X dumps loads dumpManifest loadManifest).fileName key salt t) <+:
            (realEnv (K.rehash (G.xof known)) X dumps loads dumpManifest loadManifest).manifestKey key := fun t ht eq => hu (.inr ⟨t, ht, eq⟩)
      obtain ⟨m, _, hm⟩ := hB.rootName
      obtain ⟨m', _, hm'⟩ := hB.manifest
      obtain ⟨D0, c1, c2⟩ := rest_count (N := N) h hframe ⟨hll, hlr, h1, h2, h3, hn0, hn⟩ hN (rehash_shapes hK (G.xof known)) (rehash_shapes hK ((e G).xof known)) dumps loads dumpManifest loadManifest
        (known := known') rfl rfl e1 (e2 ⟨m, hm⟩) hsize hu1 hu2 (fun t ht => by rw [e4, e3 ⟨m', hm'⟩]; exact hu2 t ht) hf (fun seen => (ha seen).env rfl rfl)
      exact ⟨D0, c1, fun _ => c2⟩
  choose D0 d1 d2 using key
  refine ⟨Finset.univ.biUnion D0, fun q hq => ?_, fun D hD test => ?_⟩
  · obtain ⟨G, _, hG⟩ := Finset.mem_biUnion.1 hq
    exact d1 G q hG
  · exact chance_close e _ (fun G hG => d2 G hG D ((Finset.subset_biUnion_of_mem D0 (Finset.mem_univ G)).trans hD) test) hbad

section
variable {F : Type} (E : Json.Env F)

theorem fileItems_sizes {tags : Finset String} {σ : String → String} (h : ∀ t ∈ tags, (Json.quote (codes (σ t))).length = (Json.quote (codes t)).length) (files : Dict String)
    (hf : ∀ p ∈ files, p.2 ∈ tags) : ∃ a b, Json.dumpsItems E (fileItems (files.map fun p => (p.1, σ p.2))) = .ok a ∧ Json.dumpsItems E (fileItems files) = .ok b ∧ a.length = b.length := by
  induction files with
  | nil => exact ⟨_, _, rfl, rfl, rfl⟩
  | cons p files ih =>
    obtain ⟨a, b, e1, e2, e3⟩ := ih fun q hq => hf q (List.mem_cons_of_mem _ hq)
    obtain ⟨name, t⟩ := p
    refine ⟨44 :: 32 :: (Json.quote (codes name) ++ 58 :: 32 :: (Json.quote (codes (σ t)) ++ a)), 44 :: 32 :: (Json.quote (codes name) ++ 58 :: 32 :: (Json.quote (codes t) ++ b)), ?_, ?_, ?_⟩
    · show Json.dumpsItems E (.cons (.str (codes name)) (.str (codes (σ t))) (fileItems (files.map fun p => (p.1, σ p.2)))) = _
      rw [Json.dumpsItems, e1]
      simp [Json.keyText, Json.dumpsVal]
      rfl
    · rw [fileItems, Json.dumpsItems, e2]
      simp [Json.keyText, Json.dumpsVal]
      rfl
    · have := h t (hf _ List.mem_cons_self)
      simp only [List.length_cons, List.length_append] at this ⊢
      omega

/-- **C100**. With the manifests of `json`, tags may be exchanged for others whose texts in `json` have the same sizes. -/
theorem C100_manifest_sizes {tags : Finset String} {σ : String → String} (h : ∀ t ∈ tags, (Json.quote (codes (σ t))).length = (Json.quote (codes t)).length) :
    ManifestSizes (dumpManifestJson E) tags σ := by
  intro m hm
  obtain ⟨a, b, e1, e2, e3⟩ := fileItems_sizes E h m.files hm
  unfold dumpManifestJson manifestValue Json.dumps
  simp only [Json.dumpsVal, Json.dumpsItems, Json.keyText, e1, e2]
  cases Json.dumpsList E (strs m.metatags) with
  | error x => rfl
  | ok l =>
    simp [orElse, bind, Except.bind, pure, Except.pure, e3]

end

/-! ### a case -/

/-- What is drawn for the `i`-th file of the `n`-th call. -/
def numberedDraws (c : Sizes) (n i : Nat) : Draws := { Cipher.sampleDraws c with salt := beDigits c.saltBytes n, iv := beDigits c.ivBytes i }

/-- Someone who sets a tag to what they have seen in the directory, and saves, in turns. -/
def sampleAuthor {F : Type} (c : Sizes) (tag : String) (value : List (List Write) → UInt8) : Author Draws (Json.Val F) := fun seen =>
  if seen.length % 2 = 0 then .tags (.set tag (.bytes [value seen]) true (numberedDraws c seen.length 0)) else .save (numberedDraws c seen.length)

theorem sampleAuthor_fresh {F : Type} {c : Sizes} (h : c.timestampBytes = 4) (hs : 2 ≤ c.saltBytes) (hi : 1 ≤ c.ivBytes) (tag : String) (value : List (List Write) → UInt8) {k : Nat} (hk : k < 256) :
    (sampleAuthor (F := F) c tag value).Fresh c k 1000 := by
  have fit : ∀ n i, (numberedDraws c n i).Fit c := fun n i =>
    have g := Cipher.sampleDraws_fit c h
    ⟨length_beDigits .., length_beDigits .., g.sivKey, g.extra, g.reading_nonneg, g.reading_lt⟩
  have drawn : ∀ seen (i : Nat) d, (sampleAuthor (F := F) c tag value seen).draws i d → ∃ j, d = numberedDraws c seen.length j := by
    intro seen i d hd
    unfold sampleAuthor at hd
    split at hd
    · exact ⟨0, hd⟩
    · obtain ⟨j, _, e⟩ := hd
      exact ⟨j, e⟩
  have salt_lt : ∀ n < 1000, n < 256 ^ c.saltBytes := fun n hn => lt_of_lt_of_le (by omega : n < 256 ^ 2) (Nat.pow_le_pow_right (by decide) hs)
  have iv_lt : ∀ n ≤ k, n < 256 ^ c.ivBytes := fun n hn => lt_of_lt_of_le (by omega : n < 256 ^ 1) (Nat.pow_le_pow_right (by decide) hi)
  refine ⟨fun seen i d hd => ?_, fun seen more d d' hm hl h1 h2 => ?_, fun seen ds e i hi j hj hij => ?_⟩
  · obtain ⟨j, rfl⟩ := drawn _ _ _ hd
    exact fit _ _
  · rintro ⟨e, _⟩
    obtain ⟨i, rfl⟩ := drawn _ _ _ h1
    obtain ⟨j, rfl⟩ := drawn _ _ _ h2
    have := congrArg fromBE (show beDigits c.saltBytes seen.length = beDigits c.saltBytes (seen ++ more).length from e)
    have hp := List.length_pos_of_ne_nil hm
    rw [List.length_append] at hl this
    rw [fromBE_beDigits_of_lt (salt_lt _ (by omega)), fromBE_beDigits_of_lt (salt_lt _ hl)] at this
    omega
  · rintro ⟨_, e'⟩
    unfold sampleAuthor at e
    split at e
    · cases e
    · cases e
      have := congrArg fromBE (show beDigits c.ivBytes i = beDigits c.ivBytes j from e')
      rw [fromBE_beDigits_of_lt (iv_lt _ hi), fromBE_beDigits_of_lt (iv_lt _ hj)] at this
      exact hij this

/-- The tag is exchanged for another, and the values for others. -/
theorem sampleAuthor_alike {F : Type} {c : Sizes} {E : Env Draws (Json.Val F)} {tags : Finset String} {σ : String → String} {tag : String} (ht : tag ∈ tags) (value value' : List (List Write) → UInt8)
    (seen : List (List Write)) : (sampleAuthor (F := F) c tag value seen).Alike E tags σ (sampleAuthor c (σ tag) value' seen) := by
  unfold sampleAuthor
  split
  · exact ⟨rfl, ht, ⟨_, _, rfl, by simp [decodeValue, bytesFlag], rfl, by simp [decodeValue, bytesFlag], by simp [bytesFlag]⟩, rfl, rfl⟩
  · exact rfl

def sampleTags : Finset String := {"a", "b"}

def sampleSwap (t : String) : String := if t = "a" then "b" else "a"

def spreadXof : Xof := ⟨spreadKdf.shake128.digest, spreadKdf_shapes.size⟩

/-- What is hashed for the names and the manifest's key. -/
def sampleQuestions : Finset Bytes :=
  ([.rootFilename, .manifestKey, .filename [5] "a", .filename [5] "b"].map fun u =>
    orElse (Use.message (spreadKdf.rehash spreadXof) (orElse ((spreadKdf.rehash spreadXof).root (List.replicate 64 1)) []) u) []).toFinset

theorem sampleQuestions_drawn : Drawn spreadKdf spreadXof (List.replicate 64 1) [5] sampleTags sampleQuestions := by
  have msg : ∀ u ∈ [Use.rootFilename, .manifestKey, .filename [5] "a", .filename [5] "b"], (∀ i ∈ u.items (spreadKdf.rehash spreadXof), i.length < 256 ^ 8) →
      ∃ m ∈ sampleQuestions, Use.message (spreadKdf.rehash spreadXof) (orElse ((spreadKdf.rehash spreadXof).root (List.replicate 64 1)) []) u = .ok m := by
    intro u hu hi
    obtain ⟨m, hm⟩ := message_ok (rehash_shapes spreadKdf_shapes spreadXof) (orElse ((spreadKdf.rehash spreadXof).root (List.replicate 64 1)) []) u hi
    refine ⟨m, List.mem_toFinset.2 (List.mem_map.2 ⟨u, hu, by rw [hm]; rfl⟩), hm⟩
  refine ⟨fun m hm => ?_, by decide +kernel, msg _ (by simp) (by decide), msg _ (by simp) (by decide), fun t ht => ?_⟩
  · have : m = orElse (spreadKdf.first (List.replicate 64 1)) [] := by rw [hm]; rfl
    rw [this]
    decide +kernel
  · rcases (by simpa [sampleTags] using ht : t = "a" ∨ t = "b") with rfl | rfl
    · exact msg _ (by simp) (by decide +kernel)
    · exact msg _ (by simp) (by decide +kernel)

example := C100_tags sampleDual_setup (by decide) (N := 1000) (n := 168) (by decide) rfl rfl (by decide) (by decide) (by decide) (by decide)
  (fun r hr => ⟨by simp [sampleDual, Cipher.sampleChunky, hr]; decide, by simp [sampleDual, Cipher.sampleChunky, hr]; decide⟩)
  spreadKdf_shapes (Json.dumps Json.sampleFloats) (Json.loads Json.sampleFloats) (dumpManifestJson Json.sampleFloats) (loadManifestJson Json.sampleFloats) spreadXof spreadXof
  (L := 168) le_rfl sampleQuestions_drawn (σ := sampleSwap) (by decide) (by decide) (C100_manifest_sizes _ (by decide))
  (f := sampleAuthor sampleDual.cfg "a" fun seen => UInt8.ofNat seen.flatten.length) (f' := sampleAuthor sampleDual.cfg "b" fun _ => 0) (k := 1000)
  (sampleAuthor_fresh rfl (by decide) (by decide) _ _ (by decide)) (fun seen => sampleAuthor_alike (by decide) _ _ seen)

example := C100_values sampleDual_setup (by decide) (N := 1000) (n := 168) (by decide) rfl rfl (by decide) (by decide) (by decide) (by decide)
  (fun r hr => ⟨by simp [sampleDual, Cipher.sampleChunky, hr]; decide, by simp [sampleDual, Cipher.sampleChunky, hr]; decide⟩)
  spreadKdf_shapes (Json.dumps Json.sampleFloats) (Json.loads Json.sampleFloats) (dumpManifestJson Json.sampleFloats) (loadManifestJson Json.sampleFloats) spreadXof
  (tags := sampleTags) (key := List.replicate 64 1) (salt := [5]) rfl (by decide +kernel) (by decide +kernel)
  (f := sampleAuthor sampleDual.cfg "a" fun seen => UInt8.ofNat seen.flatten.length) (f' := sampleAuthor sampleDual.cfg "a" fun _ => 0) (k := 1000)
  (sampleAuthor_fresh rfl (by decide) (by decide) _ _ (by decide)) (fun seen => sampleAuthor_alike (by decide) _ _ seen)

end Aiootp.Database
