import Verif.Model.DatabaseKdf
import Verif.Spec.Collision
import Verif.Spec.Database
import Verif.Props.Canon
import Verif.Props.Cipher
import Verif.Props.Padding
import Verif.Props.Database

/-!
C46: the names and keys of a database are derived from messages that never coincide.

`Use` lists what a database derives with its root kdf and `shake_128`; `Use.message` are the bytes that the hash function absorbs.
-/

namespace Aiootp.Database

open Kdf Canon

/-- The hash functions are `shake_128` and `sha3_512`, as far as sizes are concerned. -/
structure KdfEnv.Shapes (K : KdfEnv) : Prop where
  block : K.shake128.blockSize = 168
  xof : K.shake128.digestSize = 0
  size : ∀ x n, (K.shake128.digest x n).length = n
  block512 : K.sha3_512.blockSize = 72
  digest512 : K.sha3_512.digestSize = 64
  size512 : ∀ x, (K.sha3_512.digest x 64).length = 64

/-- What a database derives with `shake_128`. -/
inductive Use where
  | rootFilename
  | manifestKey
  | filename (salt : Bytes) (tag : String)
  | cipherKey (salt : Bytes) (filename : String) (aad : Bytes)

/-- How many bytes are derived. -/
def Use.size : Use → Nat
  | .rootFilename => 24
  | .manifestKey => 168
  | .filename .. => 24
  | .cipherKey .. => 64

/-- What is hashed, beside the key. -/
def Use.items (K : KdfEnv) : Use → List Bytes
  | .rootFilename => [K.dom.rootFilename]
  | .manifestKey => [K.dom.manifest]
  | .filename salt tag => [K.dom.filename, salt, utf8 tag]
  | .cipherKey salt name aad => [aad, K.dom.cipher, salt, utf8 name]

/-- The bytes that `shake_128` absorbs. -/
def Use.message (K : KdfEnv) (root : Bytes) (u : Use) : Except Err Bytes :=
  hashBytesInput (u.items K) 168 0 [0] (some u.size) (some (K.shake128.digest root 168))

/-- The derivations are digests of these messages. -/
theorem C46_derivations {K : KdfEnv} (hK : K.Shapes) (root : Bytes) :
    K.rootFilename root = (Use.message K root .rootFilename).map (K.shake128.digest · 24) ∧
    K.manifestKey root = (Use.message K root .manifestKey).map (K.shake128.digest · 168) ∧
    (∀ salt tag, K.filename root salt tag = (Use.message K root (.filename salt tag)).map (K.shake128.digest · 24)) ∧
    (∀ salt filename aad, K.cipherKey root salt filename aad = (Use.message K root (.cipherKey salt filename aad)).map (K.shake128.digest · 64)) := by
  have h : ∀ (items : List Bytes) (aad : Bytes) (n : Nat), 0 < n → runKdf K.shake128 K.shake128 root items (some n) aad =
      (hashBytesInput (aad :: items) 168 0 [0] (some n) (some (K.shake128.digest root 168))).map (K.shake128.digest · n) := by
    intro items aad n hn
    have hs : sizeOr (some n) 0 = n := by
      cases n with
      | zero => omega
      | succ n => rfl
    simp only [runKdf, hashBytes, hK.block, hK.xof, ne_eq, not_true_eq_false, if_false, hs]
    cases hashBytesInput (aad :: items) 168 0 [0] (some n) (some (K.shake128.digest root 168)) <;> rfl
  exact ⟨h _ _ _ (by decide), h _ _ _ (by decide), fun _ _ => h _ _ _ (by decide), fun _ _ _ => h _ _ _ (by decide)⟩

theorem utf8_inj {s t : String} (h : utf8 s = utf8 t) : s = t := by
  have := Array.toList_inj.1 h
  exact String.toByteArray_inj.1 (ByteArray.ext this)

/-- **C46** Different uses of one database never hash the same message: not two filenames or aads of ciphertexts, not two tags, and none of
these with the name or the key of the manifest. -/
theorem C46_messages_differ (K : KdfEnv) (root : Bytes) {u u' : Use} {x : Bytes} (h : u.message K root = .ok x) (h' : u'.message K root = .ok x) : u = u' := by
  obtain ⟨_, _, hsize, hitems⟩ := C05_same_key_length_partial h h' rfl
  have hpos : ∀ u : Use, effectiveSize (some u.size) 0 = u.size := by
    intro u; cases u <;> rfl
  rw [hpos, hpos] at hsize
  cases u <;> cases u' <;> simp only [Use.size, Use.items, List.cons.injEq, and_true, reduceCtorEq, and_false, Nat.reduceEqDiff, true_and] at hsize hitems ⊢
  · rw [hitems.1, utf8_inj hitems.2]
  · rw [hitems.1, hitems.2.1, utf8_inj hitems.2.2]

/-- **C46** If two filenames or aads of one database give the same key, they are the same, or the messages hashed for the two keys are a
collision. -/
theorem C46_same_key {K : KdfEnv} (hK : K.Shapes) {root salt : Bytes} {f f' : String} {aad aad' key : Bytes}
    (h : K.cipherKey root salt f aad = .ok key) (h' : K.cipherKey root salt f' aad' = .ok key) :
    (f = f' ∧ aad = aad') ∨ ∃ x y, Use.message K root (.cipherKey salt f aad) = .ok x ∧ Use.message K root (.cipherKey salt f' aad') = .ok y ∧
      Collide (K.shake128.digest · 64) x y := by
  rw [(C46_derivations hK root).2.2.2] at h h'
  cases hx : Use.message K root (.cipherKey salt f aad) with
  | error e => rw [hx] at h; cases h
  | ok x =>
    cases hy : Use.message K root (.cipherKey salt f' aad') with
    | error e => rw [hy] at h'; cases h'
    | ok y =>
      rw [hx] at h
      rw [hy] at h'
      have hk : K.shake128.digest x 64 = K.shake128.digest y 64 := by
        injection h with h; injection h' with h'
        exact h.trans h'.symm
      by_cases hxy : x = y
      · subst hxy
        have := C46_messages_differ K root hx hy
        injection this with _ h2 h3
        exact .inl ⟨h2, h3⟩
      · exact .inr ⟨x, y, rfl, rfl, hxy, hk⟩

/-- **C46** The names of the files of two tags are the same only for one tag, or if the messages hashed for the two names are a collision, or if the two
digests are one number with different leading zeros, see C08. Here: the digests. -/
theorem C46_same_filename {K : KdfEnv} (hK : K.Shapes) {root salt : Bytes} {t t' : String} {name : Bytes}
    (h : K.filename root salt t = .ok name) (h' : K.filename root salt t' = .ok name) :
    t = t' ∨ ∃ x y, Use.message K root (.filename salt t) = .ok x ∧ Use.message K root (.filename salt t') = .ok y ∧ Collide (K.shake128.digest · 24) x y := by
  rw [(C46_derivations hK root).2.2.1] at h h'
  cases hx : Use.message K root (.filename salt t) with
  | error e => rw [hx] at h; cases h
  | ok x =>
    cases hy : Use.message K root (.filename salt t') with
    | error e => rw [hy] at h'; cases h'
    | ok y =>
      rw [hx] at h
      rw [hy] at h'
      have hk : K.shake128.digest x 24 = K.shake128.digest y 24 := by
        injection h with h; injection h' with h'
        exact h.trans h'.symm
      by_cases hxy : x = y
      · subst hxy
        have := C46_messages_differ K root hx hy
        injection this with _ h2
        exact .inl h2
      · exact .inr ⟨x, y, rfl, rfl, hxy, hk⟩

/-- The messages of ordinary sizes exist. -/
theorem message_ok {K : KdfEnv} (hK : K.Shapes) (root : Bytes) (u : Use) (hu : ∀ i ∈ u.items K, i.length < 256 ^ 8) : ∃ x, u.message K root = .ok x := by
  have hlen : (K.shake128.digest root 168).length = 168 := hK.size _ _
  obtain ⟨packed, hp⟩ := C01_pack_total (items := beDigits 8 (effectiveSize (some u.size) 0) :: u.items K) (blocksize := 168) (intBytes := 8) (p := 0)
    (by decide) (by decide) (by decide) (by decide) (by cases u <;> simp [Use.items]) (by
      intro i hi
      rcases List.mem_cons.1 hi with rfl | hi
      · simp
      · exact hu i hi)
  have hkey : ∃ pre, keyPrefix (some (K.shake128.digest root 168)) 168 [0] = .ok pre := by
    exact Cipher.encodeKey_total (fun he => by rw [he] at hlen; cases hlen) (by rw [hlen]; decide) (by decide) (by decide) ⟨0, rfl⟩
  obtain ⟨pre, hpre⟩ := hkey
  exact ⟨pre ++ packed, hashBytesInput_ok.2 ⟨pre, packed, hpre, by cases u <;> simp [effectiveSize, Use.size], hp, rfl⟩⟩

/-- **C46** A ciphertext of the database is decrypted with the filename and the aad that it was made for. -/
theorem C46_round_trip {K : KdfEnv} (hK : K.Shapes) {X : Cipher.DualEnv} (h : Cipher.DualSetup X) (hframe : X.cfg.paddingFrame ≤ 256) (k : Keys)
    {filename : String} {aad : Bytes} (hfile : (utf8 filename).length < 256 ^ 8) (haad : aad.length < 256 ^ 8) (hsalt : k.salt.length < 256 ^ 8)
    (hdom : K.dom.cipher.length < 256 ^ 8) (d : Cipher.Draws) (hd : d.Fit X.cfg) (plaintext : Bytes) :
    ∃ ciphertext, bytesEncrypt K X k d plaintext filename aad = .ok ciphertext ∧
      ∀ saltDraw : Bytes, saltDraw.length = X.cfg.saltBytes → ∀ now, bytesDecrypt K X k saltDraw now ciphertext filename aad none = .ok plaintext := by
  obtain ⟨x, hx⟩ := message_ok hK k.root (.cipherKey k.salt filename aad) (by
    intro i hi
    simp only [Use.items, List.mem_cons, List.not_mem_nil, or_false] at hi
    rcases hi with rfl | rfl | rfl | rfl <;> assumption)
  have hkey : K.cipherKey k.root k.salt filename aad = .ok (K.shake128.digest x 64) := by
    rw [(C46_derivations hK k.root).2.2.2, hx]; rfl
  have hlen : (K.shake128.digest x 64).length = 64 := hK.size _ _
  obtain ⟨ct, hct, hback⟩ := Cipher.C22_decrypt_encrypt h hframe (K.shake128.digest x 64) (by omega) (by rw [hlen]; decide) d hd none (.inl rfl) [] (by decide) plaintext
  refine ⟨ct, by simp [bytesEncrypt, hkey, hct, bind, Except.bind], fun sd hsd now => ?_⟩
  simp only [bytesDecrypt, hkey, bind, Except.bind]
  exact (hback sd hsd now).1

/-- **C46** A ciphertext that a database decrypts with two filenames or aads shows a collision: the messages hashed for the two keys
have one digest of `shake_128`, or the messages hashed for the tag with the two keys have one tag. -/
theorem C46_bound {K : KdfEnv} (hK : K.Shapes) {X : Cipher.DualEnv} (h : Cipher.DualSetup X) {k : Keys} {saltDraw : Bytes}
    (hdraw : saltDraw.length = X.cfg.saltBytes) {ciphertext : Bytes} {f f' : String} {aad aad' : Bytes} {now now' : Int} {ttl ttl' : Option Int}
    {out out' : Bytes} (hd : bytesDecrypt K X k saltDraw now ciphertext f aad ttl = .ok out)
    (hd' : bytesDecrypt K X k saltDraw now' ciphertext f' aad' ttl' = .ok out') :
    (f = f' ∧ aad = aad') ∨
    (∃ x y, Use.message K k.root (.cipherKey k.salt f aad) = .ok x ∧ Use.message K k.root (.cipherKey k.salt f' aad') = .ok y ∧ Collide (K.shake128.digest · 64) x y) ∨
    ∃ key key' parts padded padded' hashed hashed', K.cipherKey k.root k.salt f aad = .ok key ∧ K.cipherKey k.root k.salt f' aad' = .ok key' ∧
      Cipher.Ciphertext.parse X.cfg ciphertext = .ok parts ∧
      Cipher.recompute (Cipher.dualCipher X) key parts.salt [] parts.iv parts.ciphertext = .ok (padded, hashed) ∧
      Cipher.recompute (Cipher.dualCipher X) key' parts.salt [] parts.iv parts.ciphertext = .ok (padded', hashed') ∧
      Cipher.TagCollision X.toEnv hashed hashed' := by
  simp only [bytesDecrypt, bind_eq_ok] at hd hd'
  obtain ⟨key, hkey, hd⟩ := hd
  obtain ⟨key', hkey', hd'⟩ := hd'
  have hlen : ∀ f aad key, K.cipherKey k.root k.salt f aad = .ok key → key.length = 64 := by
    intro f aad key hk
    rw [(C46_derivations hK k.root).2.2.2] at hk
    cases hm : Use.message K k.root (.cipherKey k.salt f aad) with
    | error e => rw [hm] at hk; cases hk
    | ok m => rw [hm] at hk; cases hk; exact hK.size _ _
  have h1 := hlen _ _ _ hkey
  have h2 := hlen _ _ _ hkey'
  rcases Cipher.C24_dual h key key' saltDraw [] [] ciphertext ciphertext now now' ttl ttl' out out' (by omega) (by rw [h1]; decide) (by omega) hdraw
      (by decide) (by decide) hd hd' rfl with ⟨rfl, _⟩ | ⟨parts, parts', padded, padded', hashed, hashed', e1, e2, e3, e4, hc⟩
  · rcases C46_same_key hK hkey hkey' with he | hc
    · exact .inl he
    · exact .inr (.inl hc)
  · rw [e1] at e2
    injection e2 with e2
    subst e2
    exact .inr (.inr ⟨key, key', parts, padded, padded', hashed, hashed', hkey, hkey', e1, e3, e4, hc⟩)

/-! ### the assumptions of C40 to C45 -/

/-- The derivations and the cipher of the code meet the assumptions of the theorems about databases. -/
theorem realEnv_law {J : Type} {K : KdfEnv} (hK : K.Shapes) {X : Cipher.DualEnv} (h : Cipher.DualSetup X) (hframe : X.cfg.paddingFrame ≤ 256)
    (dumps : J → Except Err Bytes) (loads : Bytes → Except Err J) (dumpManifest : Manifest → Bytes) (loadManifest : Bytes → Except Err Manifest)
    (hman : ∀ man, man.Sound → loadManifest (dumpManifest man) = .ok man) :
    (realEnv K X dumps loads dumpManifest loadManifest).Law (fun d => d.Fit X.cfg) := by
  have hround : ∀ key d text, KeySize key → d.Fit X.cfg → ∃ ct, (realEnv K X dumps loads dumpManifest loadManifest).encrypt key d text = ct ∧
      ∀ now, (realEnv K X dumps loads dumpManifest loadManifest).decrypt key now none ct = .ok text ∧
        ∀ ttl x, (realEnv K X dumps loads dumpManifest loadManifest).decrypt key now ttl ct = .ok x → x = text := by
    intro key d text hk hd
    obtain ⟨ct, hct, hback⟩ := Cipher.C22_decrypt_encrypt h hframe key hk.1 hk.2 d hd none (.inl rfl) [] (by decide) text
    refine ⟨ct, by simp [realEnv, hct, orElse], fun now => ?_⟩
    obtain ⟨h1, h2⟩ := hback (List.replicate X.cfg.saltBytes 0) (by simp; rfl) now
    refine ⟨h1, fun ttl x hx => ?_⟩
    cases ttl with
    | none =>
      have := h1.symm.trans hx
      cases this
      rfl
    | some ttl =>
      have := (h2 ttl).symm.trans hx
      split at this
      · cases this
      · cases this; rfl
  have hdig : ∀ (u : Use) (root : Bytes) (n : Nat) (x : Bytes), (u.message K root).map (K.shake128.digest · n) = .ok x → x.length = n := by
    intro u root n x hx
    cases hm : u.message K root with
    | error e => rw [hm] at hx; cases hx
    | ok m => rw [hm] at hx; cases hx; exact hK.size _ _
  refine ⟨?_, ?_, ?_, ?_, ?_, ?_, hman⟩
  · intro key d text hk hd now
    obtain ⟨ct, rfl, hct⟩ := hround key d text hk hd
    exact (hct now).1
  · intro key d text hk hd now ttl x hx
    obtain ⟨ct, rfl, hct⟩ := hround key d text hk hd
    exact (hct now).2 ttl x hx
  · intro key d text hk hd hnil
    obtain ⟨ct, hct, hback⟩ := hround key d text hk hd
    rw [hnil] at hct
    have hb := (hback 0).1
    rw [← hct] at hb
    simp only [realEnv, Cipher.Cipher.bytesDecrypt, bind_eq_ok] at hb
    obtain ⟨parts, hp, _⟩ := hb
    simp only [Cipher.Ciphertext.parse] at hp
    split at hp
    · cases hp
    · rename_i hn
      simp only [List.length_nil, not_or] at hn
      omega
  · intro key salt name
    show KeySize (orElse _ _)
    cases hx : K.cipherKey (orElse (K.root key) []) salt name [] with
    | error e => simp [orElse, KeySize]
    | ok x =>
      rw [(C46_derivations hK _).2.2.2] at hx
      have := hdig _ _ _ _ hx
      simp [orElse, KeySize, this]
  · intro key
    show KeySize (orElse _ _)
    cases hx : K.manifestKey (orElse (K.root key) []) with
    | error e => simp only [orElse, KeySize, List.length_replicate]; decide
    | ok x =>
      rw [(C46_derivations hK _).2.1] at hx
      have := hdig _ _ _ _ hx
      simp [orElse, KeySize, this]
  · intro key salt tag
    show 64 ≤ (orElse _ _).length
    cases hx : K.metatagKey (orElse (K.root key) []) salt tag with
    | error e => simp [orElse]
    | ok x =>
      simp only [KdfEnv.metatagKey, runKdf, hashBytes, hK.digest512, bind_eq_ok] at hx
      obtain ⟨m, _, hx⟩ := hx
      cases hx
      simp only [orElse]
      have := hK.size512 m
      simp [sizeOr]
      omega

/-! ### a sample -/

/-- Digests of the right sizes: the first bytes of what was absorbed, padded with zeros. -/
def sampleKdf : KdfEnv where
  shake128 := ⟨168, 0, fun x n => (x ++ List.replicate n 0).take n⟩
  sha3_512 := ⟨72, 64, fun x n => (x ++ List.replicate n 0).take n⟩
  salt := [1]
  kdfDomain := [2]
  dom := ⟨[3], [4], [5], [6], [7], [8]⟩

theorem sampleKdf_shapes : sampleKdf.Shapes where
  block := rfl
  xof := rfl
  size := by intro x n; simp [sampleKdf]
  block512 := rfl
  digest512 := rfl
  size512 := by intro x; simp [sampleKdf]

example (d : Cipher.Draws) (hd : d.Fit Cipher.sampleChunky.cfg) (text : Bytes) :
    ∃ ciphertext, bytesEncrypt sampleKdf Cipher.sampleChunky ⟨[1], [2]⟩ d text "name" [9] = .ok ciphertext ∧
      ∀ saltDraw : Bytes, saltDraw.length = Cipher.sampleChunky.cfg.saltBytes → ∀ now,
        bytesDecrypt sampleKdf Cipher.sampleChunky ⟨[1], [2]⟩ saltDraw now ciphertext "name" [9] none = .ok text :=
  C46_round_trip sampleKdf_shapes Cipher.sampleChunky_setup (by decide) _ (by decide) (by decide) (by decide) (by decide) d hd text

example (d : Cipher.Draws) (hd : d.Fit Cipher.sampleChunky.cfg) (text : Bytes) : ∃ ciphertext out,
    bytesDecrypt sampleKdf Cipher.sampleChunky ⟨[1], [2]⟩ (List.replicate Cipher.sampleChunky.cfg.saltBytes 0) 0 ciphertext "name" [9] none = .ok out := by
  obtain ⟨ct, _, hct⟩ := C46_round_trip sampleKdf_shapes Cipher.sampleChunky_setup (by decide) ⟨[1], [2]⟩ (filename := "name") (aad := [9]) (by decide)
    (by decide) (by decide) (by decide) d hd text
  exact ⟨ct, text, hct _ List.length_replicate 0⟩

example : ∃ x, Use.message sampleKdf [1] (.cipherKey [2] "name" [9]) = .ok x :=
  message_ok sampleKdf_shapes _ _ (by decide)

example : (realEnv sampleKdf Cipher.sampleChunky sampleEnv.dumps sampleEnv.loads sampleEnv.dumpManifest sampleEnv.loadManifest).Law
    (fun d => d.Fit Cipher.sampleChunky.cfg) :=
  realEnv_law sampleKdf_shapes Cipher.sampleChunky_setup (by decide) _ _ _ _ sampleEnv_law.manifest

end Aiootp.Database
