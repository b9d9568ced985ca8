import Verif.Lemmas.DatabaseAttackCount
import Verif.Lemmas.DatabaseOrigin
import Verif.Props.DatabaseTamper

/-
Property C105: a database in a directory that is in the hands of someone else returns only what was stored, as far as the hash function cannot be told from a random one.
-/

namespace Aiootp.Database

open Cipher (Draws Sizes DualEnv DualSetup dualCipher)
open Secrecy

variable {J : Type}

/-- C105, the files: at each of `n` calls, someone who has seen what all calls before returned or raised and did to the directory replaces the directory by whatever they like. As many hash
functions as `n` times the number of files in `256 ^ shmacBytes` at most let something be read, at one of these moments and by any reading, that the same reading would not have given of the files
that the database itself wrote. -/
theorem C105_files {X : DualEnv} (h : DualSetup X) (hframe : X.cfg.paddingFrame ≤ 256) {N : Nat} (hN : 2 * X.cfg.shmacBlocksize ≤ N) (htag : X.cfg.shmacBytes ≤ X.cfg.shmacBlocksize)
    {K : KdfEnv} (hK : K.Shapes) (dumps : J → Except Err Bytes) (loads : Bytes → Except Err J) (dumpManifest : Manifest → Bytes) (loadManifest : Bytes → Except Err Manifest)
    (known : Xof) {tags : Finset String} {key salt : Bytes} {E : Env Draws J} (hE : E = realEnv K X dumps loads dumpManifest loadManifest)
    (hroot : ∀ t ∈ tags, E.fileName key salt t ≠ E.rootName key) (hpre : ∀ t ∈ tags, ¬ E.fileKey key salt (E.fileName key salt t) <+: E.manifestKey key)
    (hkeys : ∀ t ∈ tags, ∀ u ∈ tags, E.fileKey key salt (E.fileName key salt t) = E.fileKey key salt (E.fileName key salt u) → E.fileName key salt t = E.fileName key salt u)
    {f : Attacker Draws J} (hw : ∀ seen, (f seen).2.Within tags) (hfit : ∀ seen i d, (f seen).2.draws i d → d.Fit X.cfg) (n : Nat) :
    ∃ D0 : Finset Bytes, (∀ q ∈ D0, ∃ k w, (k = E.manifestKey key ∨ ∃ t ∈ tags, k = E.fileKey key salt (E.fileName key salt t)) ∧ q = X.shmacKdf.factory ++ k ++ w) ∧ ∀ D, D0 ⊆ D →
      count (fun T : Hash D N =>
        let E' := realEnv K (rehashed X (T.xof known)) dumps loads dumpManifest loadManifest
        ∃ i < n, ∃ r : Reading J, r.Of key salt tags ∧ Deceived E' key (written (attacked E' f key salt i).2) (f (attacked E' f key salt i).2).1 r) * 256 ^ X.cfg.shmacBytes ≤
      n * (tags.card + 1) * total D N := by
  obtain ⟨D0, h1, h2⟩ := attack_count h hframe hK dumps loads dumpManifest loadManifest hN htag known hE hroot hpre hkeys (fun seen => (hw seen).uses) hfit n
  refine ⟨D0, fun q hq => ?_, h2⟩
  obtain ⟨name, k, w, hn, e⟩ := h1 q hq
  refine ⟨k, w, ?_, e⟩
  rcases hn with ⟨_, rfl⟩ | ⟨t, ht, rfl, rfl⟩
  · exact .inl rfl
  · exact .inr ⟨t, ht, rfl⟩

theorem encode_congr {ρ : Type} {E E' : Env ρ J} (h : E'.dumps = E.dumps) (v : Value J) : encodeValue E' v = encodeValue E v := by
  cases v <;> simp only [encodeValue, h]

theorem decode_congr {ρ : Type} {E E' : Env ρ J} (h : E'.loads = E.loads) (text : Bytes) : decodeValue E' text = decodeValue E text := by
  simp only [decodeValue, h]

/-- **C105**. A database object is in use while its directory is in the hands of someone else. They choose each call, and before each call all that is in the directory, and see what is returned
or raised and what is written. As many hash functions as `n` times the number of files in `256 ^ shmacBytes` at most let one of `n` calls `query_tag` or `pop_tag` return a value that was not
stored with this tag by an earlier call. The values that are stored are the same when they are read from their plaintexts; different tags have files with different keys, no file of a tag has the
name of the manifest's file, and no key of a file is the beginning of the manifest's key. -/
theorem C105 {X : DualEnv} (h : DualSetup X) (hframe : X.cfg.paddingFrame ≤ 256) {N : Nat} (hN : 2 * X.cfg.shmacBlocksize ≤ N) (htag : X.cfg.shmacBytes ≤ X.cfg.shmacBlocksize)
    {K : KdfEnv} (hK : K.Shapes) (dumps : J → Except Err Bytes) (loads : Bytes → Except Err J) (dumpManifest : Manifest → Bytes) (loadManifest : Bytes → Except Err Manifest)
    (known : Xof) {tags : Finset String} {key salt : Bytes} {E : Env Draws J} (hE : E = realEnv K X dumps loads dumpManifest loadManifest)
    (hroot : ∀ t ∈ tags, E.fileName key salt t ≠ E.rootName key) (hpre : ∀ t ∈ tags, ¬ E.fileKey key salt (E.fileName key salt t) <+: E.manifestKey key)
    (hkeys : ∀ t ∈ tags, ∀ u ∈ tags, E.fileKey key salt (E.fileName key salt t) = E.fileKey key salt (E.fileName key salt u) → t = u)
    {f : Attacker Draws J} (hw : ∀ seen, (f seen).2.Within tags) (hfit : ∀ seen i d, (f seen).2.draws i d → d.Fit X.cfg)
    (hcodec : ∀ seen t v, (f seen).2.Stores t v → ∀ text, encodeValue E v = .ok text → decodeValue E text = .ok v) (n : Nat) :
    ∃ D0 : Finset Bytes, (∀ q ∈ D0, ∃ k w, (k = E.manifestKey key ∨ ∃ t ∈ tags, k = E.fileKey key salt (E.fileName key salt t)) ∧ q = X.shmacKdf.factory ++ k ++ w) ∧ ∀ D, D0 ⊆ D →
      count (fun T : Hash D N => Invented (realEnv K (rehashed X (T.xof known)) dumps loads dumpManifest loadManifest) f key salt n) * 256 ^ X.cfg.shmacBytes ≤
      n * (tags.card + 1) * total D N := by
  obtain ⟨D0, h1, h2⟩ := C105_files h hframe hN htag hK dumps loads dumpManifest loadManifest known hE hroot hpre
    (fun t ht u hu e => congrArg (E.fileName key salt) (hkeys t ht u hu e)) hw hfit n
  refine ⟨D0, h1, fun D hD => Nat.le_trans (Nat.mul_le_mul_right _ (count_mono fun T hT => ?_)) (h2 D hD)⟩
  refine Classical.byContradiction fun hno => ?_
  obtain ⟨k1, _⟩ := key_sizes hK (X := rehashDual X (T.xof known)) dumps loads dumpManifest loadManifest key salt
  obtain ⟨g1, g2, g3, g4, g5⟩ : (realEnv K (rehashDual X (T.xof known)) dumps loads dumpManifest loadManifest).fileName = E.fileName ∧
      (realEnv K (rehashDual X (T.xof known)) dumps loads dumpManifest loadManifest).rootName = E.rootName ∧
      (realEnv K (rehashDual X (T.xof known)) dumps loads dumpManifest loadManifest).fileKey = E.fileKey ∧
      (realEnv K (rehashDual X (T.xof known)) dumps loads dumpManifest loadManifest).dumps = E.dumps ∧
      (realEnv K (rehashDual X (T.xof known)) dumps loads dumpManifest loadManifest).loads = E.loads := by
    rw [hE]
    exact ⟨rfl, rfl, rfl, rfl, rfl⟩
  have ho := real_opens (K := K) dumps loads dumpManifest loadManifest (rehashDual_setup h (T.xof known)) hframe
  have hT : Invented (realEnv K (rehashDual X (T.xof known)) dumps loads dumpManifest loadManifest) f key salt n := hT
  have hno : ¬ ∃ i < n, ∃ r : Reading J, r.Of key salt tags ∧ Deceived (realEnv K (rehashDual X (T.xof known)) dumps loads dumpManifest loadManifest) key
      (written (attacked (realEnv K (rehashDual X (T.xof known)) dumps loads dumpManifest loadManifest) f key salt i).2)
      (f (attacked (realEnv K (rehashDual X (T.xof known)) dumps loads dumpManifest loadManifest) f key salt i).2).1 r := hno
  have ho : Opens (realEnv K (rehashDual X (T.xof known)) dumps loads dumpManifest loadManifest) X.cfg := ho
  generalize realEnv K (rehashDual X (T.xof known)) dumps loads dumpManifest loadManifest = E' at *
  exact not_invented (c := X.cfg) ho (fun name => by simp [KeySize, k1 name]) (fun t ht => by rw [g1, g2]; exact hroot t ht)
    (fun t ht u hu e => hkeys t ht u hu (by rw [g1] at e; rw [e])) hw hfit
    (fun seen t v hs text ht => by rw [← hcodec seen t v hs text (by rw [← ht]; exact encode_congr g4.symm v)]; exact decode_congr g5 text)
    (fun i hi r hr hd => hno ⟨i, hi, r, hr, hd⟩) hT

/-! ### a case -/

/-- A value is stored with "a", the database is saved, and then "b" is queried, or popped, when all its files are turned around or exchanged for the newest file. -/
def sampleAttacker {F : Type} (c : Sizes) : Attacker Draws (Json.Val F) := fun seen =>
  let disk := noFiles.applyAll (written seen).flatten
  if seen.length % 4 = 0 then (disk, .tags (.set "a" (.bytes [UInt8.ofNat seen.length]) true (numberedDraws c seen.length 0)))
  else if seen.length % 4 = 1 then (disk, .save (numberedDraws c seen.length))
  else if seen.length % 4 = 2 then (fun name => (disk name).map List.reverse, .tags (.query "b" none false true 0))
  else (fun _ => match (written seen).flatten.getLast? with | some (.put _ x) => some x | _ => none, .tags (.pop "b" true 0))

theorem sampleAttacker_fits {F : Type} {c : Sizes} (h : c.timestampBytes = 4) : (∀ seen, (sampleAttacker (F := F) c seen).2.Within sampleTags) ∧
    (∀ seen i d, (sampleAttacker (F := F) c seen).2.draws i d → d.Fit c) ∧
    ∀ (E : Env Draws (Json.Val F)) seen t v, (sampleAttacker (F := F) c seen).2.Stores t v → ∀ text, encodeValue E v = .ok text → decodeValue E text = .ok v := by
  have fit : ∀ n i, (numberedDraws c n i).Fit c := fun n i =>
    have g := Cipher.sampleDraws_fit c h
    ⟨length_beDigits .., length_beDigits .., g.sivKey, g.extra, g.reading_nonneg, g.reading_lt⟩
  refine ⟨fun seen => ?_, fun seen i d hd => ?_, fun E seen t v hs text ht => ?_⟩
  · unfold sampleAttacker
    simp only
    split
    · exact (by decide : "a" ∈ sampleTags)
    · split
      · trivial
      · split <;> exact (by decide : "b" ∈ sampleTags)
  · unfold sampleAttacker at hd
    simp only at hd
    split at hd
    · cases (show d = _ from hd)
      exact fit _ _
    · split at hd
      · obtain ⟨j, _, rfl⟩ := hd
        exact fit _ _
      · split at hd <;> exact hd.elim
  · obtain ⟨cache, r, e⟩ := hs
    unfold sampleAttacker at e
    simp only at e
    split at e
    · cases e
      cases ht
      simp [decodeValue, bytesFlag]
    · split at e
      · cases e
      · split at e <;> cases e

example (n : Nat) := C105 sampleDual_setup (by decide) (N := 1000) (by decide) (by decide)
  spreadKdf_shapes (Json.dumps Json.sampleFloats) (Json.loads Json.sampleFloats) (dumpManifestJson Json.sampleFloats) (loadManifestJson Json.sampleFloats) spreadXof
  (tags := sampleTags) (key := List.replicate 64 1) (salt := [5]) rfl (by decide +kernel) (by decide +kernel) (by decide +kernel)
  (f := sampleAttacker sampleDual.cfg) (sampleAttacker_fits rfl).1 (sampleAttacker_fits rfl).2.1 ((sampleAttacker_fits rfl).2.2 _) n

example (n : Nat) := C105_files sampleDual_setup (by decide) (N := 1000) (by decide) (by decide)
  spreadKdf_shapes (Json.dumps Json.sampleFloats) (Json.loads Json.sampleFloats) (dumpManifestJson Json.sampleFloats) (loadManifestJson Json.sampleFloats) spreadXof
  (tags := sampleTags) (key := List.replicate 64 1) (salt := [5]) rfl (by decide +kernel) (by decide +kernel) (by decide +kernel)
  (f := sampleAttacker sampleDual.cfg) (sampleAttacker_fits rfl).1 (sampleAttacker_fits rfl).2.1 n

/-- A database whose cipher lets everything through returns values that nobody stored. -/
example : Invented { realEnv spreadKdf sampleDual (Json.dumps Json.sampleFloats) (Json.loads Json.sampleFloats) (dumpManifestJson Json.sampleFloats) (loadManifestJson Json.sampleFloats) with
    decrypt := fun _ _ _ x => .ok x } (fun _ => (fun _ => some [1, 2, 7], .tags (.query "b" none false false 0))) (List.replicate 64 1) [5] 1 :=
  ⟨0, Nat.one_pos, "b", .bytes [7], .inl ⟨_, _, _, _, rfl⟩, rfl, fun j hj => (Nat.not_lt_zero j hj).elim⟩

end Aiootp.Database
