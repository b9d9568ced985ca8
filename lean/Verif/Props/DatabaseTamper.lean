import Verif.Lemmas.DatabaseTamper
import Verif.Props.DatabaseRest

/-
Property C104: files that the database did not write are refused, as far as the hash function cannot be told from a random one.
-/

namespace Aiootp.Database

open Cipher (Draws Sizes DualEnv DualSetup dualCipher)
open Secrecy

variable {J : Type}

/-- **C104**. Someone chooses all calls on a database and sees all that happens to its directory. After some number of calls they replace the directory by whatever they like, and a tag is queried
by any object of the database, or the database is opened anew. As many hash functions as the number of such attempts in `256 ^ shmacBytes` at most let one of them succeed: let something be read
that the same reading would not have given at any moment of the past. The salts and ivs that are drawn may repeat. No file of a tag may have the name of the manifest's file, no key of a file may
be the beginning of the manifest's key, and different files have different keys. -/
theorem C104 {X : DualEnv} (h : DualSetup X) (hframe : X.cfg.paddingFrame ≤ 256) {N : Nat} (hN : 2 * X.cfg.shmacBlocksize ≤ N) (htag : X.cfg.shmacBytes ≤ X.cfg.shmacBlocksize)
    {K : KdfEnv} (hK : K.Shapes) (dumps : J → Except Err Bytes) (loads : Bytes → Except Err J) (dumpManifest : Manifest → Bytes) (loadManifest : Bytes → Except Err Manifest)
    (known : Xof) {tags : Finset String} {key salt : Bytes} {E : Env Draws J} (hE : E = realEnv K X dumps loads dumpManifest loadManifest)
    (hroot : ∀ t ∈ tags, E.fileName key salt t ≠ E.rootName key) (hpre : ∀ t ∈ tags, ¬ E.fileKey key salt (E.fileName key salt t) <+: E.manifestKey key)
    (hkeys : ∀ t ∈ tags, ∀ u ∈ tags, E.fileKey key salt (E.fileName key salt t) = E.fileKey key salt (E.fileName key salt u) → E.fileName key salt t = E.fileName key salt u)
    {f : Author Draws J} (hw : ∀ seen, (f seen).Within tags) (hfit : ∀ seen i d, (f seen).draws i d → d.Fit X.cfg)
    (attempts : List (Nat × Tamperer J)) (hof : ∀ a ∈ attempts, ∀ seen, (a.2 seen).2.Of key salt tags) :
    ∃ D0 : Finset Bytes, (∀ q ∈ D0, ∃ k w, (k = E.manifestKey key ∨ ∃ t ∈ tags, k = E.fileKey key salt (E.fileName key salt t)) ∧ q = X.shmacKdf.factory ++ k ++ w) ∧ ∀ D, D0 ⊆ D →
      count (fun T : Hash D N => ∃ a ∈ attempts,
        let E' := realEnv K (rehashed X (T.xof known)) dumps loads dumpManifest loadManifest
        let seen := watch E' f a.1 (newNode key salt) noFiles []
        Deceived E' key seen (a.2 seen).1 (a.2 seen).2) * 256 ^ X.cfg.shmacBytes ≤ attempts.length * total D N := by
  obtain ⟨D0, h1, h2⟩ := tamper_count h hframe hK dumps loads dumpManifest loadManifest hN htag known hE hroot hpre hkeys (fun seen => (hw seen).uses) hfit attempts hof
  refine ⟨D0, fun q hq => ?_, h2⟩
  obtain ⟨name, k, w, hn, e⟩ := h1 q hq
  refine ⟨k, w, ?_, e⟩
  rcases hn with ⟨_, rfl⟩ | ⟨t, ht, rfl, rfl⟩
  · exact .inl rfl
  · exact .inr ⟨t, ht, rfl⟩

/-! ### a case -/

/-- All files are turned around, and a tag is queried by a new object, or the database is opened. -/
def sampleTamperer {F : Type} (r : Reading (Json.Val F)) : Tamperer (Json.Val F) := fun seen => (fun name => ((noFiles.applyAll seen.flatten) name).map List.reverse, r)

theorem sampleAuthor_within {F : Type} (c : Sizes) {tag : String} {tags : Finset String} (h : tag ∈ tags) (value : List (List Write) → UInt8) (seen : List (List Write)) :
    (sampleAuthor (F := F) c tag value seen).Within tags := by
  unfold sampleAuthor
  split
  · exact h
  · trivial

example := C104 sampleDual_setup (by decide) (N := 1000) (by decide) (by decide)
  spreadKdf_shapes (Json.dumps Json.sampleFloats) (Json.loads Json.sampleFloats) (dumpManifestJson Json.sampleFloats) (loadManifestJson Json.sampleFloats) spreadXof
  (tags := sampleTags) (key := List.replicate 64 1) (salt := [5]) rfl (by decide +kernel) (by decide +kernel) (by decide +kernel)
  (f := sampleAuthor sampleDual.cfg "a" fun seen => UInt8.ofNat seen.flatten.length) (sampleAuthor_within _ (by decide) _)
  (sampleAuthor_fresh rfl (by decide) (by decide) _ _ (k := 1) (by decide)).fit
  [(2, sampleTamperer (.query (newNode (List.replicate 64 1) [5]) "b" none false false 0)), (12, sampleTamperer (.load [6] 0))]
  (fun a ha seen => by simp at ha; rcases ha with rfl | rfl <;> simp [sampleTamperer, Reading.Of, newNode, sampleTags])

/-- A database whose cipher lets everything through is deceived. -/
example : Deceived { realEnv spreadKdf sampleDual (Json.dumps Json.sampleFloats) (Json.loads Json.sampleFloats) (dumpManifestJson Json.sampleFloats) (loadManifestJson Json.sampleFloats) with
    decrypt := fun _ _ _ x => .ok x } (List.replicate 64 1) [] (fun _ => some [1, 2, 7]) (.query (newNode (List.replicate 64 1) [5]) "b" none false false 0) :=
  ⟨.inl (.bytes [7]), rfl, fun past hp => by
    rw [List.flatten_nil, List.prefix_nil] at hp
    subst hp
    simp [Reading.gives, Node.queryTag, newNode, Disk.applyAll, noFiles, Dict.get]⟩

/-- Old files are not noticed: if a file is put back as it was at some moment, the reading gives what it gave then. -/
theorem C104_replay {ρ : Type} (E : Env ρ J) (key : Bytes) (n : Node J) (tag : String) (ttl : Option Int) (silent cache : Bool) (now : Int) (disk : Disk) (past : List Write)
    (h : disk (E.fileName n.key n.man.salt tag) = noFiles.applyAll past (E.fileName n.key n.man.salt tag)) :
    (Reading.query n tag ttl silent cache now).gives E key disk = (Reading.query n tag ttl silent cache now).gives E key (noFiles.applyAll past) := gives_congr h

end Aiootp.Database
