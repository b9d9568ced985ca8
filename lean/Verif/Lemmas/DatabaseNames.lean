import Mathlib.Logic.Equiv.Fintype
import Mathlib.Tactic.Linarith
import Mathlib.Tactic.Positivity
import Mathlib.Tactic.Ring
import Mathlib.Algebra.BigOperators.Ring.Finset
import Mathlib.Algebra.Order.BigOperators.Group.Finset
import Verif.Lemmas.DatabaseRest
import Verif.Props.Text

/-
The names and keys of a database, if the hash function is drawn at random.
-/

namespace Aiootp.Database

open Cipher (Draws Sizes DualEnv DualSetup dualCipher)
open Secrecy

/-! ### counting -/

section
variable {B : Finset Bytes} {L : Nat}

open Classical in
/-- One digest is what the others make of it. -/
theorem coordinate (q : B) (x : Hash B L → Bytes) (hx : ∀ G v, x (Function.update G q v) = x G) {m : Nat} (hm : m ≤ L) :
    count (fun G : Hash B L => (G q).1.take m = x G) * 256 ^ m ≤ total B L := by
  have hc : count (fun G : Hash B L => (G q).1.take m = x G) = Fintype.card {G : Hash B L // (G q).1.take m = x G} := by
    unfold count
    rw [Fintype.card_subtype]
    congr
  rw [hc, ← card_digest (K := m), ← Fintype.card_prod]
  let g : {G : Hash B L // (G q).1.take m = x G} × Digest m → Hash B L := fun p =>
    Function.update (β := fun _ => Digest L) p.1.1 q ⟨p.2.1 ++ (p.1.1 q).1.drop m, by rw [List.length_append, p.2.2, List.length_drop, (p.1.1 q).2]; omega⟩
  refine Fintype.card_le_of_injective g ?_
  rintro ⟨⟨G, hG⟩, u⟩ ⟨⟨G', hG'⟩, u'⟩ e
  simp only [g] at e
  have hq := congrArg Subtype.val (congrFun e q)
  simp only [Function.update_self] at hq
  obtain ⟨h1, h2⟩ := List.append_inj hq (u.2.trans u'.2.symm)
  have hoff : ∀ r, r ≠ q → G r = G' r := fun r hr => by
    have := congrFun e r
    rwa [Function.update_of_ne hr, Function.update_of_ne hr] at this
  have hup : G' = Function.update G q (G' q) := by
    funext r
    by_cases hr : r = q
    · subst hr; rw [Function.update_self]
    · rw [Function.update_of_ne hr, hoff r hr]
  have hxx : x G = x G' := by
    have := hx G (G' q)
    rw [← hup] at this
    exact this.symm
  have hGq : G q = G' q := by
    refine Subtype.ext ?_
    rw [← List.take_append_drop m (G q).1, ← List.take_append_drop m (G' q).1, hG, hG', hxx, h2]
  have hGG : G = G' := by
    funext r
    by_cases hr : r = q
    · subst hr; exact hGq
    · exact hoff r hr
  subst hGG
  exact Prod.ext rfl (Subtype.ext h1)

theorem drawn_digest (known : Xof) (G : Hash B L) {m : Bytes} (hm : m ∈ B) {n : Nat} (hn : n ≤ L) : (G.xof known).digest m n = (G ⟨m, hm⟩).1.take n := by
  have := (G ⟨m, hm⟩).2
  simp only [Hash.xof, hm, dite_true]
  rw [List.take_append_of_le_length (by omega)]

theorem known_digest (known : Xof) (G : Hash B L) {m : Bytes} (hm : m ∉ B) (n : Nat) : (G.xof known).digest m n = known.digest m n := by
  simp only [Hash.xof, hm, dite_false]

open Classical in
theorem update_digest (known : Xof) (G : Hash B L) (q : B) (v : Digest L) {m : Bytes} (hm : m ≠ q.1) (n : Nat) : (Hash.xof known (Function.update G q v)).digest m n = (G.xof known).digest m n := by
  by_cases h : m ∈ B
  · have : (⟨m, h⟩ : B) ≠ q := fun e => hm (congrArg Subtype.val e)
    simp only [Hash.xof, h, dite_true, Function.update_of_ne this]
  · rw [known_digest known _ h, known_digest known _ h]

end

theorem encodeFilename_inj {a b : Bytes} (hl : a.length = b.length) (h : encodeFilename a = encodeFilename b) : a = b := by
  obtain ⟨s, h1, _, h2, _⟩ := Text.bytesToFilename_spec a
  obtain ⟨s', h1', _, h2', _⟩ := Text.bytesToFilename_spec b
  refine Text.C08_fixed_length_injective_partial hl ?_
  unfold encodeFilename at h
  rw [h1, h1'] at h ⊢
  simp only at h
  have h := congrArg String.toList h
  simp only [String.toList_ofList] at h
  have hsmall : ∀ c ∈ Text.base38, (Char.ofNat c).toNat = c := by decide +kernel
  have back : ∀ s : List Nat, (∀ c ∈ s, c ∈ Text.base38) → (s.map Char.ofNat).map Char.toNat = s := by
    intro s hs
    rw [List.map_map]
    conv_rhs => rw [← List.map_id s]
    exact List.map_congr_left fun c hc => hsmall c (hs c hc)
  rw [← back s h2, ← back s' h2', h]

/-! ### the derivations -/

section
variable {B : Finset Bytes} {L : Nat} {K : KdfEnv} (hK : K.Shapes) (known : Xof) {key : Bytes}

include hK in
theorem rehash_shapes (x : Xof) : (K.rehash x).Shapes := ⟨hK.block, hK.xof, fun m n => x.length_digest m n, hK.block512, hK.digest512, hK.size512⟩

/-- What the root kdf has absorbed. -/
def rootOf (K : KdfEnv) (known : Xof) (key : Bytes) : Bytes := orElse ((K.rehash known).root key) []

theorem root_same (G : Hash B L) (hfirst : ∀ m, K.first key = .ok m → m ∉ B) : (K.rehash (G.xof known)).root key = (K.rehash known).root key := by
  unfold KdfEnv.root Kdf.initialPayload Kdf.hashBytes
  have e : ∀ x : Xof, Canon.hashBytesInput [(K.rehash x).kdfDomain, (K.rehash x).dom.rootKdf] (K.rehash x).shake128.blockSize (K.rehash x).shake128.digestSize [0]
      (some (K.rehash x).shake128.blockSize) (some (key ++ (K.rehash x).dom.rootKdf)) = K.first key := fun _ => rfl
  rw [e, e]
  cases hm : K.first key with
  | error x => rfl
  | ok m =>
    have := known_digest known G (hfirst m hm)
    simp only [bind, Except.bind, KdfEnv.rehash, this]

theorem message_same (G : Hash B L) {root : Bytes} (hr : root ∉ B) (u : Use) : Use.message (K.rehash (G.xof known)) root u = Use.message (K.rehash known) root u := by
  unfold Use.message
  have : (K.rehash (G.xof known)).shake128.digest root 168 = (K.rehash known).shake128.digest root 168 := known_digest known G hr 168
  rw [this]
  rfl

end

section
variable {J : Type} {B : Finset Bytes} {L : Nat} {K : KdfEnv} (hK : K.Shapes) (hL : 168 ≤ L) (known : Xof) {key salt : Bytes} (X : DualEnv) (dumps : J → Except Err Bytes)
  (loads : Bytes → Except Err J) (dumpManifest : Manifest → Bytes) (loadManifest : Bytes → Except Err Manifest)
  (hfirst : ∀ m, K.first key = .ok m → m ∉ B) (hroot : rootOf K known key ∉ B)

include hK hfirst hroot

theorem drawn_env (G : Hash B L) : (∀ m, Use.message (K.rehash known) (rootOf K known key) .rootFilename = .ok m →
      (realEnv (K.rehash (G.xof known)) X dumps loads dumpManifest loadManifest).rootName key = encodeFilename ((G.xof known).digest m 24)) ∧
    (∀ m, Use.message (K.rehash known) (rootOf K known key) .manifestKey = .ok m →
      (realEnv (K.rehash (G.xof known)) X dumps loads dumpManifest loadManifest).manifestKey key = (G.xof known).digest m 168) ∧
    (∀ t m, Use.message (K.rehash known) (rootOf K known key) (.filename salt t) = .ok m →
      (realEnv (K.rehash (G.xof known)) X dumps loads dumpManifest loadManifest).fileName key salt t = encodeFilename ((G.xof known).digest m 24)) ∧
    (∀ name, (realEnv (K.rehash (G.xof known)) X dumps loads dumpManifest loadManifest).fileKey key salt name =
      orElse ((Use.message (K.rehash known) (rootOf K known key) (.cipherKey salt name [])).map ((G.xof known).digest · 64)) (List.replicate 64 0)) := by
  have hK' := rehash_shapes hK (G.xof known)
  have hr : orElse ((K.rehash (G.xof known)).root key) [] = rootOf K known key := by
    rw [root_same known G hfirst]
    rfl
  obtain ⟨d1, d2, d3, d4⟩ := C46_derivations hK' (rootOf K known key)
  refine ⟨fun m hm => ?_, fun m hm => ?_, fun t m hm => ?_, fun name => ?_⟩
  · show encodeFilename (orElse ((K.rehash (G.xof known)).rootFilename (orElse ((K.rehash (G.xof known)).root key) [])) []) = _
    rw [hr, d1, message_same known G hroot, hm]
    rfl
  · show orElse ((K.rehash (G.xof known)).manifestKey (orElse ((K.rehash (G.xof known)).root key) [])) _ = _
    rw [hr, d2, message_same known G hroot, hm]
    rfl
  · show encodeFilename (orElse ((K.rehash (G.xof known)).filename (orElse ((K.rehash (G.xof known)).root key) []) salt t) []) = _
    rw [hr, d3, message_same known G hroot, hm]
    rfl
  · show orElse ((K.rehash (G.xof known)).cipherKey (orElse ((K.rehash (G.xof known)).root key) []) salt name []) _ = _
    rw [hr, d4, message_same known G hroot]
    rfl


/-- What must not happen: the file of a tag has the name of the manifest's, or its key is the beginning of the manifest's key. -/
def Unlucky (R : Env Draws J) (tags : Finset String) (key salt : Bytes) : Prop :=
  (∃ t ∈ tags, R.fileName key salt t = R.rootName key) ∨ ∃ t ∈ tags, R.fileKey key salt (R.fileName key salt t) <+: R.manifestKey key

omit hK hfirst hroot in
open Classical in
theorem count_or (P Q : Hash B L → Prop) : count (fun G => P G ∨ Q G) ≤ count P + count Q := by
  unfold count
  refine le_trans (Finset.card_le_card fun G hG => ?_) (Finset.card_union_le _ _)
  simp only [Finset.mem_filter, Finset.mem_union, Finset.mem_univ, true_and] at hG ⊢
  exact hG

omit hK hfirst hroot in
open Classical in
theorem count_exists (tags : Finset String) (P : String → Hash B L → Prop) : count (fun G => ∃ t ∈ tags, P t G) ≤ ∑ t ∈ tags, count (P t) := by
  unfold count
  refine le_trans (Finset.card_le_card ?_) (Finset.card_biUnion_le (s := tags) (t := fun t => Finset.univ.filter (P t)))
  intro G hG
  simp only [Finset.mem_filter, Finset.mem_univ, true_and] at hG
  obtain ⟨t, ht, h⟩ := hG
  exact Finset.mem_biUnion.2 ⟨t, ht, Finset.mem_filter.2 ⟨Finset.mem_univ _, h⟩⟩

omit hK hfirst hroot in
open Classical in
theorem count_mono {P Q : Hash B L → Prop} (h : ∀ G, P G → Q G) : count P ≤ count Q := by
  unfold count
  refine Finset.card_le_card fun G hG => ?_
  exact Finset.mem_filter.2 ⟨Finset.mem_univ _, h G (Finset.mem_filter.1 hG).2⟩

variable {tags : Finset String} (hmr : ∃ m ∈ B, Use.message (K.rehash known) (rootOf K known key) .rootFilename = .ok m)
  (hmm : ∃ m ∈ B, Use.message (K.rehash known) (rootOf K known key) .manifestKey = .ok m)
  (hmt : ∀ t ∈ tags, ∃ m ∈ B, Use.message (K.rehash known) (rootOf K known key) (.filename salt t) = .ok m)

include hmr hmm hmt hL

theorem unlucky_count : count (fun G : Hash B L => Unlucky (realEnv (K.rehash (G.xof known)) X dumps loads dumpManifest loadManifest) tags key salt) * 256 ^ 24 ≤ 2 * tags.card * total B L := by
  classical
  obtain ⟨mr, hmr, er⟩ := hmr
  obtain ⟨mm, hmm, em⟩ := hmm
  have env := fun G : Hash B L => drawn_env hK known (salt := salt) X dumps loads dumpManifest loadManifest hfirst hroot G
  have h1 : ∀ t ∈ tags, count (fun G : Hash B L => (realEnv (K.rehash (G.xof known)) X dumps loads dumpManifest loadManifest).fileName key salt t =
      (realEnv (K.rehash (G.xof known)) X dumps loads dumpManifest loadManifest).rootName key) * 256 ^ 24 ≤ total B L := by
    intro t ht
    obtain ⟨mt, hmt, et⟩ := hmt t ht
    refine le_trans (Nat.mul_le_mul_right _ (count_mono fun G hG => ?_))
      (coordinate ⟨mr, hmr⟩ (fun G => (G ⟨mt, hmt⟩).1.take 24) (fun G v => ?_) (by omega : 24 ≤ L))
    · rw [(env G).1 mr er, (env G).2.2.1 t mt et] at hG
      have := encodeFilename_inj (by rw [Xof.length_digest, Xof.length_digest]) hG
      rw [drawn_digest known G hmr (by omega), drawn_digest known G hmt (by omega)] at this
      exact this.symm
    · have hne : (⟨mt, hmt⟩ : B) ≠ ⟨mr, hmr⟩ := by
        intro e
        cases congrArg Subtype.val e
        cases C46_messages_differ _ _ et er
      simp only [Function.update_of_ne hne]
  have h2 : ∀ t ∈ tags, count (fun G : Hash B L => (realEnv (K.rehash (G.xof known)) X dumps loads dumpManifest loadManifest).fileKey key salt
      ((realEnv (K.rehash (G.xof known)) X dumps loads dumpManifest loadManifest).fileName key salt t) <+:
      (realEnv (K.rehash (G.xof known)) X dumps loads dumpManifest loadManifest).manifestKey key) * 256 ^ 24 ≤ total B L := by
    intro t ht
    obtain ⟨mt, hmt, et⟩ := hmt t ht
    refine le_trans (Nat.mul_le_mul (count_mono fun G hG => ?_) (Nat.pow_le_pow_right (by decide) (by decide : 24 ≤ 64)))
      (coordinate ⟨mm, hmm⟩ (fun G => (realEnv (K.rehash (G.xof known)) X dumps loads dumpManifest loadManifest).fileKey key salt
        ((realEnv (K.rehash (G.xof known)) X dumps loads dumpManifest loadManifest).fileName key salt t)) (fun G v => ?_) (by omega : 64 ≤ L))
    · have hlen := (key_sizes (rehash_shapes hK (G.xof known)) (X := X) dumps loads dumpManifest loadManifest key salt).1
        ((realEnv (K.rehash (G.xof known)) X dumps loads dumpManifest loadManifest).fileName key salt t)
      have hG := List.prefix_iff_eq_take.1 hG
      rw [hlen, (env G).2.1 mm em, drawn_digest known G hmm hL, List.take_take] at hG
      simpa using hG.symm
    · have hne : mt ≠ mm := by
        intro e
        cases e
        cases C46_messages_differ _ _ et em
      rw [(env _).2.2.1 t mt et, (env _).2.2.1 t mt et, update_digest known G ⟨mm, hmm⟩ v hne, (env _).2.2.2, (env _).2.2.2]
      cases hx : Use.message (K.rehash known) (rootOf K known key) (.cipherKey salt (encodeFilename ((Hash.xof known G).digest mt 24)) []) with
      | error e => rfl
      | ok m =>
        have hne : m ≠ mm := by
          intro e
          cases e
          cases C46_messages_differ _ _ hx em
        simp only [Except.map, orElse]
        exact update_digest known G ⟨mm, hmm⟩ v hne 64
  have hsum : ∀ P : String → Hash B L → Prop, (∀ t ∈ tags, count (P t) * 256 ^ 24 ≤ total B L) → count (fun G => ∃ t ∈ tags, P t G) * 256 ^ 24 ≤ tags.card * total B L := by
    intro P hP
    refine le_trans (Nat.mul_le_mul_right _ (count_exists tags P)) ?_
    rw [Finset.sum_mul, ← Finset.sum_const_nat (s := tags) (f := fun _ => total B L) (m := total B L) fun _ _ => rfl]
    exact Finset.sum_le_sum hP
  refine le_trans (Nat.mul_le_mul_right _ (count_or _ _)) ?_
  rw [Nat.add_mul, Nat.mul_assoc, Nat.two_mul]
  exact Nat.add_le_add (hsum _ h1) (hsum _ h2)

variable {σ : String → String} (hσ : ∀ t ∈ tags, σ t ∈ tags) (hinj : ∀ t ∈ tags, ∀ u ∈ tags, σ t = σ u → t = u)
include hσ hinj

omit hL hmr hmm in
/-- The names of the tags change places with those of the other tags. -/
theorem exists_swap : ∃ e : Equiv.Perm (Hash B L), ∀ G : Hash B L,
    (∀ t ∈ tags, (realEnv (K.rehash ((e G).xof known)) X dumps loads dumpManifest loadManifest).fileName key salt (σ t) =
      (realEnv (K.rehash (G.xof known)) X dumps loads dumpManifest loadManifest).fileName key salt t) ∧
    ((∃ m, Use.message (K.rehash known) (rootOf K known key) .rootFilename = .ok m) →
      (realEnv (K.rehash ((e G).xof known)) X dumps loads dumpManifest loadManifest).rootName key = (realEnv (K.rehash (G.xof known)) X dumps loads dumpManifest loadManifest).rootName key) ∧
    ((∃ m, Use.message (K.rehash known) (rootOf K known key) .manifestKey = .ok m) →
      (realEnv (K.rehash ((e G).xof known)) X dumps loads dumpManifest loadManifest).manifestKey key = (realEnv (K.rehash (G.xof known)) X dumps loads dumpManifest loadManifest).manifestKey key) ∧
    ∀ name, (realEnv (K.rehash ((e G).xof known)) X dumps loads dumpManifest loadManifest).fileKey key salt name =
      (realEnv (K.rehash (G.xof known)) X dumps loads dumpManifest loadManifest).fileKey key salt name := by
  classical
  have env := fun G : Hash B L => drawn_env hK known (salt := salt) X dumps loads dumpManifest loadManifest hfirst hroot G
  choose! mt hmt et using hmt
  let m : {t // t ∈ tags} → B := fun t => ⟨mt t.1, hmt t.1 t.2⟩
  have hm : Function.Injective m := by
    rintro ⟨t, ht⟩ ⟨u, hu⟩ e
    have e' : mt t = mt u := congrArg Subtype.val e
    have h1 := et t ht
    rw [e'] at h1
    have := C46_messages_differ _ _ h1 (et u hu)
    injection this with _ h
    exact Subtype.ext h
  let s : {t // t ∈ tags} → {t // t ∈ tags} := fun t => ⟨σ t.1, hσ t.1 t.2⟩
  have hs : Function.Bijective s := Finite.injective_iff_bijective.1 (by
    rintro ⟨t, ht⟩ ⟨u, hu⟩ e
    exact Subtype.ext (hinj t ht u hu (congrArg Subtype.val e)))
  let π : Equiv.Perm B := Equiv.Perm.extendDomain (Equiv.ofBijective s hs) (Equiv.ofInjective m hm)
  have hπ : ∀ t, π (m t) = m (s t) := fun t => Equiv.Perm.extendDomain_apply_image _ (Equiv.ofInjective m hm) t
  have hfix : ∀ q : B, (∀ t, q ≠ m t) → π q = q := fun q hq =>
    Equiv.Perm.extendDomain_apply_not_subtype _ _ (by rintro ⟨t, e⟩; exact hq t e.symm)
  let e : Equiv.Perm (Hash B L) := Equiv.arrowCongr π (Equiv.refl (Digest L))
  have he : ∀ (G : Hash B L) q, e G q = G (π.symm q) := fun _ _ => rfl
  have other : ∀ (G : Hash B L) {u x}, Use.message (K.rehash known) (rootOf K known key) u = .ok x → (∀ t, u ≠ .filename salt t) → ∀ n,
      ((e G).xof known).digest x n = (G.xof known).digest x n := by
    intro G u x hx hu n
    by_cases h : x ∈ B
    · have hq : π ⟨x, h⟩ = ⟨x, h⟩ := hfix _ fun t e => hu t.1 (by
        have e : x = mt t.1 := congrArg Subtype.val e
        rw [e] at hx
        exact C46_messages_differ _ _ hx (et t.1 t.2))
      have hq : π.symm ⟨x, h⟩ = ⟨x, h⟩ := by rw [Equiv.symm_apply_eq, hq]
      simp only [Hash.xof, h, dite_true, he, hq]
    · rw [known_digest known _ h, known_digest known _ h]
  refine ⟨e, fun G => ⟨fun t ht => ?_, ?_, ?_, fun name => ?_⟩⟩
  · rw [(env _).2.2.1 _ _ (et (σ t) (hσ t ht)), (env _).2.2.1 _ _ (et t ht)]
    have hq : π.symm (m ⟨σ t, hσ t ht⟩) = m ⟨t, ht⟩ := by
      rw [Equiv.symm_apply_eq, hπ]
    have h1 : ((e G).xof known).digest (mt (σ t)) 24 = (G.xof known).digest (mt t) 24 := by
      have hq : e G ⟨mt (σ t), hmt _ (hσ t ht)⟩ = G ⟨mt t, hmt t ht⟩ := by
        rw [he]
        exact congrArg G hq
      simp only [Hash.xof, hmt _ (hσ t ht), hmt t ht, dite_true, hq]
    rw [h1]
  · rintro ⟨x, hx⟩
    rw [(env _).1 x hx, (env _).1 x hx, other G hx (fun t h => by cases h)]
  · rintro ⟨x, hx⟩
    rw [(env _).2.1 x hx, (env _).2.1 x hx, other G hx (fun t h => by cases h)]
  · rw [(env _).2.2.2, (env _).2.2.2]
    cases hx : Use.message (K.rehash known) (rootOf K known key) (.cipherKey salt name []) with
    | error x => rfl
    | ok x =>
      simp only [Except.map, orElse]
      exact other G hx (fun t h => by cases h) 64

end

open Classical in
theorem chance_sum {B D : Finset Bytes} {L N : Nat} (P : Hash B L → Hash D N → Prop) : chance P = (∑ G : Hash B L, (count (P G) : ℚ)) / (total B L * total D N : ℕ) := by
  unfold chance count
  congr 1
  rw [Finset.card_filter, Fintype.sum_prod_type]
  push_cast
  refine Finset.sum_congr rfl fun G _ => ?_
  rw [Finset.card_filter]
  push_cast
  rfl

theorem count_le_total {D : Finset Bytes} {N : Nat} (P : Hash D N → Prop) : count P ≤ total D N := by
  classical
  unfold count total
  exact Finset.card_le_univ _

open Classical in
/-- Chances that are equal but for a few of the first hash functions. -/
theorem chance_close {B D : Finset Bytes} {L N : Nat} {P P' : Hash B L → Hash D N → Prop} (e : Equiv.Perm (Hash B L)) (bad : Hash B L → Prop)
    (h : ∀ G, ¬ bad G → count (P G) = count (P' (e G))) {c : Nat} (hb : count bad * 256 ^ 24 ≤ c * total B L) : |chance P - chance P'| ≤ c / 256 ^ 24 := by
  have hB : 0 < total B L := by
    unfold total
    exact Fintype.card_pos_iff.2 ⟨fun _ => ⟨List.replicate L 0, by simp⟩⟩
  have hD : 0 < total D N := by
    unfold total
    exact Fintype.card_pos_iff.2 ⟨fun _ => ⟨List.replicate N 0, by simp⟩⟩
  have hBq : (0 : ℚ) < total B L := by exact_mod_cast hB
  have hDq : (0 : ℚ) < total D N := by exact_mod_cast hD
  rw [chance_sum, chance_sum, ← Equiv.sum_comp e (fun G => (count (P' G) : ℚ)), ← sub_div, ← Finset.sum_sub_distrib, abs_div, Nat.cast_mul, abs_of_pos (mul_pos hBq hDq),
    div_le_div_iff₀ (mul_pos hBq hDq) (by positivity)]
  have h1 : |∑ G : Hash B L, ((count (P G) : ℚ) - count (P' (e G)))| ≤ ∑ G : Hash B L, if bad G then (total D N : ℚ) else 0 := by
    refine le_trans (Finset.abs_sum_le_sum_abs _ _) (Finset.sum_le_sum fun G _ => ?_)
    by_cases hg : bad G
    · rw [if_pos hg, abs_le]
      have a1 : (count (P G) : ℚ) ≤ total D N := by exact_mod_cast count_le_total _
      have a2 : (count (P' (e G)) : ℚ) ≤ total D N := by exact_mod_cast count_le_total _
      have b1 : (0 : ℚ) ≤ count (P G) := Nat.cast_nonneg _
      have b2 : (0 : ℚ) ≤ count (P' (e G)) := Nat.cast_nonneg _
      constructor <;> linarith
    · rw [if_neg hg, h G hg, sub_self, abs_zero]
  have h2 : ∑ G : Hash B L, (if bad G then (total D N : ℚ) else 0) = count bad * total D N := by
    rw [← Finset.sum_filter, Finset.sum_const, nsmul_eq_mul]
    rfl
  rw [h2] at h1
  have h3 : (count bad : ℚ) * 256 ^ 24 ≤ c * total B L := by exact_mod_cast hb
  calc _ ≤ (count bad * total D N : ℚ) * 256 ^ 24 := mul_le_mul_of_nonneg_right h1 (by positivity)
    _ = (count bad * 256 ^ 24 : ℚ) * total D N := by ring
    _ ≤ (c * total B L : ℚ) * total D N := mul_le_mul_of_nonneg_right h3 hDq.le
    _ = _ := by ring

end Aiootp.Database
