import Mathlib.Data.Countable.Basic
import Verif.Lemmas.DatabaseFair
import Verif.Lemmas.SecrecyDual
import Verif.Props.DatabaseKdf

/-
The directory of a database with the cipher `Chunky2048`.
-/

namespace Aiootp.Database

open Cipher (Draws Sizes DualEnv DualSetup dualCipher)
open Secrecy

variable {J : Type}

theorem exists_code : Nonempty Code := by
  classical
  have hinj : Function.Injective fun x : Bytes × Draws × Bytes =>
      (x.1.map (·.toNat), x.2.1.salt.map (·.toNat), x.2.1.iv.map (·.toNat), x.2.1.reading, x.2.1.sivKey.map (·.toNat), x.2.1.extra.map (·.toNat), x.2.2.map (·.toNat)) := by
    have hb : Function.Injective fun b : Bytes => b.map (·.toNat) := List.map_injective_iff.2 fun a b h => UInt8.toNat_inj.1 h
    rintro ⟨a, ⟨s, i, r, v, e⟩, t⟩ ⟨a', ⟨s', i', r', v', e'⟩, t'⟩ h
    simp only [Prod.mk.injEq] at h
    obtain ⟨h1, h2, h3, h4, h5, h6, h7⟩ := h
    rw [hb h1, hb h2, hb h3, h4, hb h5, hb h6, hb h7]
  have : Countable (Bytes × Draws × Bytes) := hinj.countable
  obtain ⟨g, hg⟩ := exists_injective_nat (Bytes × Draws × Bytes)
  refine ⟨fun x => List.replicate (g x + 1) 0, fun b => if h : ∃ x, List.replicate (g x + 1) 0 = b then some h.choose else none, fun x => ?_, fun x => by simp [List.replicate_succ]⟩
  have h : ∃ y, List.replicate (g y + 1) (0 : UInt8) = List.replicate (g x + 1) 0 := ⟨x, rfl⟩
  rw [dif_pos h]
  have e := congrArg List.length h.choose_spec
  simp only [List.length_replicate] at e
  rw [hg (show g h.choose = g x by omega)]

section
variable {K : KdfEnv} (hK : K.Shapes) {X : DualEnv} (dumps : J → Except Err Bytes) (loads : Bytes → Except Err J) (dumpManifest : Manifest → Bytes)
  (loadManifest : Bytes → Except Err Manifest)

include hK in
theorem key_sizes (key salt : Bytes) : (∀ name, ((realEnv K X dumps loads dumpManifest loadManifest).fileKey key salt name).length = 64) ∧
    ((realEnv K X dumps loads dumpManifest loadManifest).manifestKey key).length = 168 := by
  have hdig : ∀ (u : Use) (root : Bytes) (n : Nat) (x : Bytes), (u.message K root).map (K.shake128.digest · n) = .ok x → x.length = n := by
    intro u root n x hx
    cases hm : u.message K root with
    | error e => rw [hm] at hx; cases hx
    | ok m => rw [hm] at hx; cases hx; exact hK.size _ _
  constructor
  · intro name
    show (orElse _ _).length = 64
    cases hx : K.cipherKey (orElse (K.root key) []) salt name [] with
    | error e => simp [orElse]
    | ok x =>
      rw [(C46_derivations hK _).2.2.2] at hx
      exact hdig _ _ _ _ hx
  · show (orElse _ _).length = 168
    cases hx : K.manifestKey (orElse (K.root key) []) with
    | error e => exact List.length_replicate
    | ok x =>
      rw [(C46_derivations hK _).2.1] at hx
      exact hdig _ _ _ _ hx

theorem ghost_real {X' : DualEnv} (cd : Code) : ghost cd (realEnv K X dumps loads dumpManifest loadManifest) = ghost cd (realEnv K X' dumps loads dumpManifest loadManifest) := by
  unfold ghost realEnv
  rfl

theorem real_opens (h : DualSetup X) (hframe : X.cfg.paddingFrame ≤ 256) : Opens (realEnv K X dumps loads dumpManifest loadManifest) X.cfg := by
  intro key d text hk hd
  obtain ⟨ct, hct, hback⟩ := Cipher.C22_decrypt_encrypt h hframe key hk.1 hk.2 d hd none (.inl rfl) [] (by decide) text
  have e : (realEnv K X dumps loads dumpManifest loadManifest).encrypt key d text = ct := by simp [realEnv, hct, orElse]
  rw [e]
  have hb : ∀ now ttl, (realEnv K X dumps loads dumpManifest loadManifest).decrypt key now ttl ct = opened d now ttl text := by
    intro now ttl
    obtain ⟨h1, h2⟩ := hback (List.replicate X.cfg.saltBytes 0) (by simp; rfl) now
    cases ttl with
    | none => exact h1
    | some ttl => exact h2 ttl
  refine ⟨fun hnil => ?_, hb⟩
  have h1 : (dualCipher X).bytesDecrypt key (List.replicate X.cfg.saltBytes 0) 0 none [] ct = .ok text := hb 0 none
  rw [hnil] at h1
  simp only [Cipher.Cipher.bytesDecrypt, bind_eq_ok] at h1
  obtain ⟨parts, hp, _⟩ := h1
  simp only [Cipher.Ciphertext.parse] at hp
  split at hp
  · cases hp
  · rename_i hn
    simp only [List.length_nil, not_or] at hn
    omega
end

theorem Author.Fresh.alike {E : Env Draws J} {tags : Finset String} {σ : String → String} {c : Sizes} {k n : Nat} {f f' : Author Draws J} (h : f.Fresh c k n)
    (ha : ∀ seen, (f seen).Alike E tags σ (f' seen)) : f'.Fresh c k n := by
  refine ⟨fun seen i d hd => h.fit seen i d (((ha seen).draws i d).2 hd), fun seen more d d' hm hl h1 h2 =>
    h.once seen more d d' hm hl (((ha _).draws _ _).2 h1) (((ha _).draws _ _).2 h2), fun seen ds e => ?_⟩
  have := ha seen
  rw [e] at this
  cases hf : f seen with
  | tags op => rw [hf] at this; exact this.elim
  | save ds' =>
    rw [hf] at this
    cases (show ds = ds' from this)
    exact h.apart seen ds hf

section
variable {X : DualEnv} (h : DualSetup X) (hframe : X.cfg.paddingFrame ≤ 256) {N n : Nat} (hsep : Separated X n) (hN : X.cfg.primerKeyBytes (5 * X.cfg.innerHeaderBytes) ≤ N)
  {K K' : KdfEnv} (hK : K.Shapes) (hK' : K'.Shapes) (dumps : J → Except Err Bytes) (loads : Bytes → Except Err J) (dumpManifest : Manifest → Bytes)
  (loadManifest : Bytes → Except Err Manifest)
include h hsep

/-- The questions for a request. -/
theorem own_key {r : Request} (hv : r.Valid X.cfg) {q : Bytes} (hq : ∃ j, q ∈ dualPast X n (sessionOf X.shmacKdf r) (sessionOf X.leftKdf r) (sessionOf X.rightKdf r) j) :
    ∃ F ∈ [X.shmacKdf.factory, X.leftKdf.factory, X.rightKdf.factory], ∃ w, q = F ++ r.key ++ w := by
  obtain ⟨j, ⟨w, rfl, _⟩ | ⟨w, rfl, _⟩ | ⟨w, rfl, _⟩⟩ := hq
  · obtain ⟨w', e⟩ := sessionOf_key (k := X.shmacKdf) h.usable.env.kdf h.salt_lt h.iv_lt hv
    exact ⟨X.shmacKdf.factory, by simp, w' ++ w, by rw [e]; simp only [List.append_assoc]⟩
  · obtain ⟨w', e⟩ := sessionOf_key (k := X.leftKdf) h.sides.1 h.salt_lt h.iv_lt hv
    exact ⟨X.leftKdf.factory, by simp, w' ++ w, by rw [e]; simp only [List.append_assoc]⟩
  · obtain ⟨w', e⟩ := sessionOf_key (k := X.rightKdf) h.sides.2 h.salt_lt h.iv_lt hv
    exact ⟨X.rightKdf.factory, by simp, w' ++ w, by rw [e]; simp only [List.append_assoc]⟩

include hN in
theorem own_apart {r r' : Request} (hv : r.Valid X.cfg) (hv' : r'.Valid X.cfg) (hs : r.salt = none) (hs' : r'.salt = none) (hd : Differ r r')
    (hk : r.key.length = r'.key.length ∨ ¬ r.key <+: r'.key ∧ ¬ r'.key <+: r.key) :
    ∀ q, (∃ j, q ∈ dualPast X n (sessionOf X.shmacKdf r) (sessionOf X.leftKdf r) (sessionOf X.rightKdf r) j) →
      ¬ ∃ j, q ∈ dualPast X n (sessionOf X.shmacKdf r') (sessionOf X.leftKdf r') (sessionOf X.rightKdf r') j := by
  intro q hq hq'
  rcases hk with hk | hk
  · refine (dual_scheme (K := N) h hsep hN).apart hv hv' hk (fun e => hd ?_) q hq hq'
    have e1 : r.usedSalt = r'.usedSalt := congrArg (·.2.1) e
    have e2 : r.draws.iv = r'.draws.iv := congrArg (·.2.2.2) e
    simp only [Request.usedSalt, hs, hs'] at e1
    exact ⟨e1, e2⟩
  · obtain ⟨F, hF, w, e⟩ := own_key h hsep hv hq
    obtain ⟨F', hF', w', e'⟩ := own_key h hsep hv' hq'
    have hlen : ∀ F ∈ [X.shmacKdf.factory, X.leftKdf.factory, X.rightKdf.factory], F.length = X.shmacKdf.factory.length := by
      intro F hF
      simp only [List.mem_cons, List.not_mem_nil, or_false] at hF
      rcases hF with rfl | rfl | rfl
      · rfl
      · exact hsep.left_length
      · exact hsep.right_length
    rw [e, List.append_assoc, List.append_assoc] at e'
    have e2 := (List.append_inj e' ((hlen F hF).trans (hlen F' hF').symm)).2
    rcases List.append_eq_append_iff.1 e2 with ⟨a, ha, _⟩ | ⟨a, ha, _⟩
    · exact hk.1 ⟨a, ha.symm⟩
    · exact hk.2 ⟨a, ha.symm⟩

include hN hK

theorem rest_fair {tags : Finset String} {key salt : Bytes} (cd : Code) (hroot : ∀ t ∈ tags, (realEnv K X dumps loads dumpManifest loadManifest).fileName key salt t ≠ (realEnv K X dumps loads dumpManifest loadManifest).rootName key)
    (hpre : ∀ t ∈ tags, ¬ (realEnv K X dumps loads dumpManifest loadManifest).fileKey key salt ((realEnv K X dumps loads dumpManifest loadManifest).fileName key salt t) <+: (realEnv K X dumps loads dumpManifest loadManifest).manifestKey key)
    {f : Author Draws J} {k : Nat} (hu : ∀ seen, (f seen).Uses tags) (hf : f.Fresh X.cfg tags.card k) :
    Prog.Fair X.cfg (fun r => {q | ∃ j, q ∈ dualPast X n (sessionOf X.shmacKdf r) (sessionOf X.leftKdf r) (sessionOf X.rightKdf r) j}) []
      (watchP cd (ghost cd (realEnv K X dumps loads dumpManifest loadManifest)) f k (newNode key salt) noFiles []) := by
  obtain ⟨k1, k2⟩ := key_sizes hK (X := X) dumps loads dumpManifest loadManifest key salt
  have hfk : ∀ name, KeySize ((realEnv K X dumps loads dumpManifest loadManifest).fileKey key salt name) := fun name => by simp [KeySize, k1 name]
  have hmk : KeySize ((realEnv K X dumps loads dumpManifest loadManifest).manifestKey key) := by simp [KeySize, k2]
  have node : ∀ R : Env Draws J, (hidden cd R tags key salt X.cfg).NodeRel (newNode key salt) (newNode key salt) := fun R =>
    ⟨rfl, rfl, ⟨rfl, rfl, rfl, .nil⟩, .nil, fun p hp => (List.not_mem_nil hp).elim, List.nodup_nil⟩
  have disk : ∀ R : Env Draws J, (hidden cd R tags key salt X.cfg).DiskRel noFiles noFiles := fun R t _ => trivial
  have hvalid : ∀ k d t, Keyed (realEnv K X dumps loads dumpManifest loadManifest) tags key salt k → d.Fit X.cfg → (⟨k, d, none, [], t⟩ : Request).Valid X.cfg := by
    intro k d t hk hd
    have hk : KeySize k := by
      rcases hk with rfl | ⟨t, _, rfl⟩
      · exact hmk
      · exact hfk _
    exact ⟨hk.1, hk.2, hd, hd.salt, show ([] : Bytes).length < 256 ^ 4 by decide⟩
  refine fair_watch cd hfk hroot hvalid ?_ hu hf k (node _) (disk _) [] [] (by simp) fun b hb => (List.not_mem_nil hb).elim
  intro k1' d t k2' d' t' h1 h2 hd hd' hdiff q hq hq'
  refine own_apart h hsep hN (hvalid _ d t h1 hd) (hvalid _ d' t' h2 hd') rfl rfl hdiff ?_ q hq hq'
  have no : ∀ {a b : Bytes}, a.length = 64 → b.length = 168 → ¬ b <+: a := fun ha hb hp => by
    have := hp.length_le
    omega
  show k1'.length = k2'.length ∨ ¬ k1' <+: k2' ∧ ¬ k2' <+: k1'
  have big : ∀ {k}, k = (realEnv K X dumps loads dumpManifest loadManifest).manifestKey key → k.length = 168 := fun e => by rw [e, k2]
  have small : ∀ {k t}, k = (realEnv K X dumps loads dumpManifest loadManifest).fileKey key salt ((realEnv K X dumps loads dumpManifest loadManifest).fileName key salt t) → k.length = 64 :=
    fun e => by rw [e, k1]
  rcases h1 with e1 | ⟨t, ht, e1⟩
  · rcases h2 with e2 | ⟨t', ht', e2⟩
    · exact .inl ((big e1).trans (big e2).symm)
    · refine .inr ⟨no (small e2) (big e1), ?_⟩
      rw [e1, e2]
      exact hpre t' ht'
  · rcases h2 with e2 | ⟨t', ht', e2⟩
    · refine .inr ⟨?_, no (small e1) (big e2)⟩
      rw [e1, e2]
      exact hpre t ht
    · exact .inl ((small e1).trans (small e2).symm)

include hframe

omit hsep hN in
theorem rest_run {tags : Finset String} {key salt : Bytes} (cd : Code) (hroot : ∀ t ∈ tags, (realEnv K X dumps loads dumpManifest loadManifest).fileName key salt t ≠ (realEnv K X dumps loads dumpManifest loadManifest).rootName key)
    {f : Author Draws J} {k : Nat} (hu : ∀ seen, (f seen).Uses tags) (hfit : ∀ seen i d, (f seen).draws i d → d.Fit X.cfg) (x : Xof) :
    (watchP cd (ghost cd (realEnv K X dumps loads dumpManifest loadManifest)) f k (newNode key salt) noFiles []).exec (fun r => orElse ((dualCipher (rehashDual X x)).bytesEncrypt r.key r.draws r.salt r.aad r.data) []) =
      watch (realEnv K (rehashDual X x) dumps loads dumpManifest loadManifest) f k (newNode key salt) noFiles [] := by
  have node : ∀ R : Env Draws J, (hidden cd R tags key salt X.cfg).NodeRel (newNode key salt) (newNode key salt) := fun R =>
    ⟨rfl, rfl, ⟨rfl, rfl, rfl, .nil⟩, .nil, fun p hp => (List.not_mem_nil hp).elim, List.nodup_nil⟩
  have disk : ∀ R : Env Draws J, (hidden cd R tags key salt X.cfg).DiskRel noFiles noFiles := fun R t _ => trivial
  obtain ⟨k3, k4⟩ := key_sizes hK (X := rehashDual X x) dumps loads dumpManifest loadManifest key salt
  have hfk : ∀ name, KeySize ((realEnv K (rehashDual X x) dumps loads dumpManifest loadManifest).fileKey key salt name) := fun name => by simp [KeySize, k3 name]
  have hmk : KeySize ((realEnv K (rehashDual X x) dumps loads dumpManifest loadManifest).manifestKey key) := by simp [KeySize, k4]
  have hg := ghost_real (K := K) (X := X) (X' := rehashDual X x) dumps loads dumpManifest loadManifest cd
  have hroot' : ∀ t ∈ tags, (realEnv K (rehashDual X x) dumps loads dumpManifest loadManifest).fileName key salt t ≠ (realEnv K (rehashDual X x) dumps loads dumpManifest loadManifest).rootName key :=
    hroot
  have ho : Opens (realEnv K (rehashDual X x) dumps loads dumpManifest loadManifest) (rehashDual X x).cfg := real_opens dumps loads dumpManifest loadManifest (rehashDual_setup h x) hframe
  have hop : ∀ seen (m m' : Node J), (hidden cd (realEnv K (rehashDual X x) dumps loads dumpManifest loadManifest) tags key salt X.cfg).NodeRel m m' → _ :=
    fun seen m m' hm => op_hidden cd hm (hu seen) fun i d hd => hfit seen i d hd
  rw [hg]
  refine exec_watch (c := X.cfg) cd ho hfk hmk hroot' ?_ hop k (node _) (disk _) []
  intro k d t _ _
  rfl

include hK'


/-- The directory does not show more than what is in `Alike`. -/
theorem rest_count {tags : Finset String} {σ : String → String} {key salt : Bytes} {known : Xof} {R R' : Env Draws J}
    (hR : R = realEnv K X dumps loads dumpManifest loadManifest) (hR' : R' = realEnv K' X dumps loads dumpManifest loadManifest)
    (hname : ∀ t ∈ tags, R'.fileName key salt (σ t) = R.fileName key salt t) (hr : R'.rootName key = R.rootName key)
    (hsize : ManifestSizes dumpManifest tags σ) (hroot : ∀ t ∈ tags, R.fileName key salt t ≠ R.rootName key)
    (hpre : ∀ t ∈ tags, ¬ R.fileKey key salt (R.fileName key salt t) <+: R.manifestKey key)
    (hpre' : ∀ t ∈ tags, ¬ R'.fileKey key salt (R.fileName key salt t) <+: R'.manifestKey key)
    {f f' : Author Draws J} {k : Nat} (hf : f.Fresh X.cfg tags.card k) (ha : ∀ seen, (f seen).Alike R tags σ (f' seen)) :
    ∃ D0 : Finset Bytes, (∀ q ∈ D0, ∃ F ∈ [X.shmacKdf.factory, X.leftKdf.factory, X.rightKdf.factory], ∃ s w, 64 ≤ s.length ∧ q = F ++ s ++ w) ∧
      ∀ D, D0 ⊆ D → ∀ test : List (List Write) → Prop,
        count (fun T : Hash D N => test (watch (realEnv K (rehashDual X (T.xof known)) dumps loads dumpManifest loadManifest) f k (newNode key salt) noFiles [])) =
        count (fun T : Hash D N => test (watch (realEnv K' (rehashDual X (T.xof known)) dumps loads dumpManifest loadManifest) f' k (newNode key salt) noFiles [])) := by
  subst hR hR'
  obtain ⟨cd⟩ := exists_code
  have hroot' : ∀ t ∈ tags.image σ, (realEnv K' X dumps loads dumpManifest loadManifest).fileName key salt t ≠ (realEnv K' X dumps loads dumpManifest loadManifest).rootName key := by
    intro t ht
    obtain ⟨s, hs, rfl⟩ := Finset.mem_image.1 ht
    rw [hname s hs, hr]
    exact hroot s hs
  have hcard : (tags.image σ).card ≤ tags.card := Finset.card_image_le
  have hf' : f'.Fresh X.cfg (tags.image σ).card k := by
    have := hf.alike ha
    refine ⟨this.fit, fun seen more d d' hm hl h1 h2 => this.once seen more d d' hm hl ?_ ?_, fun seen ds e i hi j hj => this.apart seen ds e i (hi.trans hcard) j (hj.trans hcard)⟩
    all_goals
      have up : ∀ (a : Call Draws J) d, a.draws (tags.image σ).card d → a.draws tags.card d := by
        intro a d hd
        cases a with
        | save ds => obtain ⟨i, hi, e⟩ := hd; exact ⟨i, hi.trans hcard, e⟩
        | tags op => cases op <;> exact hd
      exact up _ _ ‹_›
  have hu : ∀ seen, (f seen).Uses tags := fun seen => (ha seen).uses.1
  have hu' : ∀ seen, (f' seen).Uses (tags.image σ) := fun seen => (ha seen).uses.2
  have fair := rest_fair h hsep hN hK dumps loads dumpManifest loadManifest cd hroot hpre hu hf
  have run := rest_run (k := k) h hframe hK dumps loads dumpManifest loadManifest cd hroot hu hf.fit
  have hpre'' : ∀ t ∈ tags.image σ, ¬ (realEnv K' X dumps loads dumpManifest loadManifest).fileKey key salt ((realEnv K' X dumps loads dumpManifest loadManifest).fileName key salt t) <+: (realEnv K' X dumps loads dumpManifest loadManifest).manifestKey key := by
    intro t ht
    obtain ⟨s, hs, rfl⟩ := Finset.mem_image.1 ht
    rw [hname s hs]
    exact hpre' s hs
  have fair' := rest_fair h hsep hN hK' dumps loads dumpManifest loadManifest cd hroot' hpre'' hu' hf'
  have run' := rest_run (k := k) h hframe hK' dumps loads dumpManifest loadManifest cd hroot' hu' hf'.fit
  have S : (similar cd (realEnv K X dumps loads dumpManifest loadManifest) (realEnv K' X dumps loads dumpManifest loadManifest) tags σ key salt X.cfg).Sim := by
    exact similar_sim cd hname hr rfl rfl rfl hsize hroot
  have alike := alike_watch cd S (f := f) (f' := f') (fun seen m m' hm => op_similar cd hr hm (ha seen) fun i d hd => hf.fit seen i d hd) k (n := newNode key salt) (n' := newNode key salt)
    ⟨rfl, rfl, ⟨rfl, rfl, rfl, .nil⟩, .nil, fun p hp => (List.not_mem_nil hp).elim, List.nodup_nil⟩ (D := noFiles) (D' := noFiles) (fun t _ => trivial) []
  obtain ⟨D0, h1, h2⟩ := Prog.count (dual_scheme (K := N) h hsep hN) fair fair' alike
  have valid : ∀ {α : Type} {r : Request} {own : Request → Set Bytes} (p : Prog α) (before : List Request), p.Fair X.cfg own before → p.Asks r → r.Valid X.cfg := by
    intro α r own p
    induction p with
    | ret x => intro _ _ ha; exact ha.elim
    | ask r' next ih =>
      intro before hf ha
      rcases ha with rfl | ⟨m, hm⟩
      · exact hf.1
      · exact ih m _ (hf.2.2 m) hm
  refine ⟨D0, fun q hq => ?_, fun D hD test => ?_⟩
  · obtain ⟨r, hr, hq⟩ := h1 q hq
    have hv : r.Valid X.cfg := hr.elim (valid _ _ fair) (valid _ _ fair')
    obtain ⟨F, hF, w, e⟩ := own_key h hsep hv hq
    exact ⟨F, hF, r.key, w, hv.key_ge, e⟩
  · have := h2 D hD (fun T r => orElse ((dualCipher (rehashDual X (T.xof known))).bytesEncrypt r.key r.draws r.salt r.aad r.data) [])
      (fun T r hv hin => by rw [dual_encrypt h hsep hN known T r hv hin]; rfl) test
    simpa only [run, run'] using this

end

end Aiootp.Database
