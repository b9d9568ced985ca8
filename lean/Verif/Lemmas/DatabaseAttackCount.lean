import Verif.Lemmas.DatabaseAttack

/-
How likely it is that something gets through.
-/

namespace Aiootp.Database

open Cipher (Draws Sizes DualEnv DualSetup dualCipher)
open Secrecy

variable {J : Type}

theorem exists_marks : Nonempty Marks := by
  obtain ⟨cd⟩ := exists_code
  exact ⟨{
    code := fun x => 0 :: cd.code x
    decode := fun
      | 0 :: y => cd.decode y
      | _ => none
    back := fun x => cd.back x
    ne := fun x => List.cons_ne_nil _ _
    bad := fun b => if b then [1] else [2]
    bad_decode := fun b => by cases b <;> rfl
    bad_ne := fun b => by cases b <;> exact List.cons_ne_nil _ _
    bad_inj := by decide }⟩

theorem depad_none (c : Sizes) (now : Int) (data : Bytes) : ∃ text, c.depadPlaintext now none data = .ok text := ⟨_, rfl⟩

theorem refused {κ : Type} {C : Cipher.Cipher κ} {key saltDraw aad data : Bytes} (h : Cipher.TagChecked C key saltDraw aad data) {now : Int}
    (hp : ¬ Passes (C.bytesDecrypt key saltDraw now none aad data)) (now' : Int) (ttl : Option Int) :
    C.bytesDecrypt key saltDraw now' ttl aad data = .error (refusal (Cipher.Ciphertext.parse C.cfg data).isOk) := by
  obtain ⟨h1, h2⟩ := h
  cases hx : Cipher.Ciphertext.parse C.cfg data with
  | error e => exact h1 e hx now' ttl
  | ok parts =>
    obtain ⟨padded, hashed, _, hr⟩ := h2 parts hx
    by_cases ht : parts.shmac = Cipher.Shmac.tagOf C.toEnv hashed
    · obtain ⟨text, e⟩ := depad_none C.cfg now padded
      refine absurd ?_ hp
      rw [(hr now none).2 ht, e]
      exact ⟨by rintro ⟨⟩, by rintro ⟨⟩⟩
    · exact (hr now' ttl).1 ht

theorem passes_any {κ : Type} {C : Cipher.Cipher κ} {key saltDraw aad data text : Bytes} (h : Cipher.TagChecked C key saltDraw aad data) {now : Int} {ttl : Option Int}
    (hp : C.bytesDecrypt key saltDraw now ttl aad data = .ok text) (now' : Int) : Passes (C.bytesDecrypt key saltDraw now' none aad data) := by
  refine Classical.byContradiction fun hn => ?_
  rw [refused h hn now ttl] at hp
  cases hp

section
variable {X : DualEnv} (h : DualSetup X) (hframe : X.cfg.paddingFrame ≤ 256) {K : KdfEnv} (hK : K.Shapes) (dumps : J → Except Err Bytes) (loads : Bytes → Except Err J)
  (dumpManifest : Manifest → Bytes) (loadManifest : Bytes → Except Err Manifest)

theorem marked_real {X' : DualEnv} (cd : Marks) : marked cd (realEnv K X dumps loads dumpManifest loadManifest) = marked cd (realEnv K X' dumps loads dumpManifest loadManifest) := by
  unfold marked realEnv
  rfl

theorem fileAttempt_congr {E E' : Env Draws J} (h1 : E'.fileKey = E.fileKey) (h2 : E'.fileName = E.fileName) (h3 : E'.manifestKey = E.manifestKey) (h4 : E'.rootName = E.rootName) (c : Sizes)
    (key salt : Bytes) (f : Attacker Draws J) (t : Option String) (s : Play J) : fileAttempt E' c key salt f t s = fileAttempt E c key salt f t s := by
  cases t <;> simp only [fileAttempt, h1, h2, h3, h4]

/-- The files. -/
noncomputable def places (tags : Finset String) : List (Option String) := none :: tags.toList.map some

/-- The name of a file. -/
def placeName (R : Env Draws J) (key salt : Bytes) : Option String → String
  | some t => R.fileName key salt t
  | none => R.rootName key

theorem attempt_named {R : Env Draws J} {tags : Finset String} {key salt : Bytes} {c : Sizes} {f : Attacker Draws J} {t : Option String} (ht : t ∈ places tags) (s : Play J) :
    Named R tags key salt (placeName R key salt t) (fileAttempt R c key salt f t s).key := by
  cases t with
  | none => exact .inl ⟨rfl, rfl⟩
  | some t =>
    have : t ∈ tags := by simpa [places] using ht
    exact .inr ⟨t, this, rfl, rfl⟩

theorem attempt_rest {R : Env Draws J} {key salt : Bytes} {c : Sizes} {f : Attacker Draws J} {t : Option String} (s : Play J) :
    (fileAttempt R c key salt f t s).aad = [] ∧ (fileAttempt R c key salt f t s).saltDraw = List.replicate c.saltBytes 0 ∧ (fileAttempt R c key salt f t s).ttl = none ∧
      (fileAttempt R c key salt f t s).now = 0 ∧ (fileAttempt R c key salt f t s).data = ((f s.seen).1 (placeName R key salt t)).getD [] := by
  cases t <;> exact ⟨rfl, rfl, rfl, rfl, rfl⟩

include h hframe hK

/-- As long as nothing gets through, the program does what the database does. -/
theorem attack_follows {tags : Finset String} {key salt : Bytes} (known : Xof) {R : Env Draws J}
    (hR : R = realEnv K X dumps loads dumpManifest loadManifest) (hroot : ∀ t ∈ tags, R.fileName key salt t ≠ R.rootName key)
    {f : Attacker Draws J} (hu : ∀ seen, (f seen).2.Uses tags) (hfit : ∀ seen i d, (f seen).2.draws i d → d.Fit X.cfg) (cd : Marks) (x : Xof) :
    ∀ n, (∀ i < n, ∀ t ∈ places tags, ¬ Gets (dualFamily X) x (playP cd R key salt X.cfg f i) (fileAttempt R X.cfg key salt f t)) →
      Follows cd (realEnv K (rehashDual X x) dumps loads dumpManifest loadManifest) tags key salt X.cfg
        (attacked (realEnv K (rehashDual X x) dumps loads dumpManifest loadManifest) f key salt n) ((playP cd R key salt X.cfg f n).exec ((dualFamily X).message x))
  | 0, _ => ⟨⟨rfl, rfl, ⟨rfl, rfl, rfl, .nil⟩, .nil, fun p hp => (List.not_mem_nil hp).elim, List.nodup_nil⟩, rfl, fun y hy => (List.not_mem_nil hy).elim⟩
  | n + 1, hn => by
    have ih := attack_follows known hR hroot hu hfit cd x n fun i hi => hn i (Nat.lt_succ_of_lt hi)
    have hno := hn n (Nat.lt_succ_self n)
    obtain ⟨k1, k2⟩ := key_sizes hK (X := X) dumps loads dumpManifest loadManifest key salt
    obtain ⟨k3, k4⟩ := key_sizes hK (X := rehashDual X x) dumps loads dumpManifest loadManifest key salt
    have hfk : ∀ name, KeySize (R.fileKey key salt name) := fun name => by rw [hR]; simp [KeySize, k1 name]
    have hfk' : ∀ name, KeySize ((realEnv K (rehashDual X x) dumps loads dumpManifest loadManifest).fileKey key salt name) := fun name => by simp [KeySize, k3 name]
    have hmk' : KeySize ((realEnv K (rehashDual X x) dumps loads dumpManifest loadManifest).manifestKey key) := by simp [KeySize, k4]
    have hroot' : ∀ t ∈ tags, (realEnv K (rehashDual X x) dumps loads dumpManifest loadManifest).fileName key salt t ≠ (realEnv K (rehashDual X x) dumps loads dumpManifest loadManifest).rootName key := by
      rw [hR] at hroot
      exact hroot
    have ho : Opens (realEnv K (rehashDual X x) dumps loads dumpManifest loadManifest) X.cfg := real_opens dumps loads dumpManifest loadManifest (rehashDual_setup h x) hframe
    have hmsg : (dualFamily X).message x = fun r => orElse ((dualCipher (rehashDual X x)).bytesEncrypt r.key r.draws r.salt r.aad r.data) [] := by
      funext r
      unfold Family.message
      rw [dualFamily_at]
    obtain ⟨tr, _⟩ := play_trace cd hfk hroot hu hfit ((dualFamily X).message x) n
    rw [playP, Prog.exec_bind]
    refine follows_step cd ho hfk' hmk' hroot' ?_ hu hfit ?_ ?_ ih ?_
    · intro k d t _ _
      rw [hmsg]
      rfl
    · rw [hR]
      exact marked_real dumps loads dumpManifest loadManifest cd
    · rw [hR]
      rfl
    · intro t ht y hy hne hnone now ttl
      have hno := hno (some t) (by simp [places, ht])
      obtain ⟨e1, e2, e3, e4, e5⟩ := attempt_rest (R := R) (key := key) (salt := salt) (c := X.cfg) (f := f) (t := some t) ((playP cd R key salt X.cfg f n).exec ((dualFamily X).message x))
      have hname : R.fileName key salt t = (realEnv K (rehashDual X x) dumps loads dumpManifest loadManifest).fileName key salt t := by rw [hR]; rfl
      have hdata : (fileAttempt R X.cfg key salt f (some t) ((playP cd R key salt X.cfg f n).exec ((dualFamily X).message x))).data = y := by
        rw [e5, placeName, hname, hy]
        rfl
      have hkey : (fileAttempt R X.cfg key salt f (some t) ((playP cd R key salt X.cfg f n).exec ((dualFamily X).message x))).key =
          (realEnv K (rehashDual X x) dumps loads dumpManifest loadManifest).fileKey key salt ((realEnv K (rehashDual X x) dumps loads dumpManifest loadManifest).fileName key salt t) := by
        rw [← hname, hR]
        rfl
      have hnp : ¬ Passes ((dualCipher (rehashDual X x)).bytesDecrypt ((realEnv K (rehashDual X x) dumps loads dumpManifest loadManifest).fileKey key salt
          ((realEnv K (rehashDual X x) dumps loads dumpManifest loadManifest).fileName key salt t)) (List.replicate X.cfg.saltBytes 0) 0 none [] y) := by
        intro hpass
        refine hno ⟨?_, ?_⟩
        · rintro w hw ⟨w1, w2, _⟩
          obtain ⟨name, _, hl⟩ := tr w hw
          have := List.findSome?_eq_none_iff.1 hnone _ hl
          rw [w1, hdata, w2, hkey, answered_code] at this
          cases this
        · rw [e1, e2, e3, e4, hdata, hkey, dualFamily_at]
          exact hpass
      have hk := hfk' ((realEnv K (rehashDual X x) dumps loads dumpManifest loadManifest).fileName key salt t)
      have htc := Cipher.C23_dual (rehashDual_setup h x) _ hk.1 hk.2 (List.replicate X.cfg.saltBytes 0) (List.length_replicate) [] (by decide) y
      exact refused htc hnp now ttl

theorem attack_count {N : Nat} (hN : 2 * X.cfg.shmacBlocksize ≤ N) (htag : X.cfg.shmacBytes ≤ X.cfg.shmacBlocksize) {tags : Finset String} {key salt : Bytes} (known : Xof) {R : Env Draws J}
    (hR : R = realEnv K X dumps loads dumpManifest loadManifest) (hroot : ∀ t ∈ tags, R.fileName key salt t ≠ R.rootName key)
    (hpre : ∀ t ∈ tags, ¬ R.fileKey key salt (R.fileName key salt t) <+: R.manifestKey key)
    (hkeys : ∀ t ∈ tags, ∀ u ∈ tags, R.fileKey key salt (R.fileName key salt t) = R.fileKey key salt (R.fileName key salt u) → R.fileName key salt t = R.fileName key salt u)
    {f : Attacker Draws J} (hu : ∀ seen, (f seen).2.Uses tags) (hfit : ∀ seen i d, (f seen).2.draws i d → d.Fit X.cfg) (n : Nat) :
    ∃ D0 : Finset Bytes, (∀ q ∈ D0, ∃ name k w, Named R tags key salt name k ∧ q = X.shmacKdf.factory ++ k ++ w) ∧ ∀ D, D0 ⊆ D →
      count (fun T : Hash D N => ∃ i < n, ∃ r : Reading J, r.Of key salt tags ∧ Deceived (realEnv K (rehashDual X (T.xof known)) dumps loads dumpManifest loadManifest) key
        (written (attacked (realEnv K (rehashDual X (T.xof known)) dumps loads dumpManifest loadManifest) f key salt i).2)
        (f (attacked (realEnv K (rehashDual X (T.xof known)) dumps loads dumpManifest loadManifest) f key salt i).2).1 r) * 256 ^ X.cfg.shmacBytes ≤
      n * (tags.card + 1) * total D N := by
  obtain ⟨cd⟩ := exists_marks
  obtain ⟨k1, k2⟩ := key_sizes hK (X := X) dumps loads dumpManifest loadManifest key salt
  have hfk : ∀ name, KeySize (R.fileKey key salt name) := fun name => by rw [hR]; simp [KeySize, k1 name]
  have hmk : KeySize (R.manifestKey key) := by rw [hR]; simp [KeySize, k2]
  have hnamed : ∀ {name k}, Named R tags key salt name k → KeySize k := by
    rintro name k (⟨_, rfl⟩ | ⟨t, _, _, rfl⟩)
    · exact hmk
    · exact hfk _
  have small : ∀ {name k}, Named R tags key salt name k → (name = R.rootName key ∧ k = R.manifestKey key ∧ k.length = 168) ∨
      k.length = 64 ∧ ∃ t ∈ tags, name = R.fileName key salt t ∧ k = R.fileKey key salt name := by
    rintro name k (⟨e, rfl⟩ | ⟨t, ht, e, rfl⟩)
    · exact .inl ⟨e, rfl, by rw [hR]; exact k2⟩
    · exact .inr ⟨by rw [hR]; exact k1 _, t, ht, e, rfl⟩
  have apart : ∀ {name k name' k'}, Named R tags key salt name k → Named R tags key salt name' k' → k.length = k'.length ∨ ¬ k <+: k' ∧ ¬ k' <+: k := by
    intro name k name' k' hn hw
    have no : ∀ {a b : Bytes}, a.length = 64 → b.length = 168 → ¬ b <+: a := fun ha hb hp => by
      have := hp.length_le
      omega
    rcases small hn with ⟨_, e1, l1⟩ | ⟨l1, t1, ht1, n1, e1⟩
    · rcases small hw with ⟨_, e2, l2⟩ | ⟨l2, t2, ht2, n2, e2⟩
      · exact .inl (l1.trans l2.symm)
      · refine .inr ⟨no l2 l1, ?_⟩
        rw [e1, e2, n2]
        exact hpre t2 ht2
    · rcases small hw with ⟨_, e2, l2⟩ | ⟨l2, t2, ht2, n2, e2⟩
      · refine .inr ⟨?_, no l1 l2⟩
        rw [e1, e2, n1]
        exact hpre t1 ht1
      · exact .inl (l1.trans l2.symm)
  have same : ∀ {name k name'}, Named R tags key salt name k → Named R tags key salt name' k → name = name' := by
    intro name k name' hn hw
    rcases small hn with ⟨n1, _, l1⟩ | ⟨l1, t1, ht1, n1, e1⟩
    · rcases small hw with ⟨n2, _, l2⟩ | ⟨l2, _⟩
      · rw [n1, n2]
      · have : (168 : Nat) = 64 := l1.symm.trans l2
        omega
    · rcases small hw with ⟨_, _, l2⟩ | ⟨l2, t2, ht2, n2, e2⟩
      · have : (64 : Nat) = 168 := l1.symm.trans l2
        omega
      · rw [n1, n2]
        refine hkeys t1 ht1 t2 ht2 ?_
        rw [← n1, ← n2]
        exact e1.symm.trans e2
  let attempts : List (Prog (Play J) × (Play J → Attempt)) :=
    (List.range n).flatMap fun i => (places tags).map fun t => (playP cd R key salt X.cfg f i, fileAttempt R X.cfg key salt f t)
  have hlen : attempts.length = n * (tags.card + 1) := by simp [attempts, places]
  have hmem : ∀ a ∈ attempts, ∃ i < n, ∃ t ∈ places tags, a = (playP cd R key salt X.cfg f i, fileAttempt R X.cfg key salt f t) := by
    intro a ha
    obtain ⟨i, hi, ha⟩ := List.mem_flatMap.1 ha
    obtain ⟨t, ht, rfl⟩ := List.mem_map.1 ha
    exact ⟨i, List.mem_range.1 hi, t, ht, rfl⟩
  obtain ⟨D0, a1, a2⟩ := gets_many (K := N) (dual_lawful h) hN htag h.tag_pos known attempts (by
      intro a ha r hr
      obtain ⟨i, _, t, _, rfl⟩ := hmem a ha
      obtain ⟨name, d, t, hn, hd, e⟩ := play_asks cd hfk hroot hu hfit i hr
      have := hnamed hn
      rw [e]
      exact ⟨this.1, this.2, hd, hd.salt, show ([] : Bytes).length < 256 ^ 4 by decide⟩) (by
      intro a ha s
      obtain ⟨i, _, t, ht, rfl⟩ := hmem a ha
      have hk := hnamed (attempt_named (R := R) (key := key) (salt := salt) (c := X.cfg) (f := f) ht s)
      obtain ⟨e1, e2, _⟩ := attempt_rest (R := R) (key := key) (salt := salt) (c := X.cfg) (f := f) (t := t) s
      refine ⟨hk.1, hk.2, ?_, ?_⟩
      · show (fileAttempt R X.cfg key salt f t s).aad.length < 256 ^ 4
        rw [e1]
        decide
      · show (fileAttempt R X.cfg key salt f t s).saltDraw.length = _
        rw [e2]
        exact List.length_replicate) (by
      intro a ha r s hr
      obtain ⟨i, _, t, ht, rfl⟩ := hmem a ha
      obtain ⟨name, d, t', hn, hd, e⟩ := play_asks cd hfk hroot hu hfit i hr
      exact apart hn (attempt_named (R := R) (key := key) (salt := salt) (c := X.cfg) (f := f) ht s))
  refine ⟨D0, fun q hq => ?_, fun D hD => ?_⟩
  · obtain ⟨a, ha, s, w, e⟩ := a1 q hq
    obtain ⟨i, _, t, ht, rfl⟩ := hmem a ha
    exact ⟨_, _, w, attempt_named (R := R) (key := key) (salt := salt) (c := X.cfg) (f := f) ht s, e⟩
  have hcount := a2 D hD
  rw [hlen] at hcount
  refine Nat.le_trans (Nat.mul_le_mul_right _ (count_mono ?_)) hcount
  rintro T ⟨i, hi, r, hr, hdec⟩
  by_cases hgot : ∃ j < i, ∃ t ∈ places tags, Gets (dualFamily X) (T.xof known) (playP cd R key salt X.cfg f j) (fileAttempt R X.cfg key salt f t)
  · obtain ⟨j, hj, t, ht, hg⟩ := hgot
    exact ⟨_, List.mem_flatMap.2 ⟨j, List.mem_range.2 (hj.trans hi), List.mem_map.2 ⟨t, ht, rfl⟩⟩, hg⟩
  have hfol := attack_follows h hframe hK dumps loads dumpManifest loadManifest known hR hroot hu hfit cd (T.xof known) i
    (fun j hj t ht hg => hgot ⟨j, hj, t, ht, hg⟩)
  obtain ⟨tr1, tr2⟩ := play_trace cd hfk hroot hu hfit ((dualFamily X).message (T.xof known)) i
  have hseen := hfol.seen
  rw [← hseen] at hdec
  obtain ⟨p1, text, p2⟩ := gives_passes (c := X.cfg) hr hdec
  obtain ⟨hatt, hfile⟩ := attempt_congr (E := R) (E' := realEnv K (rehashDual X (T.xof known)) dumps loads dumpManifest loadManifest)
    (by rw [hR]; rfl) (by rw [hR]; rfl) (by rw [hR]; rfl) (by rw [hR]; rfl) X.cfg key salt (f ((playP cd R key salt X.cfg f i).exec ((dualFamily X).message (T.xof known))).seen).1 r
  rw [hatt] at p1 p2
  obtain ⟨t, ht, q1, q2, q3⟩ : ∃ t ∈ places tags, r.file R key = placeName R key salt t ∧
      (r.attempt R X.cfg key salt (f ((playP cd R key salt X.cfg f i).exec ((dualFamily X).message (T.xof known))).seen).1).key =
        (fileAttempt R X.cfg key salt f t ((playP cd R key salt X.cfg f i).exec ((dualFamily X).message (T.xof known)))).key ∧
      (r.attempt R X.cfg key salt (f ((playP cd R key salt X.cfg f i).exec ((dualFamily X).message (T.xof known))).seen).1).data =
        (fileAttempt R X.cfg key salt f t ((playP cd R key salt X.cfg f i).exec ((dualFamily X).message (T.xof known)))).data := by
    cases r with
    | query m tag ttl silent cache now =>
      obtain ⟨rfl, rfl, htag⟩ := hr
      exact ⟨some tag, by simp [places, htag], rfl, rfl, rfl⟩
    | load s now => exact ⟨none, by simp [places], rfl, rfl, rfl⟩
  refine ⟨_, List.mem_flatMap.2 ⟨i, List.mem_range.2 hi, List.mem_map.2 ⟨t, ht, rfl⟩⟩, ?_⟩
  have hnm := attempt_named (R := R) (key := key) (salt := salt) (c := X.cfg) (f := f) ht ((playP cd R key salt X.cfg f i).exec ((dualFamily X).message (T.xof known)))
  constructor
  · rintro y hy ⟨y1, y2, _⟩
    obtain ⟨name, hn, hl⟩ := tr1 y hy
    have hput := tr2 _ hl
    simp only at hput
    have hname : name = placeName R key salt t := by
      rw [y2] at hn
      exact same hn hnm
    obtain ⟨past, hpast, hx⟩ := put_moment hput
    obtain ⟨v, hv, hnot⟩ := hdec
    refine hnot past hpast ?_
    rw [← hv]
    refine gives_congr ?_
    rw [p1, hfile, q1, ← hname, hx, y1, q3]
  · obtain ⟨e1, e2, e3, e4, _⟩ := attempt_rest (R := R) (key := key) (salt := salt) (c := X.cfg) (f := f) (t := t)
      ((playP cd R key salt X.cfg f i).exec ((dualFamily X).message (T.xof known)))
    rw [q2, q3] at p2
    have hk := hnamed hnm
    have htc := Cipher.C23_dual (rehashDual_setup h (T.xof known)) _ hk.1 hk.2 (List.replicate X.cfg.saltBytes 0) (List.length_replicate) [] (by decide)
      (fileAttempt R X.cfg key salt f t ((playP cd R key salt X.cfg f i).exec ((dualFamily X).message (T.xof known)))).data
    rw [e1, e2, e3, e4, dualFamily_at]
    exact passes_any htc p2 0

end

end Aiootp.Database
