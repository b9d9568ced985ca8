import Verif.Lemmas.DatabaseRest
import Verif.Lemmas.ForgeryProg
import Verif.Props.Forgery
import Verif.Spec.DatabaseTamper

/-
Files that were not written by the database.
-/

namespace Aiootp.Database

open Cipher (Draws Sizes DualEnv DualSetup dualCipher)
open Secrecy

variable {J : Type} (cd : Code)

/-- The key of a file. -/
def Named (R : Env Draws J) (tags : Finset String) (key salt : Bytes) (name : String) (k : Bytes) : Prop :=
  (name = R.rootName key ∧ k = R.manifestKey key) ∨ ∃ t ∈ tags, name = R.fileName key salt t ∧ k = R.fileKey key salt name

/-- A file with the request in it. -/
def Good (R : Env Draws J) (tags : Finset String) (key salt : Bytes) (c : Sizes) : Write → Prop
  | .put name x => ∃ k d t, Named R tags key salt name k ∧ d.Fit c ∧ x = cd.code (k, d, t)
  | .unlink _ => True

/-- A request of the database. -/
def Asked (R : Env Draws J) (tags : Finset String) (key salt : Bytes) (c : Sizes) (r : Request) : Prop :=
  ∃ name d t, Named R tags key salt name r.key ∧ d.Fit c ∧ r = ⟨r.key, d, none, [], t⟩

theorem asks_bind {α β : Type} {g : α → Prog β} {r : Request} : ∀ p : Prog α, (p.bind g).Asks r → p.Asks r ∨ ∃ x, (g x).Asks r
  | .ret x, h => .inr ⟨x, h⟩
  | .ask _ next, h => by
    rcases h with h | ⟨m, h⟩
    · exact .inl (.inl h)
    · rcases asks_bind (next m) h with h | h
      · exact .inl (.inr ⟨m, h⟩)
      · exact .inr h

section
variable {R : Env Draws J} {tags : Finset String} {key salt : Bytes} {c : Sizes}

theorem asks_fill {r : Request} : ∀ {ws : List Write}, (∀ w ∈ ws, Good cd R tags key salt c w) → (fill cd ws).Asks r → Asked R tags key salt c r
  | [], _, h => h.elim
  | .unlink n :: ws, hw, h => by
    rcases asks_bind _ h with h | ⟨_, h⟩
    · exact asks_fill (fun w hm => hw w (List.mem_cons_of_mem _ hm)) h
    · exact h.elim
  | .put n x :: ws, hw, h => by
    obtain ⟨k, d, t, hn, hd, rfl⟩ := hw _ List.mem_cons_self
    simp only [fill, cd.back] at h
    rcases h with rfl | ⟨m, h⟩
    · exact ⟨n, d, t, hn, hd, rfl⟩
    · rcases asks_bind _ h with h | ⟨_, h⟩
      · exact asks_fill (fun w hm => hw w (List.mem_cons_of_mem _ hm)) h
      · exact h.elim

theorem trace_fill (encrypt : Request → Bytes) : ∀ {ws : List Write}, (∀ w ∈ ws, Good cd R tags key salt c w) → ∀ y ∈ (fill cd ws).trace encrypt,
    ∃ name, Named R tags key salt name y.1.key ∧ .put name y.2 ∈ (fill cd ws).exec encrypt
  | [], _, y, h => (List.not_mem_nil h).elim
  | .unlink n :: ws, hw, y, h => by
    unfold fill at h ⊢
    rw [Prog.trace_bind] at h
    rw [Prog.exec_bind]
    rcases List.mem_append.1 h with h | h
    · obtain ⟨name, h1, h2⟩ := trace_fill encrypt (fun w hm => hw w (List.mem_cons_of_mem _ hm)) y h
      exact ⟨name, h1, List.mem_cons_of_mem _ h2⟩
    · exact (List.not_mem_nil h).elim
  | .put n x :: ws, hw, y, h => by
    obtain ⟨k, d, t, hn, hd, rfl⟩ := hw _ List.mem_cons_self
    simp only [fill, cd.back] at h ⊢
    rw [Prog.exec, Prog.exec_bind]
    rcases List.mem_cons.1 h with rfl | h
    · exact ⟨n, hn, List.mem_cons_self⟩
    · rw [Prog.trace_bind] at h
      rcases List.mem_append.1 h with h | h
      · obtain ⟨name, h1, h2⟩ := trace_fill encrypt (fun w hm => hw w (List.mem_cons_of_mem _ hm)) y h
        exact ⟨name, h1, List.mem_cons_of_mem _ h2⟩
      · exact (List.not_mem_nil h).elim

theorem good_writes {ws ws' : List Write} (h : List.Forall₂ (hidden cd (ghost cd R) tags key salt c).WriteRel ws ws') : ∀ w ∈ ws, Good cd R tags key salt c w := by
  induction h with
  | nil => intro w hw; exact (List.not_mem_nil hw).elim
  | @cons w w' ws ws' h _ ih =>
    intro v hv
    rcases List.mem_cons.1 hv with rfl | hv
    · cases v with
      | unlink n => trivial
      | put n x =>
        cases w' with
        | unlink n' => exact h.elim
        | put n' x' =>
          obtain ⟨rfl, ⟨t, ht, e, d, x, hd, e1, _⟩ | ⟨e, d, x, hd, e1, _⟩⟩ := h
          · exact ⟨_, d, x, .inr ⟨t, ht, e, rfl⟩, hd, e1⟩
          · exact ⟨_, d, x, .inl ⟨e, rfl⟩, hd, e1⟩
    · exact ih v hv

theorem watch_prefix (G : Env Draws J) (f : Author Draws J) (encrypt : Request → Bytes) : ∀ (k : Nat) (n : Node J) (D : Disk) (seen : List (List Write)),
    seen <+: (watchP cd G f k n D seen).exec encrypt
  | 0, _, _, _ => List.prefix_refl _
  | k + 1, n, D, seen => by
    rw [watchP, Prog.exec_bind]
    exact (List.prefix_append _ _).trans (watch_prefix G f encrypt k _ _ _)

theorem good_watch (hf : ∀ name, KeySize (R.fileKey key salt name)) (hroot : ∀ t ∈ tags, R.fileName key salt t ≠ R.rootName key)
    {f : Author Draws J} (hu : ∀ seen, (f seen).Uses tags) (hfit : ∀ seen i d, (f seen).draws i d → d.Fit c) :
    ∀ (k : Nat) {n n' : Node J}, (hidden cd (ghost cd R) tags key salt c).NodeRel n n' → ∀ {D D' : Disk}, (hidden cd (ghost cd R) tags key salt c).DiskRel D D' →
      ∀ seen : List (List Write), (∀ r, (watchP cd (ghost cd R) f k n D seen).Asks r → Asked R tags key salt c r) ∧
        ∀ encrypt, ∀ y ∈ (watchP cd (ghost cd R) f k n D seen).trace encrypt, ∃ name, Named R tags key salt name y.1.key ∧
          .put name y.2 ∈ ((watchP cd (ghost cd R) f k n D seen).exec encrypt).flatten
  | 0, _, _, _, _, _, _, _ => ⟨fun r h => h.elim, fun e y h => (List.not_mem_nil h).elim⟩
  | k + 1, n, n', h, D, D', hd, seen => by
    have S := hidden_sim cd (ghost_opens cd R c) hf hroot
    have o := Pair.op_sim S h hd (op_hidden cd h (hu seen) fun i d hd => hfit seen i d hd)
    have hg := good_writes cd o.writes
    have ih := fun W => good_watch hf hroot hu hfit k o.node (Pair.disk_sim S o.writes hd) (seen ++ [W])
    rw [watchP]
    refine ⟨fun r hr => ?_, fun encrypt y hy => ?_⟩
    · rcases asks_bind _ hr with hr | ⟨W, hr⟩
      · exact asks_fill cd hg hr
      · exact (ih W).1 r hr
    · rw [Prog.trace_bind] at hy
      rw [Prog.exec_bind]
      rcases List.mem_append.1 hy with hy | hy
      · obtain ⟨name, h1, h2⟩ := trace_fill cd encrypt hg y hy
        refine ⟨name, h1, List.mem_flatten.2 ⟨_, (watch_prefix cd (ghost cd R) f encrypt k _ _ _).subset (List.mem_append_right _ List.mem_cons_self), h2⟩⟩
      · exact (ih _).2 encrypt y hy

end

/-! ### reading a changed directory -/

theorem Call.Within.uses {ρ : Type} {tags : Finset String} {a : Call ρ J} (h : a.Within tags) : a.Uses tags := by
  cases a with
  | save ds => trivial
  | tags op => cases op <;> exact h

/-- The file that is read. -/
def Reading.file {ρ : Type} (E : Env ρ J) (key : Bytes) : Reading J → String
  | .query n tag _ _ _ _ => n.filename E tag
  | .load _ _ => E.rootName key

theorem gives_congr {ρ : Type} {E : Env ρ J} {key : Bytes} {disk disk' : Disk} {r : Reading J} (h : disk (r.file E key) = disk' (r.file E key)) : r.gives E key disk = r.gives E key disk' := by
  cases r with
  | query n tag ttl silent cache now =>
    have h : disk (n.filename E tag) = disk' (n.filename E tag) := h
    simp only [Reading.gives, Node.queryTag, h]
  | load salt now =>
    have h : disk (E.rootName key) = disk' (E.rootName key) := h
    simp only [Reading.gives, openNode, openManifest, h]

/-- What is decrypted for a reading. -/
def Reading.attempt (E : Env Draws J) (c : Sizes) (key salt : Bytes) (disk : Disk) : Reading J → Attempt
  | .query _ tag ttl _ _ now => ⟨E.fileKey key salt (E.fileName key salt tag), [], (disk (E.fileName key salt tag)).getD [], ttl, now, List.replicate c.saltBytes 0⟩
  | .load _ now => ⟨E.manifestKey key, [], (disk (E.rootName key)).getD [], none, now, List.replicate c.saltBytes 0⟩

theorem attempt_congr {E E' : Env Draws J} (h1 : E'.fileKey = E.fileKey) (h2 : E'.fileName = E.fileName) (h3 : E'.manifestKey = E.manifestKey) (h4 : E'.rootName = E.rootName) (c : Sizes)
    (key salt : Bytes) (disk : Disk) (r : Reading J) : r.attempt E' c key salt disk = r.attempt E c key salt disk ∧ r.file E' key = r.file E key := by
  cases r <;> simp only [Reading.attempt, Reading.file, Node.filename, h1, h2, h3, h4, and_self]

theorem gives_passes {E : Env Draws J} {c : Sizes} {key salt : Bytes} {tags : Finset String} {seen : List (List Write)} {disk : Disk} {r : Reading J} (hr : r.Of key salt tags)
    (h : Deceived E key seen disk r) : disk (r.file E key) = some (r.attempt E c key salt disk).data ∧
      ∃ text, E.decrypt (r.attempt E c key salt disk).key (r.attempt E c key salt disk).now (r.attempt E c key salt disk).ttl (r.attempt E c key salt disk).data = .ok text := by
  obtain ⟨v, hv, hpast⟩ := h
  have hno : disk (r.file E key) ≠ none := fun e => hpast [] (List.nil_prefix) (by rw [← hv]; exact gives_congr (by rw [e]; rfl))
  cases r with
  | query n tag ttl silent cache now =>
    obtain ⟨rfl, rfl, _⟩ := hr
    have hno : disk (E.fileName n.key n.man.salt tag) ≠ none := hno
    have hcache : n.cache.get (E.fileName n.key n.man.salt tag) = none := by
      cases hc : n.cache.get (E.fileName n.key n.man.salt tag) with
      | none => rfl
      | some w =>
        refine absurd ?_ (hpast [] List.nil_prefix)
        rw [← hv]
        simp only [Reading.gives, Node.queryTag, Node.filename, hc]
    cases hd : disk (E.fileName n.key n.man.salt tag) with
    | none => exact absurd hd hno
    | some x =>
      refine ⟨by simp [Reading.attempt, Reading.file, Node.filename, hd], ?_⟩
      simp only [Reading.attempt, hd, Option.getD_some]
      simp only [Reading.gives, Node.queryTag, Node.filename, hcache, hd] at hv
      cases x with
      | nil => simp at hv
      | cons b bs =>
        cases ht : E.decrypt (E.fileKey n.key n.man.salt (E.fileName n.key n.man.salt tag)) now ttl (b :: bs) with
        | ok text => exact ⟨text, rfl⟩
        | error e =>
          have : (do let text ← E.decrypt (E.fileKey n.key n.man.salt (E.fileName n.key n.man.salt tag)) now ttl (b :: bs); decodeValue E text) = .error e := by rw [ht]; rfl
          simp only [this] at hv
          cases hv
  | load s now =>
    have hno : disk (E.rootName key) ≠ none := hno
    cases hd : disk (E.rootName key) with
    | none => exact absurd hd hno
    | some x =>
      refine ⟨by simp [Reading.attempt, Reading.file, hd], ?_⟩
      simp only [Reading.attempt, hd, Option.getD_some]
      simp only [Reading.gives, openNode, openManifest, hd] at hv
      cases ht : E.decrypt (E.manifestKey key) now none x with
      | ok text => exact ⟨text, rfl⟩
      | error e =>
        rw [ht] at hv
        unfold raiseIf at hv
        split at hv
        · rename_i hh
          simp only [bind, Except.bind] at hh
          split at hh <;> simp_all
        · cases hv

/-- A file that was written was there at some moment. -/
theorem put_moment {name : String} {x : Bytes} {ws : List Write} (h : .put name x ∈ ws) : ∃ past, past <+: ws ∧ noFiles.applyAll past name = some x := by
  obtain ⟨a, b, rfl⟩ := List.append_of_mem h
  refine ⟨a ++ [.put name x], ⟨b, by simp⟩, ?_⟩
  simp [Disk.applyAll, Disk.apply]

section
variable {X : DualEnv} (h : DualSetup X) (hframe : X.cfg.paddingFrame ≤ 256) {K : KdfEnv} (hK : K.Shapes) (dumps : J → Except Err Bytes) (loads : Bytes → Except Err J)
  (dumpManifest : Manifest → Bytes) (loadManifest : Bytes → Except Err Manifest)
include h hframe hK

theorem tamper_count {N : Nat} (hN : 2 * X.cfg.shmacBlocksize ≤ N) (htag : X.cfg.shmacBytes ≤ X.cfg.shmacBlocksize) {tags : Finset String} {key salt : Bytes} (known : Xof) {R : Env Draws J}
    (hR : R = realEnv K X dumps loads dumpManifest loadManifest) (hroot : ∀ t ∈ tags, R.fileName key salt t ≠ R.rootName key)
    (hpre : ∀ t ∈ tags, ¬ R.fileKey key salt (R.fileName key salt t) <+: R.manifestKey key)
    (hkeys : ∀ t ∈ tags, ∀ u ∈ tags, R.fileKey key salt (R.fileName key salt t) = R.fileKey key salt (R.fileName key salt u) → R.fileName key salt t = R.fileName key salt u)
    {f : Author Draws J} (hu : ∀ seen, (f seen).Uses tags) (hfit : ∀ seen i d, (f seen).draws i d → d.Fit X.cfg)
    (attempts : List (Nat × Tamperer J)) (hof : ∀ a ∈ attempts, ∀ seen, (a.2 seen).2.Of key salt tags) :
    ∃ D0 : Finset Bytes, (∀ q ∈ D0, ∃ name k w, Named R tags key salt name k ∧ q = X.shmacKdf.factory ++ k ++ w) ∧ ∀ D, D0 ⊆ D →
      count (fun T : Hash D N => ∃ a ∈ attempts, Deceived (realEnv K (rehashDual X (T.xof known)) dumps loads dumpManifest loadManifest) key
        (watch (realEnv K (rehashDual X (T.xof known)) dumps loads dumpManifest loadManifest) f a.1 (newNode key salt) noFiles [])
        (a.2 (watch (realEnv K (rehashDual X (T.xof known)) dumps loads dumpManifest loadManifest) f a.1 (newNode key salt) noFiles [])).1
        (a.2 (watch (realEnv K (rehashDual X (T.xof known)) dumps loads dumpManifest loadManifest) f a.1 (newNode key salt) noFiles [])).2) * 256 ^ X.cfg.shmacBytes ≤
      attempts.length * total D N := by
  subst hR
  obtain ⟨cd⟩ := exists_code
  obtain ⟨k1, k2⟩ := key_sizes hK (X := X) dumps loads dumpManifest loadManifest key salt
  have hfk : ∀ name, KeySize ((realEnv K X dumps loads dumpManifest loadManifest).fileKey key salt name) := fun name => by simp [KeySize, k1 name]
  have hmk : KeySize ((realEnv K X dumps loads dumpManifest loadManifest).manifestKey key) := by simp [KeySize, k2]
  have hnamed : ∀ {name k}, Named (realEnv K X dumps loads dumpManifest loadManifest) tags key salt name k → KeySize k := by
    rintro name k (⟨_, rfl⟩ | ⟨t, _, _, rfl⟩)
    · exact hmk
    · exact hfk _
  have node : (hidden cd (ghost cd (realEnv K X dumps loads dumpManifest loadManifest)) tags key salt X.cfg).NodeRel (newNode key salt) (newNode key salt) :=
    ⟨rfl, rfl, ⟨rfl, rfl, rfl, .nil⟩, .nil, fun p hp => (List.not_mem_nil hp).elim, List.nodup_nil⟩
  have disk : (hidden cd (ghost cd (realEnv K X dumps loads dumpManifest loadManifest)) tags key salt X.cfg).DiskRel noFiles noFiles := fun t _ => trivial
  have good := fun k => good_watch cd hfk hroot hu hfit k node disk []
  have run := fun k => rest_run (k := k) h hframe hK dumps loads dumpManifest loadManifest cd hroot hu hfit
  have which : ∀ (r : Reading J) (disk : Disk), r.Of key salt tags → Named (realEnv K X dumps loads dumpManifest loadManifest) tags key salt
      (r.file (realEnv K X dumps loads dumpManifest loadManifest) key) (r.attempt (realEnv K X dumps loads dumpManifest loadManifest) X.cfg key salt disk).key := by
    intro r disk hr
    cases r with
    | query n tag ttl silent cache now =>
      obtain ⟨rfl, rfl, ht⟩ := hr
      exact .inr ⟨tag, ht, rfl, rfl⟩
    | load s now => exact .inl ⟨rfl, rfl⟩
  let forge : Tamperer J → List (List Write) → Attempt := fun g seen => (g seen).2.attempt (realEnv K X dumps loads dumpManifest loadManifest) X.cfg key salt (g seen).1
  have small : ∀ {name k}, Named (realEnv K X dumps loads dumpManifest loadManifest) tags key salt name k →
      (name = (realEnv K X dumps loads dumpManifest loadManifest).rootName key ∧ k = (realEnv K X dumps loads dumpManifest loadManifest).manifestKey key ∧ k.length = 168) ∨
      k.length = 64 ∧ ∃ t ∈ tags, name = (realEnv K X dumps loads dumpManifest loadManifest).fileName key salt t ∧ k = (realEnv K X dumps loads dumpManifest loadManifest).fileKey key salt name := by
    rintro name k (⟨e, rfl⟩ | ⟨t, ht, e, rfl⟩)
    · exact .inl ⟨e, rfl, k2⟩
    · exact .inr ⟨k1 _, t, ht, e, rfl⟩
  obtain ⟨D0, a1, a2⟩ := gets_many (K := N) (dual_lawful h) hN htag h.tag_pos known
    (attempts.map fun a => (watchP cd (ghost cd (realEnv K X dumps loads dumpManifest loadManifest)) f a.1 (newNode key salt) noFiles [], forge a.2)) (by
      intro a ha r hr
      obtain ⟨a, ha', rfl⟩ := List.mem_map.1 ha
      obtain ⟨name, d, t, hn, hd, e⟩ := (good a.1).1 r hr
      have := hnamed hn
      rw [e]
      exact ⟨this.1, this.2, hd, hd.salt, show ([] : Bytes).length < 256 ^ 4 by decide⟩) (by
      intro a ha seen
      obtain ⟨a, ha', rfl⟩ := List.mem_map.1 ha
      have hk := hnamed (which (a.2 seen).2 (a.2 seen).1 (hof a ha' seen))
      refine ⟨hk.1, hk.2, ?_, ?_⟩
      · show ((a.2 seen).2.attempt _ _ _ _ _).aad.length < 256 ^ 4
        cases (a.2 seen).2 <;> exact (by decide : ([] : Bytes).length < 256 ^ 4)
      · show ((a.2 seen).2.attempt _ _ _ _ _).saltDraw.length = _
        cases (a.2 seen).2 <;> exact List.length_replicate) (by
      intro a ha r seen hr
      obtain ⟨a, ha', rfl⟩ := List.mem_map.1 ha
      obtain ⟨name, d, t, hn, hd, e⟩ := (good a.1).1 r hr
      have hw := which (a.2 seen).2 (a.2 seen).1 (hof a ha' seen)
      have no : ∀ {a b : Bytes}, a.length = 64 → b.length = 168 → ¬ b <+: a := fun ha hb hp => by
        have := hp.length_le
        omega
      show r.key.length = ((a.2 seen).2.attempt _ _ _ _ _).key.length ∨ ¬ r.key <+: ((a.2 seen).2.attempt _ _ _ _ _).key ∧ ¬ ((a.2 seen).2.attempt _ _ _ _ _).key <+: r.key
      rcases small hn with ⟨_, e1, l1⟩ | ⟨l1, t1, ht1, n1, e1⟩
      · rcases small hw with ⟨_, e2, l2⟩ | ⟨l2, t2, ht2, n2, e2⟩
        · exact .inl (l1.trans l2.symm)
        · refine .inr ⟨no l2 l1, ?_⟩
          rw [e1, e2, n2]
          exact hpre t2 ht2
      · rcases small hw with ⟨_, e2, l2⟩ | ⟨l2, t2, ht2, n2, e2⟩
        · refine .inr ⟨?_, no l1 l2⟩
          rw [e1, e2, n1]
          exact hpre t1 ht1
        · exact .inl (l1.trans l2.symm))
  refine ⟨D0, fun q hq => ?_, fun D hD => ?_⟩
  · obtain ⟨a, ha, seen, w, e⟩ := a1 q hq
    obtain ⟨a, ha', rfl⟩ := List.mem_map.1 ha
    exact ⟨_, _, w, which (a.2 seen).2 (a.2 seen).1 (hof a ha' seen), e⟩
  have hcount := a2 D hD
  rw [List.length_map] at hcount
  refine Nat.le_trans (Nat.mul_le_mul_right _ (count_mono ?_)) hcount
  rintro T ⟨a, ha, hdec⟩
  refine ⟨_, List.mem_map.2 ⟨a, ha, rfl⟩, ?_⟩
  have hrun : (watchP cd (ghost cd (realEnv K X dumps loads dumpManifest loadManifest)) f a.1 (newNode key salt) noFiles []).exec ((dualFamily X).message (T.xof known)) =
      watch (realEnv K (rehashDual X (T.xof known)) dumps loads dumpManifest loadManifest) f a.1 (newNode key salt) noFiles [] := by
    have hmsg : (dualFamily X).message (T.xof known) = fun r => orElse ((dualCipher (rehashDual X (T.xof known))).bytesEncrypt r.key r.draws r.salt r.aad r.data) [] := by
      funext r
      unfold Family.message
      rw [dualFamily_at]
    rw [hmsg]
    exact run a.1 (T.xof known)
  have hgood := (good a.1).2 ((dualFamily X).message (T.xof known))
  rw [hrun] at hgood
  unfold Gets
  simp only [hrun]
  generalize watch (realEnv K (rehashDual X (T.xof known)) dumps loads dumpManifest loadManifest) f a.1 (newNode key salt) noFiles [] = seen at hdec hgood ⊢
  have hw := which (a.2 seen).2 (a.2 seen).1 (hof a ha seen)
  obtain ⟨p1, text, p2⟩ := gives_passes (c := X.cfg) (hof a ha seen) hdec
  obtain ⟨hatt, hfile⟩ := attempt_congr (E := realEnv K X dumps loads dumpManifest loadManifest) (E' := realEnv K (rehashDual X (T.xof known)) dumps loads dumpManifest loadManifest)
    rfl rfl rfl rfl X.cfg key salt (a.2 seen).1 (a.2 seen).2
  rw [hatt] at p1 p2
  constructor
  · rintro y hy ⟨y1, y2, _⟩
    obtain ⟨name, hn, hput⟩ := hgood y hy
    have hname : name = (a.2 seen).2.file (realEnv K X dumps loads dumpManifest loadManifest) key := by
      rw [y2] at hn
      rcases small hn with ⟨n1, _, l1⟩ | ⟨l1, t1, ht1, n1, e1⟩
      · rcases small hw with ⟨n2, _, l2⟩ | ⟨l2, _⟩
        · rw [n1, n2]
        · have : (168 : Nat) = 64 := l1.symm.trans l2
          omega
      · rcases small hw with ⟨_, _, l2⟩ | ⟨l2, t2, ht2, n2, e2⟩
        · have : (64 : Nat) = 168 := l1.symm.trans l2
          omega
        · rw [n1, n2]
          refine hkeys t1 ht1 t2 ht2 ?_
          rw [← n1, ← n2]
          exact e1.symm.trans e2
    obtain ⟨past, hpast, hx⟩ := put_moment hput
    obtain ⟨v, hv, hnot⟩ := hdec
    refine hnot past hpast ?_
    rw [← hv]
    refine gives_congr ?_
    rw [p1, hfile, ← hname, hx, y1]
  · have p3 : ((dualFamily X).at (T.xof known)).bytesDecrypt (forge a.2 seen).key (List.replicate X.cfg.saltBytes 0) (forge a.2 seen).now (forge a.2 seen).ttl [] (forge a.2 seen).data = .ok text := p2
    have e1 : (forge a.2 seen).saltDraw = List.replicate X.cfg.saltBytes 0 := by
      show ((a.2 seen).2.attempt _ _ _ _ _).saltDraw = _
      cases (a.2 seen).2 <;> rfl
    have e2 : (forge a.2 seen).aad = [] := by
      show ((a.2 seen).2.attempt _ _ _ _ _).aad = _
      cases (a.2 seen).2 <;> rfl
    rw [e1, e2, p3]
    exact ⟨by rintro ⟨⟩, by rintro ⟨⟩⟩

end

end Aiootp.Database
