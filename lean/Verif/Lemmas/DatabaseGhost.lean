import Verif.Lemmas.DatabaseSim
import Verif.Lemmas.Requests
import Verif.Spec.DatabaseRest
import Verif.Spec.Database

/-
A database as a program that has messages encrypted: a database whose files are the requests themselves tells which they are.
-/

namespace Aiootp.Database

open Cipher (Draws Sizes)
open Secrecy (Prog Request)

variable {J : Type}

/-- A way to write down requests. -/
structure Code where
  code : Bytes × Draws × Bytes → Bytes
  decode : Bytes → Option (Bytes × Draws × Bytes)
  back : ∀ x, decode (code x) = some x
  ne : ∀ x, code x ≠ []

/-- What is read back. -/
def opened (d : Draws) (now : Int) (ttl : Option Int) (text : Bytes) : Except Err Bytes :=
  match ttl with
  | none => .ok text
  | some ttl => if now - d.reading > ttl then .error (.timestampExpired (now - d.reading - ttl)) else .ok text

/-- The cipher does what it should. -/
def Opens (R : Env Draws J) (c : Sizes) : Prop := ∀ k d t, KeySize k → d.Fit c → R.encrypt k d t ≠ [] ∧ ∀ now ttl, R.decrypt k now ttl (R.encrypt k d t) = opened d now ttl t

variable (cd : Code)

/-- The database whose files are the requests. -/
def ghost (R : Env Draws J) : Env Draws J :=
  { R with
    encrypt := fun k d t => cd.code (k, d, t)
    decrypt := fun k now ttl x =>
      match cd.decode x with
      | some (k', d, t) => if k' = k then opened d now ttl t else .error .value
      | none => .error .value }

theorem ghost_opens (R : Env Draws J) (c : Sizes) : Opens (ghost cd R) c := by
  intro k d t _ _
  refine ⟨cd.ne _, fun now ttl => ?_⟩
  show (match cd.decode (cd.code (k, d, t)) with | some (k', d, t) => if k' = k then opened d now ttl t else .error .value | none => .error .value) = _
  rw [cd.back]
  simp

/-! ### the program -/

/-- The requests are made, and their results are written. -/
def fill : List Write → Prog (List Write)
  | [] => .ret []
  | .unlink n :: ws => (fill ws).bind fun l => .ret (.unlink n :: l)
  | .put n x :: ws =>
    match cd.decode x with
    | some (k, d, t) => .ask ⟨k, d, none, [], t⟩ fun m => (fill ws).bind fun l => .ret (.put n m :: l)
    | none => (fill ws).bind fun l => .ret (.put n x :: l)

/-- What `n` calls do to the directory. -/
def watchP (G : Env Draws J) (f : Author Draws J) : (n : Nat) → Node J → Disk → (seen : List (List Write)) → Prog (List (List Write))
  | 0, _, _, seen => .ret seen
  | n + 1, node, disk, seen =>
    let x := ((f seen).op G node).run G node disk
    (fill cd x.2.2).bind fun W => watchP G f n x.2.1 (disk.applyAll x.2.2) (seen ++ [W])

/-! ### the database and the program -/

/-- A database, and the one whose files are the requests. -/
def hidden (R : Env Draws J) (tags : Finset String) (key salt : Bytes) (c : Sizes) : Pair Draws J where
  E := R
  E' := ghost cd R
  U := (· ∈ tags)
  σ := id
  key := key
  salt := salt
  good := (·.Fit c)
  VR := (· = ·)
  C := fun name x y => ∃ d t, d.Fit c ∧ x = R.encrypt (R.fileKey key salt name) d t ∧ y = cd.code (R.fileKey key salt name, d, t)
  F := fun name x y => ∃ d t, d.Fit c ∧ x = R.encrypt (R.fileKey key salt name) d t ∧ y = cd.code (R.fileKey key salt name, d, t)
  CR := fun x y => ∃ d t, d.Fit c ∧ x = R.encrypt (R.manifestKey key) d t ∧ y = cd.code (R.manifestKey key, d, t)

theorem Recs.eq {d d' : Dict String} (h : Recs (fun t t' => t' = id t ∧ True) d d') : d' = d := by
  induction h with
  | nil => rfl
  | cons hp _ ih => rw [ih, Prod.ext hp.1 (show _ from hp.2.1.symm)]

theorem hidden_sim {R : Env Draws J} {tags : Finset String} {key salt : Bytes} {c : Sizes} (ho : Opens R c) (hf : ∀ name, KeySize (R.fileKey key salt name))
    (hroot : ∀ t ∈ tags, R.fileName key salt t ≠ R.rootName key) : (hidden cd R tags key salt c).Sim where
  name _ _ := rfl
  root := rfl
  notRoot := hroot
  file := by
    rintro t v _ r ht rfl hr
    show Both _ (encodeValue R v) (encodeValue R v)
    cases encodeValue R v with
    | error e => exact rfl
    | ok x => exact ⟨r, x, hr, rfl, rfl⟩
  kept := fun _ _ _ _ h => h
  read := by
    rintro t x y ht ⟨d, text, hd, rfl, rfl⟩
    refine .inr ⟨(ho _ _ _ (hf _) hd).1, cd.ne _, fun now ttl => ?_⟩
    have h1 := (ho (R.fileKey key salt (R.fileName key salt t)) d text (hf _) hd).2 now ttl
    have h2 := (ghost_opens cd R c (R.fileKey key salt (R.fileName key salt t)) d text (hf _) hd).2 now ttl
    show Both (· = ·) (do let x ← R.decrypt (R.fileKey key salt (R.fileName key salt t)) now ttl (R.encrypt (R.fileKey key salt (R.fileName key salt t)) d text); decodeValue R x)
      (do let x ← (ghost cd R).decrypt (R.fileKey key salt (R.fileName key salt t)) now ttl ((ghost cd R).encrypt (R.fileKey key salt (R.fileName key salt t)) d text); decodeValue R x)
    rw [h1, h2]
    cases (do let x ← opened d now ttl text; decodeValue R x : Except Err (Value J)) with
    | error e => exact rfl
    | ok v => exact rfl
  manifest := by
    intro m m' r hm hr
    refine ⟨r, R.dumpManifest m, hr, rfl, ?_⟩
    obtain ⟨a, b, c⟩ := m
    obtain ⟨a', b', c'⟩ := m'
    have hs := hm.salt.trans hm.salt'.symm
    have hmt := hm.metatags
    have hfl : c' = c := by
      refine Recs.eq (List.Forall₂.imp (fun p p' h => ⟨h.1, h.2.1, trivial⟩) hm.files)
    simp only at hs hmt
    subst hs hmt hfl
    rfl

theorem exec_fill {R : Env Draws J} {tags : Finset String} {key salt : Bytes} {c : Sizes} (hf : ∀ name, KeySize (R.fileKey key salt name)) (hm : KeySize (R.manifestKey key))
    {encrypt : Request → Bytes} (he : ∀ k d t, KeySize k → d.Fit c → encrypt ⟨k, d, none, [], t⟩ = R.encrypt k d t) {ws ws' : List Write}
    (h : List.Forall₂ (hidden cd R tags key salt c).WriteRel ws ws') : (fill cd ws').exec encrypt = ws := by
  induction h with
  | nil => rfl
  | @cons w w' l l' hw _ ih =>
    cases w with
    | unlink n =>
      cases w' with
      | put n' x' => exact hw.elim
      | unlink n' =>
        cases (show n = n' from hw)
        rw [fill, Prog.exec_bind, ih]
        rfl
    | put n x =>
      cases w' with
      | unlink n' => exact hw.elim
      | put n' x' =>
        obtain ⟨rfl, hw⟩ := hw
        obtain ⟨k, d, t, hk, hd, rfl, rfl⟩ : ∃ k d t, KeySize k ∧ d.Fit c ∧ x = R.encrypt k d t ∧ x' = cd.code (k, d, t) := by
          rcases hw with ⟨_, _, _, d, t, hd, e1, e2⟩ | ⟨_, d, t, hd, e1, e2⟩
          · exact ⟨_, d, t, hf _, hd, e1, e2⟩
          · exact ⟨_, d, t, hm, hd, e1, e2⟩
        simp only [fill, cd.back, Prog.exec, Prog.exec_bind, ih, he k d t hk hd]

theorem Recs.names {α : Type} {R : α → α → Prop} {d d' : Dict α} (h : Recs R d d') : d'.map (·.1) = d.map (·.1) := by
  induction h with
  | nil => rfl
  | cons hp _ ih => rw [List.map_cons, List.map_cons, ih, hp.1]

theorem exec_watch {R : Env Draws J} {tags : Finset String} {key salt : Bytes} {c : Sizes} (ho : Opens R c) (hf : ∀ name, KeySize (R.fileKey key salt name))
    (hm : KeySize (R.manifestKey key)) (hroot : ∀ t ∈ tags, R.fileName key salt t ≠ R.rootName key) {encrypt : Request → Bytes}
    (he : ∀ k d t, KeySize k → d.Fit c → encrypt ⟨k, d, none, [], t⟩ = R.encrypt k d t) {f : Author Draws J}
    (hop : ∀ seen (n n' : Node J), (hidden cd R tags key salt c).NodeRel n n' → (hidden cd R tags key salt c).OpRel ((f seen).op R n) ((f seen).op (ghost cd R) n')) :
    ∀ (k : Nat) {n n' : Node J}, (hidden cd R tags key salt c).NodeRel n n' → ∀ {D D' : Disk}, (hidden cd R tags key salt c).DiskRel D D' → ∀ seen,
      (watchP cd (ghost cd R) f k n' D' seen).exec encrypt = watch R f k n D seen
  | 0, _, _, _, _, _, _, _ => rfl
  | k + 1, n, n', h, D, D', hd, seen => by
    have S := hidden_sim cd ho hf hroot
    have o := Pair.op_sim S h hd (hop seen n n' h)
    rw [watchP, watch]
    rw [Prog.exec_bind, show (fill cd (((f seen).op (ghost cd R) n').run (ghost cd R) n' D').2.2).exec encrypt = _ from exec_fill cd hf hm he o.writes]
    exact exec_watch ho hf hm hroot he hop k o.node (Pair.disk_sim S o.writes hd) _

/-! ### two databases -/

/-- Two databases whose files are the requests. -/
def similar (R R' : Env Draws J) (tags : Finset String) (σ : String → String) (key salt : Bytes) (c : Sizes) : Pair Draws J where
  E := ghost cd R
  E' := ghost cd R'
  U := (· ∈ tags)
  σ := σ
  key := key
  salt := salt
  good := (·.Fit c)
  VR := SameSize R
  C := fun name x y => ∃ d t t' v v', d.Fit c ∧ x = cd.code (R.fileKey key salt name, d, t) ∧ y = cd.code (R'.fileKey key salt name, d, t') ∧ t.length = t'.length ∧
    decodeValue R t = .ok v ∧ decodeValue R t' = .ok v' ∧ SameSize R v v'
  F := fun name x y => ∃ d t t' v v', d.Fit c ∧ x = cd.code (R.fileKey key salt name, d, t) ∧ y = cd.code (R'.fileKey key salt name, d, t') ∧ t.length = t'.length ∧
    decodeValue R t = .ok v ∧ decodeValue R t' = .ok v' ∧ SameSize R v v'
  CR := fun x y => ∃ d t t', d.Fit c ∧ x = cd.code (R.manifestKey key, d, t) ∧ y = cd.code (R'.manifestKey key, d, t') ∧ t.length = t'.length

theorem Recs.files {tags : Finset String} {σ : String → String} {d d' : Dict String} (h : Recs (fun t t' => t' = σ t ∧ t ∈ tags) d d') :
    d' = d.map (fun p => (p.1, σ p.2)) ∧ ∀ p ∈ d, p.2 ∈ tags := by
  induction h with
  | nil => exact ⟨rfl, fun p hp => (List.not_mem_nil hp).elim⟩
  | @cons p p' l l' hp _ ih =>
    refine ⟨?_, fun q hq => ?_⟩
    · rw [List.map_cons, ih.1, show p' = (p.1, σ p.2) from Prod.ext hp.1.symm hp.2.1]
    · rcases List.mem_cons.1 hq with rfl | hq
      · exact hp.2.2
      · exact ih.2 q hq

theorem similar_sim {R R' : Env Draws J} {tags : Finset String} {σ : String → String} {key salt : Bytes} {c : Sizes} (hname : ∀ t ∈ tags, R'.fileName key salt (σ t) = R.fileName key salt t)
    (hr : R'.rootName key = R.rootName key) (hdumps : R'.dumps = R.dumps) (hloads : R'.loads = R.loads) (hman : R'.dumpManifest = R.dumpManifest)
    (hsize : ManifestSizes R.dumpManifest tags σ) (hroot : ∀ t ∈ tags, R.fileName key salt t ≠ R.rootName key) : (similar cd R R' tags σ key salt c).Sim where
  name := hname
  root := hr
  notRoot := hroot
  file := by
    rintro t v v' r ht ⟨x, x', h1, h2, h3, h4, h5⟩ hr
    have e : ∀ v : Value J, encodeValue (ghost cd R') v = encodeValue R v := by
      intro v; unfold encodeValue; cases v <;> simp [ghost, hdumps]
    show Both _ (encodeValue R v) (encodeValue (ghost cd R') v')
    rw [e, h1, h3]
    exact ⟨r, x, x', v, v', hr, rfl, rfl, h5, h2, h4, x, x', h1, h2, h3, h4, h5⟩
  kept := fun _ _ _ _ h => h
  read := by
    rintro t _ _ ht ⟨d, x, x', v, v', hd, rfl, rfl, h5, h2, h4, hv⟩
    refine .inr ⟨cd.ne _, cd.ne _, fun now ttl => ?_⟩
    have e : ∀ x : Bytes, decodeValue (ghost cd R') x = decodeValue R x := by
      intro x; unfold decodeValue; simp [ghost, hloads]
    have a : ∀ (R : Env Draws J) k d t, (ghost cd R).decrypt k now ttl (cd.code (k, d, t)) = opened d now ttl t := by
      intro R k d t
      show (match cd.decode (cd.code (k, d, t)) with | some (k', d, t) => if k' = k then opened d now ttl t else .error .value | none => .error .value) = _
      rw [cd.back]
      simp
    show Both (SameSize R) (do let x ← (ghost cd R).decrypt (R.fileKey key salt (R.fileName key salt t)) now ttl (cd.code (R.fileKey key salt (R.fileName key salt t), d, x)); decodeValue R x)
      (do let x ← (ghost cd R').decrypt (R'.fileKey key salt (R.fileName key salt t)) now ttl (cd.code (R'.fileKey key salt (R.fileName key salt t), d, x')); decodeValue (ghost cd R') x)
    rw [a, a]
    unfold opened
    cases ttl with
    | none => simp only [bind, Except.bind, e, h2, h4]; exact hv
    | some ttl =>
      simp only
      split
      · exact rfl
      · simp only [bind, Except.bind, e, h2, h4]; exact hv
  manifest := by
    intro m m' r hm hr
    refine ⟨r, R.dumpManifest m, R.dumpManifest m', hr, rfl, ?_, ?_⟩
    · show cd.code (R'.manifestKey key, r, R'.dumpManifest m') = _
      rw [hman]
    · obtain ⟨hf1, hf2⟩ := Recs.files hm.files
      rw [← hsize m hf2]
      congr 2
      obtain ⟨a, b, c⟩ := m
      obtain ⟨a', b', c'⟩ := m'
      have hs := hm.salt.trans hm.salt'.symm
      have hmt := hm.metatags
      simp only at hs hmt hf1
      subst hs hmt hf1
      rfl

theorem Prog.alike_bind {α β : Type} {g g' : α → Prog β} (hg : ∀ x, Prog.Alike (g x) (g' x)) : ∀ {p p' : Prog α}, Prog.Alike p p' → Prog.Alike (p.bind g) (p'.bind g')
  | .ret x, .ret x', h => by cases (show x = x' from h); exact hg x
  | .ask r next, .ask r' next', h => ⟨h.1, fun m => Prog.alike_bind hg (h.2 m)⟩
  | .ret _, .ask _ _, h => h.elim
  | .ask _ _, .ret _, h => h.elim

theorem alike_fill {R R' : Env Draws J} {tags : Finset String} {σ : String → String} {key salt : Bytes} {c : Sizes} {ws ws' : List Write}
    (h : List.Forall₂ (similar cd R R' tags σ key salt c).WriteRel ws ws') : Prog.Alike (fill cd ws) (fill cd ws') := by
  induction h with
  | nil => exact rfl
  | @cons w w' l l' hw _ ih =>
    cases w with
    | unlink n =>
      cases w' with
      | put n' x' => exact hw.elim
      | unlink n' =>
        cases (show n = n' from hw)
        rw [fill, fill]
        refine Prog.alike_bind ?_ ih
        intro l
        exact rfl
    | put n x =>
      cases w' with
      | unlink n' => exact hw.elim
      | put n' x' =>
        obtain ⟨rfl, hw⟩ := hw
        obtain ⟨k, k', d, t, t', rfl, rfl, ht⟩ : ∃ k k' d t t', x = cd.code (k, d, t) ∧ x' = cd.code (k', d, t') ∧ t.length = t'.length := by
          rcases hw with ⟨_, _, _, d, t, t', _, _, _, e1, e2, ht, _⟩ | ⟨_, d, t, t', _, e1, e2, ht⟩
          · exact ⟨_, _, d, t, t', e1, e2, ht⟩
          · exact ⟨_, _, d, t, t', e1, e2, ht⟩
        simp only [fill, cd.back]
        refine ⟨⟨rfl, rfl, ht⟩, fun m => Prog.alike_bind ?_ ih⟩
        intro l
        exact rfl

theorem alike_watch {R R' : Env Draws J} {tags : Finset String} {σ : String → String} {key salt : Bytes} {c : Sizes} (S : (similar cd R R' tags σ key salt c).Sim) {f f' : Author Draws J}
    (hop : ∀ seen (n n' : Node J), (similar cd R R' tags σ key salt c).NodeRel n n' → (similar cd R R' tags σ key salt c).OpRel ((f seen).op (ghost cd R) n) ((f' seen).op (ghost cd R') n')) :
    ∀ (k : Nat) {n n' : Node J}, (similar cd R R' tags σ key salt c).NodeRel n n' → ∀ {D D' : Disk}, (similar cd R R' tags σ key salt c).DiskRel D D' → ∀ seen,
      Prog.Alike (watchP cd (ghost cd R) f k n D seen) (watchP cd (ghost cd R') f' k n' D' seen)
  | 0, _, _, _, _, _, _, _ => rfl
  | k + 1, n, n', h, D, D', hd, seen => by
    have o := Pair.op_sim S h hd (hop seen n n' h)
    rw [watchP, watchP]
    exact Prog.alike_bind (fun W => alike_watch S hop k o.node (Pair.disk_sim S o.writes hd) _) (alike_fill cd o.writes)

end Aiootp.Database
