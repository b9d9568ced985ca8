import Verif.Lemmas.DatabaseTamper
import Verif.Spec.DatabaseAttack

/-
A database whose directory is in the hands of someone else, as a program that has messages encrypted.
-/

namespace Aiootp.Secrecy.Prog

variable {α β : Type}

/-- What may be returned. -/
def Returns : Prog α → α → Prop
  | ret y, x => x = y
  | ask _ next, x => ∃ m, (next m).Returns x

theorem returns_bind {g : α → Prog β} {y : β} : ∀ p : Prog α, (p.bind g).Returns y → ∃ x, p.Returns x ∧ (g x).Returns y
  | ret x, h => ⟨x, rfl, h⟩
  | ask _ next, ⟨m, h⟩ => by
    obtain ⟨x, h1, h2⟩ := returns_bind (next m) h
    exact ⟨x, ⟨m, h1⟩, h2⟩

theorem asks_returns {g : α → Prog β} {r : Request} : ∀ p : Prog α, (p.bind g).Asks r → p.Asks r ∨ ∃ x, p.Returns x ∧ (g x).Asks r
  | ret x, h => .inr ⟨x, rfl, h⟩
  | ask _ next, h => by
    rcases h with h | ⟨m, h⟩
    · exact .inl (.inl h)
    · rcases asks_returns (next m) h with h | ⟨x, h1, h2⟩
      · exact .inl (.inr ⟨m, h⟩)
      · exact .inr ⟨x, ⟨m, h1⟩, h2⟩

theorem exec_returns (encrypt : Request → Bytes) : ∀ p : Prog α, p.Returns (p.exec encrypt)
  | ret _ => rfl
  | ask r next => ⟨encrypt r, exec_returns encrypt (next (encrypt r))⟩

end Aiootp.Secrecy.Prog

namespace Aiootp.Database

open Cipher (Draws Sizes DualEnv DualSetup dualCipher)
open Secrecy

variable {J : Type}

/-- A way to write down requests, and what is refused. -/
structure Marks extends Code where
  bad : Bool → Bytes
  bad_decode : ∀ b, decode (bad b) = none
  bad_ne : ∀ b, bad b ≠ []
  bad_inj : bad true ≠ bad false

/-- How it is refused. -/
def refusal : Bool → Err
  | true => .invalidSHMAC
  | false => .ciphertextSize

variable (cd : Marks)

/-- The database whose files are the requests, and some files are refused. -/
def marked (R : Env Draws J) : Env Draws J :=
  { R with
    encrypt := fun k d t => cd.code (k, d, t)
    decrypt := fun k now ttl x =>
      match cd.decode x with
      | some (k', d, t) => if k' = k then opened d now ttl t else .error .value
      | none => .error (refusal (decide (x = cd.bad true))) }

theorem marked_opens (R : Env Draws J) (c : Sizes) : Opens (marked cd R) c := by
  intro k d t _ _
  refine ⟨cd.ne _, fun now ttl => ?_⟩
  show (match cd.decode (cd.code (k, d, t)) with | some (k', d, t) => if k' = k then opened d now ttl t else .error .value | none => .error _) = _
  rw [cd.back]
  simp

theorem marked_bad (R : Env Draws J) (b : Bool) (k : Bytes) (now : Int) (ttl : Option Int) : (marked cd R).decrypt k now ttl (cd.bad b) = .error (refusal b) := by
  show (match cd.decode (cd.bad b) with | some (k', d, t) => if k' = k then opened d now ttl t else .error .value | none => .error (refusal (decide (cd.bad b = cd.bad true)))) = _
  rw [cd.bad_decode]
  cases b with
  | true => simp
  | false => simp [cd.bad_inj.symm]

/-- A database, and the one whose files are the requests. -/
def masked (R : Env Draws J) (tags : Finset String) (key salt : Bytes) (c : Sizes) : Pair Draws J :=
  { hidden cd.toCode R tags key salt c with
    E' := marked cd R
    F := fun name x y => (∃ d t, d.Fit c ∧ x = R.encrypt (R.fileKey key salt name) d t ∧ y = cd.code (R.fileKey key salt name, d, t)) ∨ (x = [] ∧ y = []) ∨
      x ≠ [] ∧ ∃ b, y = cd.bad b ∧ ∀ now ttl, R.decrypt (R.fileKey key salt name) now ttl x = .error (refusal b) }

section
variable {R : Env Draws J} {tags : Finset String} {key salt : Bytes} {c : Sizes}

theorem masked_sim (ho : Opens R c) (hf : ∀ name, KeySize (R.fileKey key salt name))
    (hroot : ∀ t ∈ tags, R.fileName key salt t ≠ R.rootName key) : (masked cd R tags key salt c).Sim where
  name _ _ := rfl
  root := rfl
  notRoot := hroot
  file := (hidden_sim cd.toCode ho hf hroot).file
  kept := fun _ _ _ _ h => .inl h
  read := by
    rintro t x y ht (⟨d, text, hd, rfl, rfl⟩ | ⟨rfl, rfl⟩ | ⟨hx, b, rfl, hb⟩)
    · refine .inr ⟨(ho _ _ _ (hf _) hd).1, cd.ne _, fun now ttl => ?_⟩
      have h1 := (ho (R.fileKey key salt (R.fileName key salt t)) d text (hf _) hd).2 now ttl
      have h2 := (marked_opens cd R c (R.fileKey key salt (R.fileName key salt t)) d text (hf _) hd).2 now ttl
      show Both (· = ·) (do let x ← R.decrypt (R.fileKey key salt (R.fileName key salt t)) now ttl (R.encrypt (R.fileKey key salt (R.fileName key salt t)) d text); decodeValue R x)
        (do let x ← (marked cd R).decrypt (R.fileKey key salt (R.fileName key salt t)) now ttl ((marked cd R).encrypt (R.fileKey key salt (R.fileName key salt t)) d text); decodeValue R x)
      rw [h1, h2]
      cases (do let x ← opened d now ttl text; decodeValue R x : Except Err (Value J)) with
      | error e => exact rfl
      | ok v => exact rfl
    · exact .inl ⟨rfl, rfl⟩
    · refine .inr ⟨hx, cd.bad_ne b, fun now ttl => ?_⟩
      show Both (· = ·) (do let x ← R.decrypt (R.fileKey key salt (R.fileName key salt t)) now ttl x; decodeValue R x)
        (do let x ← (marked cd R).decrypt (R.fileKey key salt (R.fileName key salt t)) now ttl (cd.bad b); decodeValue R x)
      have hb := hb now ttl
      rw [marked_bad]
      exact (congrArg (fun y => Both (· = ·) (y >>= fun x => decodeValue R x) (Except.error (refusal b) >>= fun x => decodeValue R x)) hb).mpr rfl
  manifest := fun m m' r hm hr => (hidden_sim cd.toCode ho hf hroot).manifest m m' r ⟨hm.salt, hm.salt', hm.metatags, hm.files⟩ hr

/-! ### the program -/

/-- The object, the writes with what was written, and what is seen. -/
structure Play (J : Type) where
  node : Node J
  log : List (Write × Write)
  seen : List (Event J)

/-- The request that was answered by `x`, if it has this key. -/
def answered (k x : Bytes) : Write × Write → Option (Draws × Bytes)
  | (.put _ z, .put _ m) =>
    match cd.decode z with
    | some (k', d, t) => if k' = k ∧ m = x then some (d, t) else none
    | none => none
  | _ => none

/-- What a file becomes. -/
def mark (c : Sizes) (log : List (Write × Write)) (k x : Bytes) : Bytes :=
  if x = [] then [] else
    match log.findSome? (answered cd k x) with
    | some (d, t) => cd.code (k, d, t)
    | none => cd.bad (Cipher.Ciphertext.parse c x).isOk

/-- One call. -/
def playStep (R : Env Draws J) (key salt : Bytes) (c : Sizes) (f : Attacker Draws J) (s : Play J) : Prog (Play J) :=
  let x := ((f s.seen).2.op (marked cd R) s.node).run (marked cd R) s.node fun name => ((f s.seen).1 name).map (mark cd c s.log (R.fileKey key salt name))
  (fill cd.toCode x.2.2).bind fun W => .ret ⟨x.2.1, s.log ++ x.2.2.zip W, s.seen ++ [(x.1, W)]⟩

/-- The calls. -/
def playP (R : Env Draws J) (key salt : Bytes) (c : Sizes) (f : Attacker Draws J) : Nat → Prog (Play J)
  | 0 => .ret ⟨newNode key salt, [], []⟩
  | n + 1 => (playP R key salt c f n).bind (playStep cd R key salt c f)

theorem answered_some {k x : Bytes} {y : Write × Write} {d : Draws} {t : Bytes} (h : answered cd k x y = some (d, t)) :
    ∃ n z n', y = (.put n z, .put n' x) ∧ cd.decode z = some (k, d, t) := by
  obtain ⟨w, w'⟩ := y
  cases w with
  | unlink n => cases h
  | put n z =>
    cases w' with
    | unlink n' => cases h
    | put n' m =>
      unfold answered at h
      simp only at h
      split at h
      · rename_i k' d' t' hz
        split at h
        · rename_i hk
          obtain ⟨rfl, rfl⟩ := hk
          cases h
          exact ⟨n, z, n', rfl, hz⟩
        · cases h
      · cases h

theorem answered_code (k x : Bytes) (n n' : String) (d : Draws) (t : Bytes) : answered cd k x (.put n (cd.code (k, d, t)), .put n' x) = some (d, t) := by
  simp [answered, cd.back]

theorem NodeRel.hidden {n n' : Node J} (h : (masked cd R tags key salt c).NodeRel n n') : (hidden cd.toCode R tags key salt c).NodeRel n n' :=
  ⟨h.key, h.key', ⟨h.man.salt, h.man.salt', h.man.metatags, h.man.files⟩, h.cache, h.names, h.nodup⟩

theorem op_masked {n n' : Node J} (h : (masked cd R tags key salt c).NodeRel n n') {a : Call Draws J}
    (hu : a.Uses tags) (hd : ∀ i d, a.draws i d → d.Fit c) : (masked cd R tags key salt c).OpRel (a.op R n) (a.op (marked cd R) n') := by
  have := op_hidden cd.toCode (NodeRel.hidden cd h) hu hd
  have e : a.op (ghost cd.toCode R) n' = a.op (marked cd R) n' := by cases a <;> rfl
  rw [e] at this
  generalize a.op R n = o at this ⊢
  generalize a.op (marked cd R) n' = o' at this ⊢
  cases o <;> cases o' <;> exact this

theorem writes_masked {ws ws' : List Write} (h : List.Forall₂ (masked cd R tags key salt c).WriteRel ws ws') : List.Forall₂ (Database.hidden cd.toCode R tags key salt c).WriteRel ws ws' := by
  refine h.imp fun w w' hw => ?_
  cases w <;> cases w' <;> exact hw

/-! ### the requests are those of the database -/

/-- What is kept. -/
structure Kept (R : Env Draws J) (tags : Finset String) (key salt : Bytes) (c : Sizes) (s : Play J) : Prop where
  node : (masked cd (marked cd R) tags key salt c).NodeRel s.node s.node
  log : ∀ y ∈ s.log, Good cd.toCode R tags key salt c y.1

theorem mark_self {s : Play J} (h : Kept cd R tags key salt c s) (D : Disk) :
    (masked cd (marked cd R) tags key salt c).DiskRel (fun name => (D name).map (mark cd c s.log (R.fileKey key salt name))) (fun name => (D name).map (mark cd c s.log (R.fileKey key salt name))) := by
  intro t ht
  show OptRel _ ((D (R.fileName key salt t)).map _) ((D (R.fileName key salt t)).map _)
  cases D (R.fileName key salt t) with
  | none => trivial
  | some x =>
    show (masked cd (marked cd R) tags key salt c).F (R.fileName key salt t) (mark cd c s.log (R.fileKey key salt (R.fileName key salt t)) x) (mark cd c s.log (R.fileKey key salt (R.fileName key salt t)) x)
    unfold mark
    split
    · exact .inr (.inl ⟨rfl, rfl⟩)
    · split
      · rename_i d t' e
        obtain ⟨y, hy, e⟩ := List.exists_of_findSome?_eq_some e
        obtain ⟨n, z, n', rfl, hz⟩ := answered_some cd e
        obtain ⟨k, d', t'', _, hd, rfl⟩ := h.log _ hy
        rw [cd.back] at hz
        cases hz
        exact .inl ⟨d, t', hd, rfl, rfl⟩
      · exact .inr (.inr ⟨cd.bad_ne _, _, rfl, fun now ttl => marked_bad cd R _ _ now ttl⟩)

theorem step_self (hf : ∀ name, KeySize (R.fileKey key salt name)) (hroot : ∀ t ∈ tags, R.fileName key salt t ≠ R.rootName key)
    {f : Attacker Draws J} (hu : ∀ seen, (f seen).2.Uses tags) (hfit : ∀ seen i d, (f seen).2.draws i d → d.Fit c) {s : Play J} (h : Kept cd R tags key salt c s) :
    (masked cd (marked cd R) tags key salt c).Outcome
      (((f s.seen).2.op (marked cd R) s.node).run (marked cd R) s.node fun name => ((f s.seen).1 name).map (mark cd c s.log (R.fileKey key salt name)))
      (((f s.seen).2.op (marked cd R) s.node).run (marked cd R) s.node fun name => ((f s.seen).1 name).map (mark cd c s.log (R.fileKey key salt name))) := by
  have S := masked_sim cd (marked_opens cd R c) hf hroot
  exact Pair.op_sim S h.node (mark_self cd h _) (op_masked cd h.node (hu s.seen) fun i d hd => hfit s.seen i d hd)

theorem good_masked {ws ws' : List Write} (h : List.Forall₂ (masked cd (marked cd R) tags key salt c).WriteRel ws ws') : ∀ w ∈ ws, Good cd.toCode R tags key salt c w := by
  refine good_writes cd.toCode (R := R) (ws' := ws') (h.imp fun w w' hw => ?_)
  cases w <;> cases w' <;> exact hw

theorem play_kept (hf : ∀ name, KeySize (R.fileKey key salt name)) (hroot : ∀ t ∈ tags, R.fileName key salt t ≠ R.rootName key)
    {f : Attacker Draws J} (hu : ∀ seen, (f seen).2.Uses tags) (hfit : ∀ seen i d, (f seen).2.draws i d → d.Fit c) :
    ∀ (n : Nat) {s : Play J}, (playP cd R key salt c f n).Returns s → Kept cd R tags key salt c s
  | 0, s, h => by
    cases (show s = _ from h)
    exact ⟨⟨rfl, rfl, ⟨rfl, rfl, rfl, .nil⟩, .nil, fun p hp => (List.not_mem_nil hp).elim, List.nodup_nil⟩, fun y hy => (List.not_mem_nil hy).elim⟩
  | n + 1, s, h => by
    obtain ⟨s0, h0, h⟩ := Prog.returns_bind _ h
    have ih := play_kept hf hroot hu hfit n h0
    have o := step_self cd hf hroot hu hfit ih
    obtain ⟨W, _, h⟩ := Prog.returns_bind _ h
    cases (show s = _ from h)
    refine ⟨o.node, fun y hy => ?_⟩
    rcases List.mem_append.1 hy with hy | hy
    · exact ih.log y hy
    · exact good_masked cd o.writes _ (List.of_mem_zip (show (y.1, y.2) ∈ _ from hy)).1

theorem play_asks (hf : ∀ name, KeySize (R.fileKey key salt name)) (hroot : ∀ t ∈ tags, R.fileName key salt t ≠ R.rootName key)
    {f : Attacker Draws J} (hu : ∀ seen, (f seen).2.Uses tags) (hfit : ∀ seen i d, (f seen).2.draws i d → d.Fit c) :
    ∀ (n : Nat) {r : Request}, (playP cd R key salt c f n).Asks r → Asked R tags key salt c r
  | 0, r, h => h.elim
  | n + 1, r, h => by
    rcases Prog.asks_returns _ h with h | ⟨s, hs, h⟩
    · exact play_asks hf hroot hu hfit n h
    · have o := step_self cd hf hroot hu hfit (play_kept cd hf hroot hu hfit n hs)
      rcases Prog.asks_returns _ h with h | ⟨W, _, h⟩
      · exact asks_fill cd.toCode (good_masked cd o.writes) h
      · exact h.elim

theorem trace_zip (encrypt : Request → Bytes) : ∀ {ws : List Write}, (∀ w ∈ ws, Good cd.toCode R tags key salt c w) → ∀ y ∈ (fill cd.toCode ws).trace encrypt,
    ∃ name, Named R tags key salt name y.1.key ∧ (.put name (cd.code (y.1.key, y.1.draws, y.1.data)), .put name y.2) ∈ ws.zip ((fill cd.toCode ws).exec encrypt)
  | [], _, y, h => (List.not_mem_nil h).elim
  | .unlink n :: ws, hw, y, h => by
    unfold fill at h ⊢
    rw [Prog.trace_bind] at h
    rw [Prog.exec_bind]
    rcases List.mem_append.1 h with h | h
    · obtain ⟨name, h1, h2⟩ := trace_zip encrypt (fun w hm => hw w (List.mem_cons_of_mem _ hm)) y h
      exact ⟨name, h1, List.mem_cons_of_mem _ h2⟩
    · exact (List.not_mem_nil h).elim
  | .put n x :: ws, hw, y, h => by
    obtain ⟨k, d, t, hn, hd, rfl⟩ := hw _ List.mem_cons_self
    simp only [fill, cd.back] at h ⊢
    rw [Prog.exec, Prog.exec_bind]
    rcases List.mem_cons.1 h with rfl | h
    · exact ⟨n, hn, List.mem_cons_self⟩
    · rw [Prog.trace_bind] at h
      rcases List.mem_append.1 h with h | h
      · obtain ⟨name, h1, h2⟩ := trace_zip encrypt (fun w hm => hw w (List.mem_cons_of_mem _ hm)) y h
        exact ⟨name, h1, List.mem_cons_of_mem _ h2⟩
      · exact (List.not_mem_nil h).elim

theorem play_trace (hf : ∀ name, KeySize (R.fileKey key salt name)) (hroot : ∀ t ∈ tags, R.fileName key salt t ≠ R.rootName key)
    {f : Attacker Draws J} (hu : ∀ seen, (f seen).2.Uses tags) (hfit : ∀ seen i d, (f seen).2.draws i d → d.Fit c) (encrypt : Request → Bytes) :
    ∀ (n : Nat), (∀ y ∈ (playP cd R key salt c f n).trace encrypt, ∃ name, Named R tags key salt name y.1.key ∧
        (.put name (cd.code (y.1.key, y.1.draws, y.1.data)), .put name y.2) ∈ ((playP cd R key salt c f n).exec encrypt).log) ∧
      ∀ y ∈ ((playP cd R key salt c f n).exec encrypt).log, y.2 ∈ (written ((playP cd R key salt c f n).exec encrypt).seen).flatten
  | 0 => ⟨fun y h => (List.not_mem_nil h).elim, fun y h => (List.not_mem_nil h).elim⟩
  | n + 1 => by
    obtain ⟨ih1, ih2⟩ := play_trace hf hroot hu hfit encrypt n
    have o := step_self cd hf hroot hu hfit (play_kept cd hf hroot hu hfit n (Prog.exec_returns encrypt _))
    have hg := good_masked cd o.writes
    rw [playP, Prog.trace_bind, Prog.exec_bind]
    generalize (playP cd R key salt c f n).exec encrypt = s at ih1 ih2 hg ⊢
    unfold playStep
    simp only
    rw [Prog.trace_bind, Prog.exec_bind]
    simp only [Prog.exec, Prog.trace, List.append_nil]
    constructor
    · intro y hy
      rcases List.mem_append.1 hy with hy | hy
      · obtain ⟨name, h1, h2⟩ := ih1 y hy
        exact ⟨name, h1, List.mem_append_left _ h2⟩
      · obtain ⟨name, h1, h2⟩ := trace_zip cd encrypt hg y hy
        exact ⟨name, h1, List.mem_append_right _ h2⟩
    · intro y hy
      unfold written
      rw [List.map_append, List.flatten_append]
      rcases List.mem_append.1 hy with hy | hy
      · exact List.mem_append_left _ (ih2 y hy)
      · refine List.mem_append_right _ ?_
        simp only [List.map_cons, List.map_nil, List.flatten_cons, List.flatten_nil, List.append_nil]
        exact (List.of_mem_zip (show (y.1, y.2) ∈ _ from hy)).2

end

/-! ### the database and the program -/

/-- The attempt to pass off what is in a file. -/
def fileAttempt (R : Env Draws J) (c : Sizes) (key salt : Bytes) (f : Attacker Draws J) (tag : Option String) (s : Play J) : Attempt :=
  match tag with
  | some t => ⟨R.fileKey key salt (R.fileName key salt t), [], ((f s.seen).1 (R.fileName key salt t)).getD [], none, 0, List.replicate c.saltBytes 0⟩
  | none => ⟨R.manifestKey key, [], ((f s.seen).1 (R.rootName key)).getD [], none, 0, List.replicate c.saltBytes 0⟩

/-- What stays so between the database and the program. -/
structure Follows (R : Env Draws J) (tags : Finset String) (key salt : Bytes) (c : Sizes) (s : Node J × List (Event J)) (p : Play J) : Prop where
  node : (masked cd R tags key salt c).NodeRel s.1 p.node
  seen : p.seen = s.2
  log : ∀ y ∈ p.log, (masked cd R tags key salt c).WriteRel y.2 y.1

section
variable {R G : Env Draws J} {tags : Finset String} {key salt : Bytes} {c : Sizes}

theorem follows_step (ho : Opens R c) (hf : ∀ name, KeySize (R.fileKey key salt name)) (hm : KeySize (R.manifestKey key)) (hroot : ∀ t ∈ tags, R.fileName key salt t ≠ R.rootName key)
    {encrypt : Request → Bytes} (he : ∀ k d t, KeySize k → d.Fit c → encrypt ⟨k, d, none, [], t⟩ = R.encrypt k d t)
    {f : Attacker Draws J} (hu : ∀ seen, (f seen).2.Uses tags) (hfit : ∀ seen i d, (f seen).2.draws i d → d.Fit c)
    (hG : marked cd G = marked cd R) (hGk : G.fileKey = R.fileKey) {s : Node J × List (Event J)} {p : Play J} (h : Follows cd R tags key salt c s p)
    (hbad : ∀ t ∈ tags, ∀ x, (f p.seen).1 (R.fileName key salt t) = some x → x ≠ [] → p.log.findSome? (answered cd (R.fileKey key salt (R.fileName key salt t)) x) = none →
      ∀ now ttl, R.decrypt (R.fileKey key salt (R.fileName key salt t)) now ttl x = .error (refusal (Cipher.Ciphertext.parse c x).isOk)) :
    Follows cd R tags key salt c
      (let x := ((f s.2).2.op R s.1).run R s.1 (f s.2).1
       (x.2.1, s.2 ++ [(x.1, x.2.2)])) ((playStep cd G key salt c f p).exec encrypt) := by
  have S := masked_sim cd ho hf hroot
  have hd : (masked cd R tags key salt c).DiskRel (f p.seen).1 (fun name => ((f p.seen).1 name).map (mark cd c p.log (R.fileKey key salt name))) := by
    intro t ht
    show OptRel _ ((f p.seen).1 (R.fileName key salt t)) (((f p.seen).1 (R.fileName key salt t)).map _)
    cases hx : (f p.seen).1 (R.fileName key salt t) with
    | none => trivial
    | some x =>
      show (masked cd R tags key salt c).F (R.fileName key salt t) x (mark cd c p.log (R.fileKey key salt (R.fileName key salt t)) x)
      unfold mark
      split
      · rename_i e
        exact .inr (.inl ⟨e, rfl⟩)
      · rename_i hne
        split
        · rename_i d t' e
          obtain ⟨y, hy, e⟩ := List.exists_of_findSome?_eq_some e
          obtain ⟨n, z, n', rfl, hz⟩ := answered_some cd e
          obtain ⟨_, hw⟩ := h.log _ hy
          obtain ⟨k, d', t'', hd, e1, e2⟩ : ∃ k d t, d.Fit c ∧ x = R.encrypt k d t ∧ z = cd.code (k, d, t) := by
            rcases hw with ⟨_, _, _, d, t, hd, e1, e2⟩ | ⟨_, d, t, hd, e1, e2⟩
            · exact ⟨_, d, t, hd, e1, e2⟩
            · exact ⟨_, d, t, hd, e1, e2⟩
          rw [e2, cd.back] at hz
          cases hz
          exact .inl ⟨d, t', hd, e1, rfl⟩
        · rename_i e
          exact .inr (.inr ⟨hne, _, rfl, hbad t ht x hx hne e⟩)
  have o := Pair.op_sim S h.node hd (op_masked cd h.node (hu p.seen) fun i d hd => hfit p.seen i d hd)
  have w := exec_fill cd.toCode hf hm he (writes_masked cd o.writes)
  unfold playStep
  simp only [hG, hGk]
  rw [Prog.exec_bind, ← h.seen]
  have o : (masked cd R tags key salt c).Outcome (((f p.seen).2.op R s.1).run R s.1 (f p.seen).1)
    (((f p.seen).2.op (marked cd R) p.node).run (marked cd R) p.node fun name => ((f p.seen).1 name).map (mark cd c p.log (R.fileKey key salt name))) := o
  have w : (fill cd.toCode (((f p.seen).2.op (marked cd R) p.node).run (marked cd R) p.node fun name => ((f p.seen).1 name).map (mark cd c p.log (R.fileKey key salt name))).2.2).exec encrypt =
    (((f p.seen).2.op R s.1).run R s.1 (f p.seen).1).2.2 := w
  rw [w]
  generalize ((f p.seen).2.op R s.1).run R s.1 (f p.seen).1 = a at o ⊢
  generalize (((f p.seen).2.op (marked cd R) p.node).run (marked cd R) p.node fun name => ((f p.seen).1 name).map (mark cd c p.log (R.fileKey key salt name))) = b at o ⊢
  refine ⟨o.node, ?_, fun y hy => ?_⟩
  · have : b.1 = a.1 := by
      have hr := o.result
      cases ha : a.1 with
      | error e =>
        cases hb : b.1 with
        | error e' => rw [ha, hb] at hr; rw [show e = e' from hr]
        | ok v' => rw [ha, hb] at hr; exact hr.elim
      | ok v =>
        cases hb : b.1 with
        | error e' => rw [ha, hb] at hr; exact hr.elim
        | ok v' =>
          rw [ha, hb] at hr
          cases v <;> cases v' <;> first | rfl | exact hr.elim | exact congrArg (Except.ok ∘ some) (show _ = _ from hr).symm
    simp only [Prog.exec, this]
  · rcases List.mem_append.1 hy with hy | hy
    · exact h.log y hy
    · have hz := List.forall₂_iff_zip.1 o.writes
      refine hz.2 ?_
      rw [← List.zip_swap]
      exact List.mem_map.2 ⟨y, hy, rfl⟩

end

end Aiootp.Database
