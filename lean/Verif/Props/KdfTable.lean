import Verif.Model.KdfTable
import Verif.Props.Metadata

/-!
C123: the KDFs of a config are its own.
-/

namespace Aiootp.KdfTable

/-! ### specification -/

/-- The KDF objects that a config uses. -/
def Made.uses (c : Made) : List Nat := c.blockId :: c.table.map Prod.snd

/-- The KDF objects that a config is given. -/
def Given.uses (g : Given) : List Nat := g.blockId :: g.roles.map Prod.snd

/-- KDF number `i` begins with the constant of the config `c`. -/
def Begins (shake : Bytes → Nat → Bytes) (h : Heap) (c : Made) (i : Nat) : Prop :=
  ∃ s, h.seed i = some s ∧ Domains.encodeConstant shake (.str ((h.kdf i).name ++ "_salt")) (2 * h.blocksize i) c.configId c.metadata = .ok s

/-! ### lemmas -/

theorem prepare_spec {shake : Bytes → Nat → Bytes} {h h' : Heap} {i : Nat} {cid m : Bytes} (e : h.prepare shake cid m i = .ok h') :
    h'.kdf = h.kdf ∧ h'.blocksize = h.blocksize ∧ h.seed i = none ∧
    (∃ s, h'.seed i = some s ∧ Domains.encodeConstant shake (.str ((h.kdf i).name ++ "_salt")) (2 * h.blocksize i) cid m = .ok s) ∧
    ∀ j, j ≠ i → h'.seed j = h.seed j := by
  simp only [Heap.prepare, bind_eq_ok] at e
  obtain ⟨s, hs, e⟩ := e
  split at e
  · cases e
  · rename_i hn
    injection e with e
    subst e
    exact ⟨rfl, rfl, by simpa using hn, ⟨s, by simp, hs⟩, fun j hj => by simp [hj]⟩

/-- What is kept by every step. -/
structure Keeps (h h' : Heap) : Prop where
  kdf : h'.kdf = h.kdf
  blocksize : h'.blocksize = h.blocksize
  seed : ∀ i s, h.seed i = some s → h'.seed i = some s

theorem Keeps.refl (h : Heap) : Keeps h h := ⟨rfl, rfl, fun _ _ e => e⟩

theorem Keeps.trans {h h' h'' : Heap} (a : Keeps h h') (b : Keeps h' h'') : Keeps h h'' :=
  ⟨b.kdf.trans a.kdf, b.blocksize.trans a.blocksize, fun i s e => b.seed i s (a.seed i s e)⟩

theorem prepare_keeps {shake : Bytes → Nat → Bytes} {h h' : Heap} {i : Nat} {cid m : Bytes} (e : h.prepare shake cid m i = .ok h') : Keeps h h' := by
  obtain ⟨h1, h2, h3, _, h5⟩ := prepare_spec e
  refine ⟨h1, h2, fun j s hj => ?_⟩
  by_cases hji : j = i
  · subst hji; rw [h3] at hj; cases hj
  · rw [h5 j hji]; exact hj

theorem prepareAll_keeps {shake : Bytes → Nat → Bytes} {cid m : Bytes} : ∀ (is : List Nat) (h : Heap), Keeps h (h.prepareAll shake cid m is).1
  | [], h => Keeps.refl h
  | i :: is, h => by
    rw [Heap.prepareAll]
    cases e : h.prepare shake cid m i with
    | error x => exact Keeps.refl h
    | ok h' => exact (prepare_keeps e).trans (prepareAll_keeps is h')

theorem prepareAll_ok {shake : Bytes → Nat → Bytes} {cid m : Bytes} : ∀ (is : List Nat) (h : Heap), (h.prepareAll shake cid m is).2 = .ok () →
    is.Nodup ∧ (∀ i ∈ is, h.seed i = none) ∧ ∀ i ∈ is, ∃ s, (h.prepareAll shake cid m is).1.seed i = some s ∧
      Domains.encodeConstant shake (.str ((h.kdf i).name ++ "_salt")) (2 * h.blocksize i) cid m = .ok s
  | [], h, _ => by simp
  | i :: is, h, e => by
    rw [Heap.prepareAll] at e ⊢
    cases hp : h.prepare shake cid m i with
    | error x => rw [hp] at e; cases e
    | ok h' =>
      rw [hp] at e
      obtain ⟨n1, n2, n3⟩ := prepareAll_ok is h' e
      obtain ⟨k1, k2, k3, ⟨s, k4, k5⟩, k6⟩ := prepare_spec hp
      have hni : i ∉ is := fun hi => by
        have := n2 i hi
        rw [k4] at this
        cases this
      refine ⟨List.nodup_cons.2 ⟨hni, n1⟩, ?_, ?_⟩
      · intro j hj
        rcases List.mem_cons.1 hj with rfl | hj
        · exact k3
        · rw [← k6 j (fun hji => hni (hji ▸ hj))]; exact n2 j hj
      · intro j hj
        rcases List.mem_cons.1 hj with rfl | hj
        · exact ⟨s, (prepareAll_keeps is h').seed _ _ k4, k5⟩
        · obtain ⟨t, t1, t2⟩ := n3 j hj
          rw [k1, k2] at t2
          exact ⟨t, t1, t2⟩

theorem make_keeps (shake : Bytes → Nat → Bytes) (h : Heap) (g : Given) : Keeps h (make shake h g).1 := by
  unfold make
  cases g.metadata with
  | error e => exact Keeps.refl h
  | ok m =>
    have k := prepareAll_keeps (shake := shake) (cid := g.configId) (m := m) (g.blockId :: (table g.roles).map Prod.snd) h
    dsimp only
    generalize h.prepareAll shake g.configId m (g.blockId :: (table g.roles).map Prod.snd) = r at k
    obtain ⟨h', r⟩ := r
    cases r with
    | error e => exact k
    | ok _ => cases g.checks <;> exact k

theorem make_ok {shake : Bytes → Nat → Bytes} {h : Heap} {g : Given} {c : Made} (e : (make shake h g).2 = .ok c) :
    c.configId = g.configId ∧ g.metadata = .ok c.metadata ∧ c.blockId = g.blockId ∧ c.table = table g.roles ∧ c.uses.Nodup ∧
    (∀ i ∈ c.uses, h.seed i = none) ∧ ∀ i ∈ c.uses, Begins shake (make shake h g).1 c i := by
  have hk := make_keeps shake h g
  unfold make at e hk ⊢
  cases hm : g.metadata with
  | error x => rw [hm] at e; cases e
  | ok m =>
    rw [hm] at e hk
    dsimp only at e hk ⊢
    have k := prepareAll_ok (shake := shake) (cid := g.configId) (m := m) (g.blockId :: (table g.roles).map Prod.snd) h
    generalize h.prepareAll shake g.configId m (g.blockId :: (table g.roles).map Prod.snd) = r at k e hk
    obtain ⟨h', r⟩ := r
    cases r with
    | error x => cases e
    | ok _ =>
      dsimp only at e hk ⊢
      cases hc : g.checks with
      | error x => rw [hc] at e; cases e
      | ok _ =>
        rw [hc] at e hk
        injection e with e
        subst e
        obtain ⟨k1, k2, k3⟩ := k rfl
        refine ⟨rfl, rfl, rfl, rfl, k1, k2, fun i hi => ?_⟩
        obtain ⟨s, s1, s2⟩ := k3 i hi
        refine ⟨s, s1, ?_⟩
        rw [hk.kdf, hk.blocksize]
        exact s2

theorem history_keeps (shake : Bytes → Nat → Bytes) : ∀ (gs : List Given) (h : Heap), Keeps h (history shake h gs).1
  | [], h => Keeps.refl h
  | g :: gs, h => by
    rw [history]
    exact (make_keeps shake h g).trans (history_keeps shake gs _)

theorem Begins.keep {shake : Bytes → Nat → Bytes} {h h' : Heap} (k : Keeps h h') {c : Made} {i : Nat} (b : Begins shake h c i) : Begins shake h' c i := by
  obtain ⟨s, s1, s2⟩ := b
  refine ⟨s, k.seed _ _ s1, ?_⟩
  rw [k.kdf, k.blocksize]
  exact s2

theorem mem_put {t : List (String × Nat)} {e f : String × Nat} (h : f ∈ put t e) : f = e ∨ f ∈ t := by
  unfold put at h
  split at h
  · obtain ⟨x, hx, rfl⟩ := List.mem_map.1 h
    split
    · exact .inl rfl
    · exact .inr hx
  · rcases List.mem_append.1 h with h | h
    · exact .inr h
    · exact .inl (List.mem_singleton.1 h)

theorem mem_foldl_put : ∀ (roles t : List (String × Nat)) {f : String × Nat}, f ∈ roles.foldl put t → f ∈ t ∨ f ∈ roles
  | [], _, _, h => .inl h
  | e :: es, t, f, h => by
    rcases mem_foldl_put es (put t e) h with h | h
    · rcases mem_put h with rfl | h
      · exact .inr (List.mem_cons_self ..)
      · exact .inl h
    · exact .inr (List.mem_cons_of_mem _ h)

theorem foldl_put_nodup : ∀ (roles t : List (String × Nat)), ((t ++ roles).map Prod.fst).Nodup → roles.foldl put t = t ++ roles
  | [], t, _ => by simp
  | e :: es, t, h => by
    have he : e.1 ∉ t.map Prod.fst := by
      intro hm
      rw [List.map_append, List.map_cons] at h
      exact (List.nodup_append.1 h).2.2 _ hm _ (List.mem_cons_self ..) rfl
    rw [List.foldl_cons, put, if_neg he, foldl_put_nodup es (t ++ [e]) (by simpa using h)]
    simp

/-! ### the properties -/

/-- **C123** Whatever configs are made, before or after and with the same KDF objects or others: the KDFs of a config that was made begin with the
constants of its own id and metadata. -/
theorem C123_own (shake : Bytes → Nat → Bytes) : ∀ (gs : List Given) (h : Heap) {g : Given} {c : Made}, (g, .ok c) ∈ (history shake h gs).2 →
    c.configId = g.configId ∧ g.metadata = .ok c.metadata ∧ c.blockId = g.blockId ∧ c.table = table g.roles ∧ c.uses.Nodup ∧
    ∀ i ∈ c.uses, Begins shake (history shake h gs).1 c i
  | [], _, _, _, hc => by simp [history] at hc
  | g' :: gs, h, g, c, hc => by
    rw [history] at hc ⊢
    dsimp only at hc ⊢
    rcases List.mem_cons.1 hc with e | hc
    · injection e with e1 e2
      subst e1
      obtain ⟨h1, h2, h3, h4, h5, _, h7⟩ := make_ok e2.symm
      exact ⟨h1, h2, h3, h4, h5, fun i hi => (h7 i hi).keep (history_keeps shake gs _)⟩
    · exact C123_own shake gs _ hc

/-- **C123** A KDF object serves one role of one config: no config can be made with a KDF of a config that was made. -/
theorem C123_refused {shake : Bytes → Nat → Bytes} {gs : List Given} {h : Heap} {g : Given} {c : Made} (hc : (g, .ok c) ∈ (history shake h gs).2)
    {g' : Given} {i : Nat} (hi : i ∈ c.uses) (hi' : i ∈ g'.uses) (hroles : (g'.roles.map Prod.fst).Nodup) :
    ∃ e, (make shake (history shake h gs).1 g').2 = .error e := by
  cases hr : (make shake (history shake h gs).1 g').2 with
  | error e => exact ⟨e, rfl⟩
  | ok c' =>
    obtain ⟨_, _, h3, h4, _, h6, _⟩ := make_ok hr
    obtain ⟨_, _, _, _, _, hb⟩ := C123_own shake gs h hc
    obtain ⟨s, hs, _⟩ := hb i hi
    have : i ∈ c'.uses := by
      unfold Made.uses
      rw [h3, h4, table, foldl_put_nodup _ _ (by simpa using hroles)]
      exact hi'
    rw [h6 i this] at hs
    cases hs

/-- **C123** If the names of the roles are different, the table gives every role the KDF that was given for it. -/
theorem C123_roles {roles : List (String × Nat)} (h : (roles.map Prod.fst).Nodup) : table roles = roles := by
  rw [table, foldl_put_nodup _ _ (by simpa using h)]
  rfl

theorem key_mem {h : Heap} {c : Made} {name : String} {i : Nat} {s : Bytes} (e : h.key c name = .ok (i, s)) : (name, i) ∈ c.table ∧ h.seed i = some s := by
  unfold Heap.key at e
  split at e
  · cases e
  · rename_i j hj
    split at e
    · cases e
    · rename_i t ht
      injection e with e
      injection e with e1 e2
      subst e1 e2
      refine ⟨?_, ht⟩
      obtain ⟨l1, l2, hl, _⟩ := List.lookup_eq_some_iff.1 hj
      rw [hl]
      simp

/-- **C123** With the names of the package, a dual-output cipher keys three different KDFs, each the one that was given for its role, and each beginning with
the constant of the config. -/
theorem C123_dual {shake : Bytes → Nat → Bytes} {gs : List Given} {h : Heap} {g : Given} {c : Made} (hc : (g, .ok c) ∈ (history shake h gs).2) {i j k : Nat}
    (hg : g.roles = [("shmac_kdf", i), ("left_kdf", j), ("right_kdf", k)]) :
    i ≠ j ∧ i ≠ k ∧ j ≠ k ∧ ∃ s l r, (history shake h gs).1.dualKdfs c = .ok [(i, s), (j, l), (k, r)] ∧
      ∀ x ∈ [(i, s), (j, l), (k, r)], Domains.encodeConstant shake (.str ((h.kdf x.1).name ++ "_salt")) (2 * h.blocksize x.1) g.configId c.metadata = .ok x.2 := by
  obtain ⟨h1, _, _, h4, h5, h6⟩ := C123_own shake gs h hc
  have hk := history_keeps shake gs h
  have ht : c.table = [("shmac_kdf", i), ("left_kdf", j), ("right_kdf", k)] := by rw [h4, hg, C123_roles (by simp)]
  simp only [Made.uses, ht, List.map_cons, List.map_nil] at h5 h6
  obtain ⟨s, s1, s2⟩ := h6 i (by simp)
  obtain ⟨l, l1, l2⟩ := h6 j (by simp)
  obtain ⟨r, r1, r2⟩ := h6 k (by simp)
  have h5 := (List.nodup_cons.1 h5).2
  simp only [List.nodup_cons, List.mem_cons, List.not_mem_nil, or_false, not_or] at h5
  rw [hk.kdf, hk.blocksize, h1] at s2 l2 r2
  refine ⟨h5.1.1, h5.1.2, h5.2.1, s, l, r, ?_, ?_⟩
  · simp [Heap.dualKdfs, Heap.key, ht, List.lookup, s1, l1, r1, bind, Except.bind]
  · intro x hx
    simp only [List.mem_cons, List.not_mem_nil, or_false] at hx
    rcases hx with rfl | rfl | rfl <;> assumption

/-- **C123** A SHAKE-permute cipher can be made exactly if the name of the role is that of the package. -/
theorem C123_permute {shake : Bytes → Nat → Bytes} {gs : List Given} {h : Heap} {g : Given} {c : Made} (hc : (g, .ok c) ∈ (history shake h gs).2) {name : String} {i : Nat}
    (hg : g.roles = [(name, i)]) :
    (name = "shmac_kdf" → ∃ s, (history shake h gs).1.permuteKdfs c = .ok [(i, s)] ∧
      Domains.encodeConstant shake (.str ((h.kdf i).name ++ "_salt")) (2 * h.blocksize i) g.configId c.metadata = .ok s) ∧
    (name ≠ "shmac_kdf" → (history shake h gs).1.permuteKdfs c = .error .key) := by
  obtain ⟨h1, _, _, h4, h5, h6⟩ := C123_own shake gs h hc
  have hk := history_keeps shake gs h
  have ht : c.table = [(name, i)] := by rw [h4, hg, C123_roles (by simp)]
  simp only [Made.uses, ht, List.map_cons, List.map_nil] at h6
  obtain ⟨s, s1, s2⟩ := h6 i (by simp)
  rw [hk.kdf, hk.blocksize, h1] at s2
  constructor
  · rintro rfl
    exact ⟨s, by simp [Heap.permuteKdfs, Heap.key, ht, List.lookup, s1, bind, Except.bind], s2⟩
  · intro hn
    have : ("shmac_kdf" == name) = false := by simpa using fun e => hn (Eq.symm e)
    simp [Heap.permuteKdfs, Heap.key, ht, List.lookup, this, bind, Except.bind]

/-- **C123** If a dual-output cipher can be made, its three KDFs are different objects, and the names of the roles are those of the package, in some order. -/
theorem C123_dual_only {shake : Bytes → Nat → Bytes} {gs : List Given} {h : Heap} {g : Given} {c : Made} (hc : (g, .ok c) ∈ (history shake h gs).2) {kdfs : List (Nat × Bytes)}
    (hd : (history shake h gs).1.dualKdfs c = .ok kdfs) :
    (kdfs.map Prod.fst).Nodup ∧ (∀ x ∈ kdfs, x.1 ∈ c.uses) ∧ ∀ name ∈ ["shmac_kdf", "left_kdf", "right_kdf"], name ∈ g.roles.map Prod.fst := by
  obtain ⟨_, _, _, h4, h5, _⟩ := C123_own shake gs h hc
  simp only [Heap.dualKdfs, bind_eq_ok] at hd
  obtain ⟨⟨i, s⟩, hi, ⟨j, l⟩, hj, ⟨k, r⟩, hk, hd⟩ := hd
  injection hd with hd
  subst hd
  have mi := (key_mem hi).1
  have mj := (key_mem hj).1
  have mk := (key_mem hk).1
  have inj : ∀ {a b : String} {x : Nat}, (a, x) ∈ c.table → (b, x) ∈ c.table → a = b := by
    intro a b x ha hb
    have h5 := (List.nodup_cons.1 h5).2
    have := List.inj_on_of_nodup_map h5 ha hb rfl
    exact congrArg Prod.fst this
  refine ⟨?_, ?_, ?_⟩
  · simp only [List.map_cons, List.map_nil, List.nodup_cons, List.mem_cons, List.not_mem_nil, or_false, not_or, not_false_eq_true, List.nodup_nil, and_true]
    refine ⟨⟨?_, ?_⟩, ?_⟩
    · rintro rfl; exact absurd (inj mi mj) (by decide)
    · rintro rfl; exact absurd (inj mi mk) (by decide)
    · rintro rfl; exact absurd (inj mj mk) (by decide)
  · intro x hx
    simp only [List.mem_cons, List.not_mem_nil, or_false] at hx
    rcases hx with rfl | rfl | rfl
    · exact List.mem_cons_of_mem _ (List.mem_map_of_mem (f := Prod.snd) mi)
    · exact List.mem_cons_of_mem _ (List.mem_map_of_mem (f := Prod.snd) mj)
    · exact List.mem_cons_of_mem _ (List.mem_map_of_mem (f := Prod.snd) mk)
  · have get : ∀ {a : String} {x : Nat}, (a, x) ∈ c.table → a ∈ g.roles.map Prod.fst := by
      intro a x ha
      rw [h4, table] at ha
      rcases mem_foldl_put _ _ ha with ha | ha
      · simp at ha
      · exact List.mem_map_of_mem (f := Prod.fst) ha
    intro name hn
    simp only [List.mem_cons, List.not_mem_nil, or_false] at hn
    rcases hn with rfl | rfl | rfl
    · exact get mi
    · exact get mj
    · exact get mk

/-- **C123** KDFs of a config that have different names begin with different bytes, or `shake_128` has collided. -/
theorem C123_seeds_partial {shake : Bytes → Nat → Bytes} (hsh : ∀ x n, (shake x n).length = n) {h : Heap} {c d : Made} {i j : Nat} (bi : Begins shake h c i) (bj : Begins shake h d j)
    (hn : (h.kdf i).name ≠ (h.kdf j).name ∨ c.configId ≠ d.configId ∨ c.metadata ≠ d.metadata) :
    h.seed i ≠ h.seed j ∨ ∃ x y, ((h.kdf i).saltCall (h.blocksize i) c.configId c.metadata).message = .ok x ∧
      ((h.kdf j).saltCall (h.blocksize j) d.configId d.metadata).message = .ok y ∧ Collide (shake · (2 * h.blocksize i)) x y := by
  obtain ⟨s, s1, s2⟩ := bi
  obtain ⟨t, t1, t2⟩ := bj
  by_cases e : s = t
  · subst e
    rcases Metadata.C122_kdfs hsh s2 t2 with ⟨e1, _, e3, e4⟩ | hc
    · rcases hn with hn | hn | hn
      · exact absurd e1 hn
      · exact absurd e3 hn
      · exact absurd e4 hn
    · exact .inr hc
  · left
    rw [s1, t1]
    intro he
    exact e (Option.some.inj he)

/-- **C123** The full claim fails: the names of the KDFs are not compared. KDFs with the same name and block size begin with the same bytes in every config. -/
theorem C123_same_name {shake : Bytes → Nat → Bytes} {h : Heap} {c : Made} {i j : Nat} (bi : Begins shake h c i) (bj : Begins shake h c j)
    (hn : (h.kdf i).name = (h.kdf j).name) (hb : h.blocksize i = h.blocksize j) : h.seed i = h.seed j := by
  obtain ⟨s, s1, s2⟩ := bi
  obtain ⟨t, t1, t2⟩ := bj
  rw [hn, hb, t2] at s2
  injection s2 with e
  rw [s1, t1, e]

/-- **C123** The full claim fails: a config that was refused for its sizes has used up its KDFs. No config can be made of them later. -/
theorem C123_refused_uses {shake : Bytes → Nat → Bytes} {h : Heap} {g g' : Given} {m : Bytes} {e : Err} (hm : g.metadata = .ok m) (hc : g.checks = .error e)
    (hr : ((h.prepareAll shake g.configId m (g.blockId :: (table g.roles).map Prod.snd)).2 = .ok ())) (hb : g'.blockId = g.blockId) :
    (make shake h g).2 = .error e ∧ ∃ e', (make shake (make shake h g).1 g').2 = .error e' := by
  have k := prepareAll_ok _ h hr
  have hmake : make shake h g = ((h.prepareAll shake g.configId m (g.blockId :: (table g.roles).map Prod.snd)).1, .error e) := by
    unfold make
    rw [hm]
    dsimp only
    generalize h.prepareAll shake g.configId m (g.blockId :: (table g.roles).map Prod.snd) = r at hr
    obtain ⟨h', r⟩ := r
    dsimp only at hr
    subst hr
    simp [hc]
  refine ⟨by rw [hmake], ?_⟩
  cases h2 : (make shake (make shake h g).1 g').2 with
  | error e' => exact ⟨e', rfl⟩
  | ok c =>
    obtain ⟨_, _, h3, _, _, h6, _⟩ := make_ok h2
    obtain ⟨s, hs, _⟩ := k.2.2 g.blockId (by simp)
    have := h6 g.blockId (by rw [← hb, ← h3]; simp [Made.uses])
    rw [hmake, hs] at this
    cases this

/-- **C123** The names of the roles can be exchanged: then the cipher keys its left half with the KDF that was given for the right half. -/
theorem C123_exchanged {shake : Bytes → Nat → Bytes} {gs : List Given} {h : Heap} {g : Given} {c : Made} (hc : (g, .ok c) ∈ (history shake h gs).2) {i j k : Nat}
    (hg : g.roles = [("shmac_kdf", i), ("right_kdf", j), ("left_kdf", k)]) :
    ∃ s l r, (history shake h gs).1.dualKdfs c = .ok [(i, s), (k, l), (j, r)] := by
  obtain ⟨_, _, _, h4, _, h6⟩ := C123_own shake gs h hc
  have ht : c.table = [("shmac_kdf", i), ("right_kdf", j), ("left_kdf", k)] := by rw [h4, hg, C123_roles (by simp)]
  simp only [Made.uses, ht, List.map_cons, List.map_nil] at h6
  obtain ⟨s, s1, _⟩ := h6 i (by simp)
  obtain ⟨r, r1, _⟩ := h6 j (by simp)
  obtain ⟨l, l1, _⟩ := h6 k (by simp)
  exact ⟨s, l, r, by simp [Heap.dualKdfs, Heap.key, ht, List.lookup, s1, l1, r1, bind, Except.bind]⟩

/-! ### examples -/

/-- New KDFs. Number 3 has the name of number 2. -/
def sampleHeap : Heap where
  kdf := fun i => ⟨["block_id_kdf", "shmac_kdf", "left_kdf", "left_kdf", "right_kdf"].getD i "", [1], 0, "shake_128", ⟨none, none, none⟩⟩
  blocksize := fun _ => 168
  seed := fun _ => none

def sampleShake (x : Bytes) (n : Nat) : Bytes := (List.range n).map fun i => UInt8.ofNat (x.length + i)

/-- A config as Chunky2048. -/
def sampleGiven : Given := ⟨[67], .ok [1, 2], 0, [("shmac_kdf", 1), ("left_kdf", 2), ("right_kdf", 4)], .ok ()⟩

example : ∃ c, (sampleGiven, .ok c) ∈ (history sampleShake sampleHeap [sampleGiven, { sampleGiven with blockId := 7, roles := [("shmac_kdf", 1)] }]).2 ∧
    c.uses = [0, 1, 2, 4] := by
  have h : ((make sampleShake sampleHeap sampleGiven).2.toOption.map Made.uses) = some [0, 1, 2, 4] := by decide +kernel
  cases hm : (make sampleShake sampleHeap sampleGiven).2 with
  | error e => rw [hm] at h; cases h
  | ok c =>
    rw [hm] at h
    refine ⟨c, ?_, Option.some.inj h⟩
    rw [history]
    dsimp only
    rw [hm]
    exact List.mem_cons_self ..

/-- The left and the right KDF may have the same name. -/
example : ((make sampleShake sampleHeap { sampleGiven with roles := [("shmac_kdf", 1), ("left_kdf", 2), ("right_kdf", 3)] }).2.toOption.map Made.uses) = some [0, 1, 2, 3] := by
  decide +kernel

example : (sampleHeap.prepareAll sampleShake [67] [1, 2] [0, 1, 2, 4]).2.toOption = some () := by decide +kernel

end Aiootp.KdfTable
