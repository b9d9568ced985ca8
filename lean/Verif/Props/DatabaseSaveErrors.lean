import Verif.Props.DatabaseTree
import Verif.Props.DatabaseKdf

/-!
C41, C43, C46: errors. A save that returns has written every cached value; a value that JSON cannot represent makes it raise. A metatag
that cannot be opened is not listed. Short keys are refused. Metatags have keys of their own.
-/

namespace Aiootp.Database

variable {ρ J : Type} {E : Env ρ J}

theorem Dict.get_of_nodup {α : Type} {d : Dict α} (hnd : (d.map Prod.fst).Nodup) {p : String × α} (hp : p ∈ d) : d.get p.1 = some p.2 := by
  induction d with
  | nil => cases hp
  | cons q d ih =>
    obtain ⟨k, v⟩ := q
    simp only [List.map_cons, List.nodup_cons] at hnd
    rcases List.mem_cons.1 hp with rfl | hp
    · simp [Dict.get]
    · have : k ≠ p.1 := fun e => hnd.1 (by rw [e]; exact List.mem_map_of_mem hp)
      simp [Dict.get, this, ih hnd.2 hp]

theorem saveTags_ok_iff (n : Node J) (rs : String → ρ) (d : Dict (Value J)) (hd : ∀ p ∈ d, n.cache.get p.1 = some p.2) :
    ((n.saveTags E rs d).1 = .ok () ↔ ∀ p ∈ d, ∃ text, encodeValue E p.2 = .ok text) ∧
    ((n.saveTags E rs d).1 = .ok () → ∀ p ∈ d, ∀ text, encodeValue E p.2 = .ok text →
      .put p.1 (E.encrypt (E.fileKey n.key n.man.salt p.1) (rs p.1) text) ∈ (n.saveTags E rs d).2) := by
  induction d with
  | nil => exact ⟨⟨fun _ p hp => (List.not_mem_nil hp).elim, fun _ => rfl⟩, fun _ p hp => (List.not_mem_nil hp).elim⟩
  | cons q d ih =>
    obtain ⟨f, v⟩ := q
    have hq := hd (f, v) List.mem_cons_self
    obtain ⟨ih1, ih2⟩ := ih (fun p hp => hd p (List.mem_cons_of_mem _ hp))
    simp only at hq
    cases he : encodeValue E v with
    | error e =>
      have hs : n.saveFile E f (rs f) = .error e := by simp only [Node.saveFile, hq, he]; rfl
      simp only [Node.saveTags, hs]
      refine ⟨⟨(fun h => by cases h), fun h => ?_⟩, (fun h => by cases h)⟩
      obtain ⟨text, ht⟩ := h (f, v) List.mem_cons_self
      simp only at ht
      rw [he] at ht; cases ht
    | ok text =>
      have hs : n.saveFile E f (rs f) = .ok (.put f (E.encrypt (E.fileKey n.key n.man.salt f) (rs f) text)) := by simp only [Node.saveFile, hq, he]; rfl
      simp only [Node.saveTags, hs]
      refine ⟨⟨fun h p hp => ?_, fun h => ?_⟩, fun h p hp t ht => ?_⟩
      · rcases List.mem_cons.1 hp with rfl | hp
        · exact ⟨text, he⟩
        · exact ih1.1 h p hp
      · exact ih1.2 (fun p hp => h p (List.mem_cons_of_mem _ hp))
      · rcases List.mem_cons.1 hp with rfl | hp
        · simp only at ht
          rw [he] at ht; cases ht
          exact List.mem_cons_self
        · exact List.mem_cons_of_mem _ (ih2 h p hp t ht)

/-- **C41** Of any database object: saving raises no exception exactly if every cached value can be represented; and if it raises none, then every
one of them was written, encrypted under the key of its file. -/
theorem C41_save_complete (n : Node J) (hnames : (n.cache.map Prod.fst).Nodup) (rs : String → ρ) :
    ((n.save E rs).1 = .ok () ↔ ∀ p ∈ n.cache, ∃ text, encodeValue E p.2 = .ok text) ∧
    ((n.save E rs).1 = .ok () → ∀ p ∈ n.cache, ∀ text, encodeValue E p.2 = .ok text →
      .put p.1 (E.encrypt (E.fileKey n.key n.man.salt p.1) (rs p.1) text) ∈ (n.save E rs).2) := by
  obtain ⟨h1, h2⟩ := saveTags_ok_iff (E := E) n rs n.cache (fun p hp => Dict.get_of_nodup hnames hp)
  exact ⟨h1, fun h p hp t ht => List.mem_cons_of_mem _ (h2 h p hp t ht)⟩

theorem Kids.save_get (rs : String → ρ) : ∀ (kids : Kids J) (m : String) (t : Tree J), kids.get m = some t → (kids.save E rs).1 = .ok () →
    (t.save E rs).1 = .ok () ∧ ∀ w ∈ (t.save E rs).2, w ∈ (kids.save E rs).2
  | .nil, _, _, h, _ => by cases h
  | .cons m' t' rest, m, t, h, hs => by
    simp only [Kids.save] at hs ⊢
    cases ha : (t'.save E rs).1 with
    | error e => rw [ha] at hs; cases hs
    | ok u =>
      rw [ha] at hs
      simp only [Kids.get] at h
      split at h
      · cases h
        exact ⟨ha, fun w hw => by simp [hw]⟩
      · obtain ⟨i1, i2⟩ := Kids.save_get rs rest m t h hs
        exact ⟨i1, fun w hw => by simp [i2 w hw]⟩

/-- **C41** Of any tree of database objects: if saving it raises no exception, then every cached value of every object in it was written. -/
theorem C41_save_complete_tree (rs : String → ρ) (path : List String) : ∀ (tree sub : Tree J), tree.at? path = some sub → (sub.node.cache.map Prod.fst).Nodup →
    (tree.save E rs).1 = .ok () → ∀ p ∈ sub.node.cache, ∃ text, encodeValue E p.2 = .ok text ∧
      .put p.1 (E.encrypt (E.fileKey sub.node.key sub.node.man.salt p.1) (rs p.1) text) ∈ (tree.save E rs).2 := by
  induction path with
  | nil =>
    intro tree sub h hnames hs p hp
    cases h
    obtain ⟨n, kids⟩ := tree
    simp only [Tree.save] at hs ⊢
    cases hk : (kids.save E rs).1 with
    | error e => rw [hk] at hs; cases hs
    | ok u =>
      rw [hk] at hs
      obtain ⟨h1, h2⟩ := saveTags_ok_iff (E := E) n rs n.cache (fun p hp => Dict.get_of_nodup hnames hp)
      obtain ⟨text, ht⟩ := h1.1 hs p hp
      exact ⟨text, ht, by simpa using .inr (.inr (h2 hs p hp text ht))⟩
  | cons m path ih =>
    intro tree sub h hnames hs p hp
    obtain ⟨n, kids⟩ := tree
    simp only [Tree.at?] at h
    cases hg : kids.get m with
    | none => rw [hg] at h; cases h
    | some t =>
      rw [hg] at h
      simp only [Tree.save] at hs ⊢
      cases hk : (kids.save E rs).1 with
      | error e => rw [hk] at hs; cases hs
      | ok u =>
        rw [hk] at hs
        obtain ⟨g1, g2⟩ := Kids.save_get (E := E) rs kids m t hg hk
        obtain ⟨text, ht, hw⟩ := ih t sub h hnames g1 p hp
        exact ⟨text, ht, by simpa using .inr (.inl (g2 _ hw))⟩

/-- **C41** The other way round: a value that cannot be represented, in any object of the tree, makes the save raise. -/
theorem C41_save_raises (rs : String → ρ) {path : List String} {tree sub : Tree J} (h : tree.at? path = some sub) (hnames : (sub.node.cache.map Prod.fst).Nodup)
    {p : String × Value J} (hp : p ∈ sub.node.cache) {e : Err} (hv : encodeValue E p.2 = .error e) : ∃ e', (tree.save E rs).1 = .error e' := by
  cases hs : (tree.save E rs).1 with
  | error e' => exact ⟨e', rfl⟩
  | ok u =>
    obtain ⟨text, ht, _⟩ := C41_save_complete_tree (E := E) rs path tree sub h hnames hs p hp
    rw [hv] at ht; cases ht

/-- A sample in which `false` cannot be represented. -/
def partEnv : Env Unit Bool := { sampleEnv with dumps := fun b => if b then .ok [5] else .error .type }

example : let sub : Tree Bool := .mk ⟨[1], ⟨[9], [], []⟩, [("x", .json true), ("y", .json false)]⟩ .nil
    let tree : Tree Bool := .mk ⟨[0], ⟨[9], ["m"], []⟩, [("z", .json true)]⟩ (.cons "m" sub .nil)
    tree.at? ["m"] = some sub ∧ (sub.node.cache.map Prod.fst).Nodup ∧ ("y", .json false) ∈ sub.node.cache ∧ encodeValue partEnv (.json false) = .error .type := by
  refine ⟨rfl, by decide, by simp [Tree.node], rfl⟩

/-- **C43** A metatag that cannot be made or opened leaves the object as it was: it is neither an attribute nor listed in the manifest. -/
theorem C43_metatag_failed (reserved : String → Bool) (disk : Disk) (now : Int) (fuel : Nat) (salts : List String → Bytes) (tag : String) (tree : Tree J) {e : Err}
    (h : (tree.metatag E reserved disk now fuel salts tag).1 = .error e) : (tree.metatag E reserved disk now fuel salts tag).2 = tree := by
  obtain ⟨n, kids⟩ := tree
  simp only [Tree.metatag] at h ⊢
  cases hr : reserved tag with
  | true => simp
  | false =>
    simp only [hr, Bool.false_eq_true, if_false] at h ⊢
    cases hk : kids.get tag with
    | some t => rw [hk] at h; cases h
    | none =>
      rw [hk] at h
      simp only at h ⊢
      cases ho : openTree E reserved disk now fuel salts (E.metaKey n.key n.man.salt tag) with
      | error e' => rfl
      | ok t => rw [ho] at h; cases h

example : (Tree.metatag sampleEnv (fun t => t = "tags") (fun _ => none) 0 1 (fun _ => [9]) "tags" (.mk ⟨[0], ⟨[9], [], []⟩, []⟩ .nil)).1 = .error .attribute := rfl

/-! ### keys -/

open Kdf Canon

/-- **C46** A key of less than 64 bytes is refused. -/
theorem C46_short_key (K : KdfEnv) (key : Bytes) (h : key.length < 64) : K.root key = .error .value := by
  simp [KdfEnv.root, h, raiseIf]; rfl

example : (KdfEnv.root ⟨⟨168, 0, fun _ n => List.replicate n 0⟩, ⟨72, 64, fun _ n => List.replicate n 0⟩, [], [], ⟨[1], [2], [3], [4], [5], [6]⟩⟩ (List.replicate 63 0))
    = .error .value := C46_short_key _ _ (by simp)

/-- The message that `sha3_512` absorbs for the key of a metatag. -/
def metatagMessage (K : KdfEnv) (root salt : Bytes) (t : String) : Except Err Bytes :=
  hashBytesInput [K.dom.metatagKey, salt, utf8 t] 72 64 [0] none (some (K.shake128.digest root 72))

/-- **C46** If two metatags of one database have the same key, then they are the same, with the same root salt, or the messages hashed for the two keys
are a collision. -/
theorem C46_same_metatag_key {K : KdfEnv} (hK : K.Shapes) {root salt salt' : Bytes} {t t' : String} {key : Bytes}
    (h : K.metatagKey root salt t = .ok key) (h' : K.metatagKey root salt' t' = .ok key) :
    (salt = salt' ∧ t = t') ∨ ∃ x y, metatagMessage K root salt t = .ok x ∧ metatagMessage K root salt' t' = .ok y ∧ Collide (K.sha3_512.digest · 64) x y := by
  simp only [KdfEnv.metatagKey, runKdf, hashBytes, hK.digest512, hK.block512, bind_eq_ok] at h h'
  obtain ⟨x, hx, h⟩ := h
  obtain ⟨y, hy, h'⟩ := h'
  have hk : K.sha3_512.digest x 64 = K.sha3_512.digest y 64 := by
    injection h with h; injection h' with h'
    exact h.trans h'.symm
  by_cases hxy : x = y
  · subst hxy
    obtain ⟨_, _, _, hitems⟩ := C05_same_key_length_partial hx hy rfl
    simp only [List.cons.injEq, and_true, true_and] at hitems
    exact .inl ⟨hitems.1, utf8_inj hitems.2⟩
  · exact .inr ⟨x, y, hx, hy, hxy, hk⟩

end Aiootp.Database
