import Verif.Lemmas.DatabaseTreeStep
import Verif.Props.Database

/-!
C40, C41, C43, C44 for databases with metatags.

The specification is `TreeView` (Spec/DatabaseTree.lean): the database at each place of the tree has its own current and saved values, and
`TreeView.after` says what a call at one place does to all of them. A history is a list of calls, each at some place. `Start` says that
the first object is a new database; the keys and salts of new metatags are new (`Fresh`): no file has one of their names yet.
-/

namespace Aiootp.Database

variable {ρ J : Type} {E : Env ρ J} {good : ρ → Prop} {T : String → Prop} {reserved : String → Bool} {key salt : Bytes}

/-! ### a sample -/

section
/-- A sample in which the names of files depend on the length of the key. -/
def treeEnv : Env Unit Bool where
  rootName key := String.ofList ('r' :: List.replicate key.length 'x')
  manifestKey _ := List.replicate 64 1
  fileName key _ tag := String.ofList ('f' :: (List.replicate key.length 'x' ++ '/' :: tag.toList))
  fileKey _ _ _ := List.replicate 64 2
  metaKey key _ tag := List.replicate (64 + key.length + tag.length) 3
  encrypt := sampleEnv.encrypt
  decrypt := sampleEnv.decrypt
  dumps := sampleEnv.dumps
  loads := sampleEnv.loads
  dumpManifest := sampleEnv.dumpManifest
  loadManifest := sampleEnv.loadManifest

theorem treeEnv_law : treeEnv.Law (fun _ => True) where
  back := sampleEnv_law.back
  same := sampleEnv_law.same
  nonempty := sampleEnv_law.nonempty
  fileKey := by intros; simp [KeySize, treeEnv]
  manifestKey := by intros; simp [KeySize, treeEnv]
  metaKey := by intros; simp [treeEnv]; omega
  manifest := sampleEnv_law.manifest

theorem xs_inj : ∀ {n m : Nat} {a b : List Char}, List.replicate n 'x' ++ '/' :: a = List.replicate m 'x' ++ '/' :: b → n = m ∧ a = b
  | 0, 0, a, b, h => by simpa using h
  | 0, m + 1, a, b, h => by simp [List.replicate_succ] at h
  | n + 1, 0, a, b, h => by simp [List.replicate_succ] at h
  | n + 1, m + 1, a, b, h => by
    simp only [List.replicate_succ, List.cons_append, List.cons.injEq, true_and] at h
    have := xs_inj h
    exact ⟨by omega, this.2⟩

theorem treeEnv_apart (T : String → Prop) (key salt : Bytes) : Apart treeEnv T key salt where
  inj t u _ _ h := by
    simp only [treeEnv, String.ofList_inj, List.cons.injEq, true_and] at h
    exact String.toList_inj.1 (xs_inj h).2
  root t _ h := by have := congrArg String.toList h; simp [treeEnv] at this
  plain t _ := by constructor <;> intro h <;> have := congrArg String.toList h <;> simp [treeEnv] at this
  rootPlain := by constructor <;> intro h <;> have := congrArg String.toList h <;> simp [treeEnv] at this

theorem treeEnv_names (T : String → Prop) {k s k' s' : Bytes} (hne : k.length ≠ k'.length) {name : String} (h : Names treeEnv T k s name) :
    ¬ Names treeEnv T k' s' name := by
  rintro (h' | ⟨t', _, h'⟩)
  · rcases h with h | ⟨t, _, h⟩
    · rw [h] at h'
      simp only [treeEnv, String.ofList_inj, List.cons.injEq, true_and] at h'
      have := congrArg List.length h'
      simp at this
      exact hne this
    · rw [h] at h'; have := congrArg String.toList h'; simp [treeEnv] at this
  · rcases h with h | ⟨t, _, h⟩
    · rw [h] at h'; have := congrArg String.toList h'; simp [treeEnv] at this
    · rw [h] at h'
      simp only [treeEnv, String.ofList_inj, List.cons.injEq, true_and] at h'
      exact hne (xs_inj h').1

def treeStart : World Bool := ⟨.mk ⟨List.replicate 64 0, ⟨[9], [], []⟩, []⟩ .nil, fun _ => none⟩

theorem treeStart_start : Start treeEnv (fun _ => True) (fun _ => false) (List.replicate 64 0) [9] treeStart where
  apart := treeEnv_apart _ _ _
  size := by simp
  free := fun _ _ => rfl
  opened := by
    refine ⟨0, 0, ?_⟩
    have := openNode_new (E := treeEnv) (J := Bool) (disk := treeStart.disk) (key := List.replicate 64 0) (salt := [9]) (by simp) rfl 0
    simp only [openTree, this, bind, Except.bind, unique, openKids]
    rfl

/-- A history: three metatags at two depths, values in each, a save, and a deletion. -/
def treeOps : List (List String × TreeOp Unit Bool) :=
  [([], .metatag "a" [1] 0), ([], .metatag "bb" [2] 0), (["a"], .metatag "c" [3] 0), (["a"], .tags (.set "t" (.json true) false ())),
   (["a", "c"], .tags (.set "t" (.bytes [5]) true ())), (["bb"], .tags (.set "t" (.json false) true ())), ([], .save (fun _ => ())),
   ([], .deleteMetatag "bb")]

theorem treeEnv_storable (v : Value Bool) : Storable treeEnv v := by
  obtain ⟨text, h1, h2⟩ := sampleEnv_storable v
  refine ⟨text, ?_, ?_⟩
  · rw [← h1]; cases v <;> rfl
  · rw [← h2]; rfl

set_option maxRecDepth 100000 in
theorem treeOps_allowed : AllAllowed treeEnv (fun _ => True) (fun _ => True) (fun _ => false) treeStart treeOps := by
  simp only [treeOps, AllAllowed]
  refine ⟨⟨_, rfl, .inr ⟨treeEnv_apart _ _ _, fun _ _ => rfl, ?_⟩⟩, ⟨_, rfl, .inr ⟨treeEnv_apart _ _ _, fun _ _ => rfl, ?_⟩⟩,
    ⟨_, rfl, .inr ⟨treeEnv_apart _ _ _, fun _ _ => rfl, ?_⟩⟩, ⟨_, rfl, ⟨trivial, treeEnv_storable _, trivial⟩, by simp⟩,
    ⟨_, rfl, ⟨trivial, treeEnv_storable _, trivial⟩, by simp⟩, ⟨_, rfl, ⟨trivial, treeEnv_storable _, trivial⟩, by simp⟩,
    ⟨_, rfl, fun _ => trivial⟩, ⟨_, rfl, trivial⟩, trivial⟩
  · intro name hN
    rintro (h | h)
    · exact treeEnv_names _ (by decide) hN h
    · exact h
  · intro name hN
    rintro (h | (h | h) | h)
    · exact treeEnv_names _ (by decide) hN h
    · exact treeEnv_names _ (by decide) hN h
    · exact h
    · exact h
  · intro name hN
    rintro (h | (h | h) | (h | h) | h)
    · exact treeEnv_names _ (by decide) hN h
    · exact treeEnv_names _ (by decide) hN h
    · exact h
    · exact treeEnv_names _ (by decide) hN h
    · exact h
    · exact h
end

/-! ### C40 -/

/-- **C40** After every history of calls on a database and its metatags, a query of any of them returns the current value of the tag in
that database. -/
theorem C40_tree (law : E.Law good) {w : World J} (hw : Start E T reserved key salt w) (ops : List (List String × TreeOp ρ J))
    (hops : AllAllowed E good T reserved w ops) {path : List String} {sub : Tree J} (hs : (w.run E reserved ops).tree.at? path = some sub) {t : String} (ht : T t)
    (silent cache : Bool) (now : Int) :
    (sub.node.queryTag E (w.run E reserved ops).disk t none silent cache now).1 =
      answer silent ((TreeView.afterAll (fun _ => View.empty) ops path).current t) :=
  ((World.run_law law hw.rep hops (covered_start w)).1).query law hs ht silent cache now

set_option maxRecDepth 100000 in
example : ∃ sub, (treeStart.run treeEnv (fun _ => false) treeOps).tree.at? ["a", "c"] = some sub ∧
    (sub.node.queryTag treeEnv (treeStart.run treeEnv (fun _ => false) treeOps).disk "t" none false false 0).1 = .ok (some (.bytes [5])) := by
  refine ⟨_, rfl, ?_⟩
  rw [C40_tree treeEnv_law treeStart_start treeOps treeOps_allowed (path := ["a", "c"]) rfl (t := "t") trivial]
  decide

/-! ### C41 -/

/-- **C41** After every history, a database that is saved and then opened again has the same metatags at every depth, and in each of these
databases the same tags with the same values. (`fuel` bounds the depth to which metatags are opened.) -/
theorem C41_reopen (law : E.Law good) {w₀ : World J} (hw : Start E T reserved key salt w₀) (ops : List (List String × TreeOp ρ J))
    (hops : AllAllowed E good T reserved w₀ ops) (rs : String → ρ) (hrs : ∀ name, good (rs name)) :
    let w := w₀.run E reserved ops
    let w' := w.step E reserved [] (.save rs)
    (w.tree.exec E reserved w.disk (.save rs) []).1 = .ok none ∧
    ∃ depth, ∀ fuel, depth ≤ fuel → ∀ (salts : List String → Bytes) (now₁ : Int),
      ∃ tree', openTree E reserved w'.disk now₁ fuel salts key = .ok tree' ∧
        (∀ path, w.tree.at? path = none → tree'.at? path = none) ∧
        ∀ path sub, w.tree.at? path = some sub → ∃ sub', tree'.at? path = some sub' ∧
          sub'.node.man.metatags = sub.node.man.metatags ∧ sub'.node.tags = sub.node.tags ∧
          ∀ t, T t → ∀ silent cache now,
            (sub'.node.queryTag E w'.disk t none silent cache now).1 = (sub.node.queryTag E w.disk t none silent cache now).1 := by
  intro w w'
  obtain ⟨h, _, hkey⟩ := World.run_law law hw.rep hops (covered_start w₀)
  have hkey : w.tree.node.key = key := by rw [hkey, hw.tree]; rfl
  change w.tree.Rep E T reserved w.disk _ at h
  obtain ⟨h1, _, h3, h4⟩ := h.save law hrs
  have hd : w'.disk = w.disk.applyAll (w.tree.save E rs).2 := rfl
  rw [← hd] at h3 h4
  refine ⟨by simp [Tree.exec, TreeOp.run, h1, Except.map], w.tree.depth, fun fuel hf salts now₁ => ⟨w.tree.clear, ?_, ?_, ?_⟩⟩
  · rw [← hkey]
    exact h3.reopen law now₁ fuel salts h4 hf
  · intro path hp
    rw [Tree.at_clear, hp]; rfl
  · intro path sub hs
    have hs' : w.tree.clear.at? path = some sub.clear := by rw [Tree.at_clear, hs]; rfl
    refine ⟨sub.clear, hs', by rw [Tree.node_clear]; rfl, by rw [Tree.node_clear]; rfl, ?_⟩
    intro t ht silent cache now
    rw [h3.clear.query law hs' ht, h.query law hs ht]
    rfl

set_option maxRecDepth 100000 in
example : ∃ depth, ∀ fuel, depth ≤ fuel → ∀ (salts : List String → Bytes) (now : Int), ∃ tree',
    openTree treeEnv (fun _ => false) ((treeStart.run treeEnv (fun _ => false) treeOps).step treeEnv (fun _ => false) [] (.save (fun _ => ()))).disk now fuel salts
      (List.replicate 64 0) = .ok tree' ∧ (tree'.at? ["a", "c"]).isSome ∧ (tree'.at? ["bb"]).isNone := by
  obtain ⟨_, depth, h⟩ := C41_reopen treeEnv_law treeStart_start treeOps treeOps_allowed (fun _ => ()) (fun _ => trivial)
  refine ⟨depth, fun fuel hf salts now => ?_⟩
  obtain ⟨tree', h1, h2, h3⟩ := h fuel hf salts now
  obtain ⟨sub', h4, _⟩ := h3 ["a", "c"] _ rfl
  exact ⟨tree', h1, by rw [h4]; rfl, by rw [h2 ["bb"] rfl]; rfl⟩

/-! ### C43 -/

/-- **C43** A call on the database at `path` changes nothing in a database that is not at or below `path`, such as its parent and its
siblings: not the object (its tags, its metatags, what it caches), and not what queries give. -/
theorem C43_isolated (law : E.Law good) {w₀ : World J} (hw : Start E T reserved key salt w₀) (ops : List (List String × TreeOp ρ J))
    (hops : AllAllowed E good T reserved w₀ ops) {path : List String} {op : TreeOp ρ J} (hop : op.Allowed E good T (w₀.run E reserved ops) path)
    {other : List String} (hother : ¬ path <+: other) {sub : Tree J} (hs : (w₀.run E reserved ops).tree.at? other = some sub) :
    let w := w₀.run E reserved ops
    let w' := w.step E reserved path op
    ∃ sub', w'.tree.at? other = some sub' ∧ sub'.node = sub.node ∧
      ∀ t, T t → ∀ ttl silent cache now,
        sub'.node.queryTag E w'.disk t ttl silent cache now = sub.node.queryTag E w.disk t ttl silent cache now := by
  intro w w'
  obtain ⟨h, _, _⟩ := World.run_law law hw.rep hops (covered_start w₀)
  change w.tree.Rep E T reserved w.disk _ at h
  obtain ⟨a, ha, hop⟩ := hop
  obtain ⟨sub', hs', hnode⟩ := Tree.exec_other (E := E) (reserved := reserved) (disk := w.disk) (op := op) ha hs hother
  refine ⟨sub', hs', hnode, ?_⟩
  intro t ht ttl silent cache now
  have hlocal : op.Allowed E good T ⟨a, w.disk⟩ [] := by
    refine ⟨a, rfl, ?_⟩
    cases op with
    | metatag tag salt now => exact hop.imp id (fun hf => hf.mono (fun name ho => Tree.owns_at ha ho))
    | _ => exact hop
  have hl := TreeOp.run_law law (h.at ha) hlocal
  have hname : Names E T sub.node.key sub.node.man.salt (E.fileName sub.node.key sub.node.man.salt t) := .inr ⟨t, ht, rfl⟩
  have hdisk : w'.disk (E.fileName sub.node.key sub.node.man.salt t) = w.disk (E.fileName sub.node.key sub.node.man.salt t) := by
    show w.disk.applyAll (w.tree.exec E reserved w.disk op path).2.2 _ = _
    rw [(Tree.exec_writes ha).1]
    refine applyAll_other _ _ (fun x hx he => ?_)
    have hpl := h.plain (Tree.owns_at hs (Tree.owns_node hname))
    rcases hl.touch x hx with h1 | h1 | h1
    · exact h.apart_at ha hs hother hname (he ▸ h1)
    · exact hpl.1 (by rw [he, h1]; rfl)
    · exact hpl.2 (by rw [he, h1]; rfl)
  rw [hnode]
  simp only [Node.queryTag, Node.filename, hdisk]

/-- **C43** A call on the tags of the database at `path` changes nothing in any other database, also not in those below it. -/
theorem C43_tags (law : E.Law good) {w₀ : World J} (hw : Start E T reserved key salt w₀) (ops : List (List String × TreeOp ρ J))
    (hops : AllAllowed E good T reserved w₀ ops) {path : List String} {op : Op ρ J} (hop : TreeOp.Allowed E good T (w₀.run E reserved ops) path (.tags op))
    {other : List String} (hother : other ≠ path) {sub : Tree J} (hs : (w₀.run E reserved ops).tree.at? other = some sub) :
    let w := w₀.run E reserved ops
    let w' := w.step E reserved path (.tags op)
    ∃ sub', w'.tree.at? other = some sub' ∧ sub'.node = sub.node ∧
      ∀ t, T t → ∀ ttl silent cache now,
        sub'.node.queryTag E w'.disk t ttl silent cache now = sub.node.queryTag E w.disk t ttl silent cache now := by
  intro w w'
  by_cases hpre : path <+: other
  · obtain ⟨h, _, _⟩ := World.run_law law hw.rep hops (covered_start w₀)
    change w.tree.Rep E T reserved w.disk _ at h
    obtain ⟨a, ha, hop, hns⟩ := hop
    obtain ⟨q, rfl⟩ := hpre
    have hq : q ≠ [] := fun hq => hother (by rw [hq, List.append_nil])
    refine ⟨sub, Tree.exec_tags_below hs hq, rfl, ?_⟩
    intro t ht ttl silent cache now
    have hnot : ¬ (path ++ q) <+: path := by
      intro hp
      have := hp.length_le
      rw [List.length_append] at this
      exact hq (List.length_eq_zero_iff.1 (by omega))
    have hdisk : w'.disk (E.fileName sub.node.key sub.node.man.salt t) = w.disk (E.fileName sub.node.key sub.node.man.salt t) := by
      show w.disk.applyAll (w.tree.exec E reserved w.disk (.tags op) path).2.2 _ = _
      rw [(Tree.exec_writes ha).1]
      refine applyAll_other _ _ (fun x hx he => ?_)
      obtain ⟨u, hu, hxu⟩ := Op.run_names (n := a.node) (disk := w.disk) hop hns x hx
      refine h.apart_at hs ha hnot (name := x.name) (.inr ⟨u, hu, hxu⟩) (Tree.owns_node (.inr ⟨t, ht, he.symm⟩))
    simp only [Node.queryTag, Node.filename, hdisk]
  · exact C43_isolated law hw ops hops hop hpre hs

set_option maxRecDepth 100000 in
/-- The hypotheses hold for a call on the metatag `a` of the sample. -/
example : TreeOp.Allowed treeEnv (fun _ => True) (fun _ => True) (treeStart.run treeEnv (fun _ => false) treeOps) ["a"] (.tags (.pop "t" false 0)) ∧
    ¬ ["a"] <+: ([] : List String) ∧ ((treeStart.run treeEnv (fun _ => false) treeOps).tree.at? []).isSome ∧
    ["a", "c"] ≠ ["a"] ∧ ((treeStart.run treeEnv (fun _ => false) treeOps).tree.at? ["a", "c"]).isSome :=
  ⟨⟨_, rfl, trivial, by simp⟩, by simp, rfl, by simp, rfl⟩

/-! ### C44 -/

/-- **C44** After every history, `delete_database` leaves no file behind: what is in the directory was there before the database was
made.

What is missing: histories that reload the manifest or open the database again without a save, see `C44_reload_leaves_files`. -/
theorem C44_deleted_partial (law : E.Law good) {w₀ : World J} (hw : Start E T reserved key salt w₀) (ops : List (List String × TreeOp ρ J))
    (hops : AllAllowed E good T reserved w₀ ops) :
    let w := w₀.run E reserved ops
    ∀ name, w.disk.applyAll (w.tree.delete E) name ≠ none → w₀.disk name ≠ none := by
  intro w name hne
  obtain ⟨h, hc, _⟩ := World.run_law law hw.rep hops (covered_start w₀)
  change w.tree.Rep E T reserved w.disk _ at h
  refine (hc name (fun hnone => hne ?_)).resolve_right (fun ho => hne (h.deleted ho))
  exact applyAll_unlink _ _ (Tree.delete_unlinks w.tree) (.inr hnone)

/-- **C44** Deleting touches no other file, except for files that are named `0` or `1`. -/
theorem C44_others_stay (law : E.Law good) {w₀ : World J} (hw : Start E T reserved key salt w₀) (ops : List (List String × TreeOp ρ J))
    (hops : AllAllowed E good T reserved w₀ ops) :
    let w := w₀.run E reserved ops
    ∀ name, ¬ w.tree.Owns E T name → name ≠ "0" → name ≠ "1" → w.disk.applyAll (w.tree.delete E) name = w.disk name := by
  intro w name ho h0 h1
  obtain ⟨h, _, _⟩ := World.run_law law hw.rep hops (covered_start w₀)
  change w.tree.Rep E T reserved w.disk _ at h
  refine applyAll_other _ _ (fun x hx he => ?_)
  rcases h.delete.1 x hx with h2 | h2 | h2
  · exact ho (he ▸ h2)
  · exact h0 (by rw [he, h2]; rfl)
  · exact h1 (by rw [he, h2]; rfl)

/-- `delete_metatag` of a tag that is not listed raises `KeyError`; nothing changes and nothing is written. -/
theorem C44_unknown_metatag (tag : String) (tree : Tree J) (h : tag ∉ tree.node.man.metatags) :
    tree.deleteMetatag E tag = (.error .key, tree, []) := by
  obtain ⟨n, kids⟩ := tree
  have h : tag ∉ n.man.metatags := h
  simp only [Tree.deleteMetatag, if_neg h]

/-- A call on an object that cannot be reached raises `AttributeError` and changes nothing. -/
theorem C44_unreachable (reserved : String → Bool) (disk : Disk) (op : TreeOp ρ J) (m : String) (path : List String) (tree : Tree J) (h : tree.kids.get m = none) :
    tree.exec E reserved disk op (m :: path) = (.error .attribute, tree, []) := by
  obtain ⟨n, kids⟩ := tree
  have h : kids.get m = none := h
  simp only [Tree.exec, h]

/-- A finding beside **C44**: a file named `0` or `1` in the directory, which no database wrote, is deleted. -/
theorem C44_reserved_names (tree : Tree J) (disk : Disk) : disk.applyAll (tree.delete E) "0" = none ∧ disk.applyAll (tree.delete E) "1" = none := by
  cases tree with
  | mk n kids =>
    constructor <;> refine applyAll_unlink _ _ (Tree.delete_unlinks _) (.inl ?_)
    · exact ⟨.unlink "0", by simp [Tree.delete], rfl⟩
    · exact ⟨.unlink "1", by simp [Tree.delete], rfl⟩

example : ∀ name, (treeStart.run treeEnv (fun _ => false) treeOps).disk.applyAll ((treeStart.run treeEnv (fun _ => false) treeOps).tree.delete treeEnv) name = none := by
  intro name
  exact Classical.byContradiction fun hne => C44_deleted_partial treeEnv_law treeStart_start treeOps treeOps_allowed name hne rfl

/-- **C44** is false if the manifest is loaded again (`load_database(manifest=True)`, or another object) after `set_tag(cache=False)` of a
new tag: the manifest on the disk does not list the tag, and its file stays. -/
theorem C44_reload_leaves_files (law : E.Law good) (hap : Apart E T key salt) (hk : 64 ≤ key.length) {disk : Disk} (hroot : disk (E.rootName key) = none)
    {n : Node J} {now₀ : Int} (hn : openNode E disk key salt now₀ = .ok n)
    {t : String} (ht : T t) (x : Value J) (hx : Storable E x) (rs : String → ρ) (hrs : ∀ name, good (rs name)) (r : ρ) (salt' : Bytes) (now₁ : Int) :
    let s := Sys.run E ⟨n, disk⟩ [.save rs, .set t x false r]
    ∃ man, openManifest E s.disk key salt' now₁ = .ok man ∧
      s.disk.applyAll (Tree.delete E (.mk { s.node with man := man, cache := [] } .nil)) (E.fileName key salt t) ≠ none := by
  rw [openNode_new hk hroot] at hn
  cases hn
  obtain ⟨text, htext, _⟩ := hx
  intro s
  have hdisk : s.disk = (disk.apply (.put (E.rootName key) (E.encrypt (E.manifestKey key) (rs (E.rootName key)) (E.dumpManifest ⟨salt, [], []⟩)))).apply
      (.put (E.fileName key salt t) (E.encrypt (E.fileKey key salt (E.fileName key salt t)) r text)) := by
    simp [s, Sys.run, Sys.step, Op.run, Node.save, Node.saveTags, Node.manifestWrite, Node.setTag, Node.saveTag, Node.saveFile, Node.filename, Dict.set, Dict.get, htext,
      bind, Except.bind, Disk.applyAll]
  have hkey : s.node.key = key := by
    simp [s, Sys.run, Sys.step, Op.run, Node.save, Node.saveTags, Node.setTag, Node.saveTag, Node.saveFile, Node.filename, Dict.set, Dict.get, htext, bind, Except.bind]
  have hr : s.disk (E.rootName key) = some (E.encrypt (E.manifestKey key) (rs (E.rootName key)) (E.dumpManifest ⟨salt, [], []⟩)) := by
    rw [hdisk, apply_other _ _ (fun h : E.rootName key = E.fileName key salt t => hap.root t ht h.symm)]
    simp [Disk.apply]
  refine ⟨⟨salt, [], []⟩, openManifest_put law (Manifest.sound_nil _ _) (hrs _) hr salt' now₁, ?_⟩
  have hp := hap.plain t ht
  rw [applyAll_other]
  · rw [hdisk]; simp [Disk.apply]
  · intro w hw he
    simp only [Tree.delete, Kids.delete, List.map_nil, List.append_nil, List.nil_append, List.mem_append, List.mem_cons, List.not_mem_nil, or_false, hkey] at hw
    rcases hw with (rfl | rfl) | rfl
    · exact hp.1 he
    · exact hp.2 he
    · exact hap.root t ht he

example : let s := Sys.run sampleEnv ⟨⟨List.replicate 64 0, ⟨[9], [], []⟩, []⟩, fun _ => none⟩ [.save (fun _ => ()), .set "a" (.json true) false ()]
    ∃ man, openManifest sampleEnv s.disk (List.replicate 64 0) [8] 5 = .ok man ∧
      s.disk.applyAll (Tree.delete sampleEnv (.mk { s.node with man := man, cache := [] } .nil)) "file of a" ≠ none :=
  C44_reload_leaves_files (T := fun _ => True) sampleEnv_law (sampleEnv_apart _ _ _) (by simp) rfl (openNode_new (by simp) rfl 0)
    (t := "a") trivial (.json true) (sampleEnv_storable _) (fun _ => ()) (fun _ => trivial) () [8] 5

end Aiootp.Database
