import Verif.Model.DatabaseWith
import Verif.Props.DatabaseSaveErrors

/-!
C110: `with` blocks of databases. However a block ends, what it did is in the directory afterwards, and its exception goes on.
-/

namespace Aiootp.Database

variable {ρ J : Type} {E : Env ρ J} {good : ρ → Prop} {T : String → Prop} {reserved : String → Bool} {key salt : Bytes}

/-- The blocks that are considered: each call is one of those of C40, given what the calls before it have returned, and the database is not
deleted. -/
def Block.Allowed (E : Env ρ J) (good : ρ → Prop) (T : String → Prop) (reserved : String → Bool) : Block ρ J → World J → Prop
  | .ends, _ => True
  | .raises _, _ => True
  | .call path op next, w => op.Allowed E good T w path ∧
      Block.Allowed E good T reserved (next (w.tree.exec E reserved w.disk op path).1) (w.step E reserved path op)
  | .delete _, _ => False

theorem AllAllowed.append : ∀ {ops ops' : List (List String × TreeOp ρ J)} {w : World J}, AllAllowed E good T reserved w ops →
    AllAllowed E good T reserved (w.run E reserved ops) ops' → AllAllowed E good T reserved w (ops ++ ops')
  | [], _, _, _, h => h
  | (_, _) :: _, _, _, h, h' => ⟨h.1, AllAllowed.append h.2 h'⟩

theorem World.run_append : ∀ (ops ops' : List (List String × TreeOp ρ J)) (w : World J),
    w.run E reserved (ops ++ ops') = (w.run E reserved ops).run E reserved ops'
  | [], _, _ => rfl
  | (_, _) :: ops, ops', w => World.run_append ops ops' (w.step E reserved _ _)

/-- A block is some history. -/
theorem Block.history : ∀ (block : Block ρ J) (w : World J), block.Allowed E good T reserved w →
    ∃ ops, AllAllowed E good T reserved w ops ∧
      (block.run E reserved (some w.tree) w.disk).2 = (some (w.run E reserved ops).tree, (w.run E reserved ops).disk)
  | .ends, _, _ => ⟨[], trivial, rfl⟩
  | .raises _, _, _ => ⟨[], trivial, rfl⟩
  | .call path op next, w, h => by
    obtain ⟨ops, h1, h2⟩ := Block.history (next (w.tree.exec E reserved w.disk op path).1) (w.step E reserved path op) h.2
    exact ⟨(path, op) :: ops, ⟨h.1, h1⟩, h2⟩
  | .delete _, _, h => h.elim

/-- **C110** (the full claim is that this holds for every block; it does not for blocks that delete the database, `C110_deleted`.)
After every history, for every block, whether it ends or raises: the statement raises what the block raises and nothing else, and if
the database is opened again, then it has the metatags, the tags and the values that it had at the end of the block. -/
theorem C110_saves_partial (law : E.Law good) {w₀ : World J} (hw : Start E T reserved key salt w₀) (ops : List (List String × TreeOp ρ J))
    (hops : AllAllowed E good T reserved w₀ ops) (block : Block ρ J) (hblock : block.Allowed E good T reserved (w₀.run E reserved ops))
    (rs : String → ρ) (hrs : ∀ name, good (rs name)) :
    let w := w₀.run E reserved ops
    let inner := block.run E reserved (some w.tree) w.disk
    let outer := withBlock E reserved [] rs block (some w.tree) w.disk
    outer.1 = inner.1 ∧
    ∃ tree, inner.2.1 = some tree ∧
    ∃ depth, ∀ fuel, depth ≤ fuel → ∀ (salts : List String → Bytes) (now₁ : Int),
      ∃ tree', openTree E reserved outer.2.2 now₁ fuel salts key = .ok tree' ∧
        (∀ path, tree.at? path = none → tree'.at? path = none) ∧
        ∀ path sub, tree.at? path = some sub → ∃ sub', tree'.at? path = some sub' ∧
          sub'.node.man.metatags = sub.node.man.metatags ∧ sub'.node.tags = sub.node.tags ∧
          ∀ t, T t → ∀ silent cache now,
            (sub'.node.queryTag E outer.2.2 t none silent cache now).1 = (sub.node.queryTag E inner.2.2 t none silent cache now).1 := by
  intro w inner outer
  obtain ⟨more, h1, h2⟩ := Block.history block w hblock
  have hr := C41_reopen law hw (ops ++ more) (hops.append h1) rs hrs
  rw [World.run_append] at hr
  obtain ⟨hs, depth, hr⟩ := hr
  have he : inner.2.1 = some (w.run E reserved more).tree := congrArg Prod.fst h2
  have hd : inner.2.2 = (w.run E reserved more).disk := congrArg Prod.snd h2
  have ho : outer = exitBlock E reserved [] rs inner.1 inner.2.1 inner.2.2 := rfl
  rw [he, hd] at ho
  simp only [exitBlock] at ho
  rw [hs] at ho
  refine ⟨by rw [ho], _, he, depth, ?_⟩
  rw [ho, hd]
  exact hr

/-- **C110** For every object, directory and block, without any assumption: an exception of the block never gets lost. If the statement does
not raise, then the block did not, and the save did not. -/
theorem C110_raises (path : List String) (rs : String → ρ) (block : Block ρ J) (object : Option (Tree J)) (disk : Disk)
    (h : (withBlock E reserved path rs block object disk).1 = .ok ()) :
    (block.run E reserved object disk).1 = .ok () ∧
    ∃ tree, (block.run E reserved object disk).2.1 = some tree ∧
      (tree.exec E reserved (block.run E reserved object disk).2.2 (.save rs) path).1 = .ok none := by
  simp only [withBlock] at h
  cases ho : (block.run E reserved object disk).2.1 with
  | none => rw [ho] at h; cases h
  | some tree =>
    rw [ho] at h
    simp only [exitBlock] at h
    cases hx : (tree.exec E reserved (block.run E reserved object disk).2.2 (.save rs) path).1 with
    | error e => rw [hx] at h; cases h
    | ok x =>
      rw [hx] at h
      refine ⟨h, tree, rfl, ?_⟩
      have : ∀ (path : List String) (tree : Tree J) (d : Disk) (y : Option (Value J)), (tree.exec E reserved d (.save rs) path).1 = .ok y → y = none := by
        intro path
        induction path with
        | nil =>
          intro tree d y hy
          simp only [Tree.exec, TreeOp.run] at hy
          cases hsv : (tree.save E rs).1 with
          | error e => rw [hsv] at hy; cases hy
          | ok u => rw [hsv] at hy; cases hy; rfl
        | cons m path ih =>
          intro tree d y hy
          obtain ⟨n, kids⟩ := tree
          simp only [Tree.exec] at hy
          split at hy
          · cases hy
          · exact ih _ d y hy
      rw [hx, this path tree _ x hx]

/-- **C110** The other exceptions: a value that JSON cannot represent, in the cache of any object of the tree at the end of the block, makes
the statement raise. -/
theorem C110_unstorable (rs : String → ρ) (block : Block ρ J) (object : Option (Tree J)) (disk : Disk) {tree sub : Tree J}
    (ho : (block.run E reserved object disk).2.1 = some tree) {path : List String} (hsub : tree.at? path = some sub)
    (hnames : (sub.node.cache.map Prod.fst).Nodup) {p : String × Value J} (hp : p ∈ sub.node.cache) {e : Err} (hv : encodeValue E p.2 = .error e) :
    ∃ e', (withBlock E reserved [] rs block object disk).1 = .error e' := by
  obtain ⟨e', he⟩ := C41_save_raises (E := E) rs hsub hnames hp hv
  refine ⟨e', ?_⟩
  simp only [withBlock, ho, exitBlock, Tree.exec, TreeOp.run, he, Except.map]

theorem Block.run_none : ∀ (block : Block ρ J) (disk : Disk), (block.run E reserved none disk).2 = (none, disk)
  | .ends, _ => rfl
  | .raises _, _ => rfl
  | .call _ _ next, disk => Block.run_none (next (.error .attribute)) disk
  | .delete next, disk => Block.run_none (next (.error .attribute)) disk

/-- Some run of the block deletes the database. -/
def Block.Deletes (E : Env ρ J) (reserved : String → Bool) : Block ρ J → World J → Prop
  | .ends, _ => False
  | .raises _, _ => False
  | .call path op next, w => Block.Deletes E reserved (next (w.tree.exec E reserved w.disk op path).1) (w.step E reserved path op)
  | .delete _, _ => True

/-- **C110** does not hold for a block that deletes the database: the statement raises `AttributeError`, whatever the block does, and
whatever exception leaves it. The directory is as the block left it. -/
theorem C110_deleted (path : List String) (rs : String → ρ) : ∀ (block : Block ρ J) (w : World J), block.Deletes E reserved w →
    withBlock E reserved path rs block (some w.tree) w.disk = (.error .attribute, none, (block.run E reserved (some w.tree) w.disk).2.2) := by
  have key : ∀ (block : Block ρ J) (w : World J), block.Deletes E reserved w → (block.run E reserved (some w.tree) w.disk).2.1 = none := by
    intro block
    induction block with
    | ends => intro w h; exact h.elim
    | raises e => intro w h; exact h.elim
    | call path op next ih => intro w h; exact ih _ (w.step E reserved path op) h
    | delete next ih => intro w _; simp only [Block.run, Block.run_none]
  intro block w h
  simp only [withBlock, key block w h, exitBlock]

/-! ### blocks of metatags -/

/-- Calls other than a save of the outermost object do not write its manifest. -/
theorem root_unwritten (law : E.Law good) {w : World J} {v : TreeView J} (h : w.tree.Rep E T reserved w.disk v) {path : List String} {op : TreeOp ρ J}
    (hop : op.Allowed E good T w path) (hns : ∀ rs, path = [] → op ≠ .save rs) :
    (w.step E reserved path op).disk (E.rootName w.tree.node.key) = w.disk (E.rootName w.tree.node.key) := by
  obtain ⟨tree, disk⟩ := w
  obtain ⟨n, kids⟩ := tree
  have hrep := h
  simp only [Tree.Rep] at h
  obtain ⟨hn, hlen, hnames, hnd, hsep, hemp, hk⟩ := h
  have hroot : Names E T n.key n.man.salt (E.rootName n.key) := .inl rfl
  have hplain := hn.apart.rootPlain
  have hkids : ∀ {m : String} {t : Tree J}, kids.get m = some t → ∀ {ws : List Write},
      (∀ w ∈ ws, t.Owns E T w.name ∨ w = .unlink "0" ∨ w = .unlink "1") → disk.applyAll ws (E.rootName n.key) = disk (E.rootName n.key) := by
    intro m t ht ws hws
    refine applyAll_other _ _ (fun w hw he => ?_)
    rcases hws w hw with h | h | h
    · exact hsep _ hroot (Kids.owns_get ht (he ▸ h))
    · subst h; exact hplain.1 he
    · subst h; exact hplain.2 he
  simp only [World.step, Tree.node]
  cases path with
  | cons m path =>
    obtain ⟨t, ht, hop'⟩ := hop.kid
    obtain ⟨sub, hsub, _⟩ := id hop'
    obtain ⟨_, htouch, _⟩ := Tree.exec_law law (hk.get ht).2.2 hop' hsub (hop'.unowned hsub)
    simp only [Tree.exec, ht]
    exact hkids ht htouch
  | nil =>
    obtain ⟨sub, hsub, hop⟩ := hop
    cases hsub
    cases op with
    | tags op =>
      refine applyAll_other _ _ (fun w hw he => ?_)
      obtain ⟨t, ht, hname⟩ := Op.run_names (n := n) (disk := disk) hop.1 hop.2 w hw
      exact hn.apart.root t ht (by rw [← hname, ← he])
    | save rs => exact absurd rfl (hns rs rfl)
    | clearAll => rfl
    | metatag => rfl
    | deleteMetatag tag =>
      simp only [Tree.exec, TreeOp.run, Tree.deleteMetatag]
      split
      · split
        · rfl
        · rename_i t ht
          exact hkids ht (Tree.Rep.delete (hk.get ht).2.2).1
      · rfl

/-- Nothing in the history saves the outermost object. -/
def Unsaved (ops : List (List String × TreeOp ρ J)) : Prop := ∀ rs, ([], TreeOp.save rs) ∉ ops

/-- Nothing in the block saves the outermost object. -/
def Block.Unsaved (E : Env ρ J) (reserved : String → Bool) : Block ρ J → World J → Prop
  | .ends, _ => True
  | .raises _, _ => True
  | .call path op next, w => (∀ rs, path = [] → op ≠ .save rs) ∧
      Block.Unsaved E reserved (next (w.tree.exec E reserved w.disk op path).1) (w.step E reserved path op)
  | .delete _, _ => True

theorem Block.history_unsaved : ∀ (block : Block ρ J) (w : World J), block.Allowed E good T reserved w → block.Unsaved E reserved w →
    ∃ ops, AllAllowed E good T reserved w ops ∧ Aiootp.Database.Unsaved ops ∧
      (block.run E reserved (some w.tree) w.disk).2 = (some (w.run E reserved ops).tree, (w.run E reserved ops).disk)
  | .ends, _, _, _ => ⟨[], trivial, (fun _ h => by cases h), rfl⟩
  | .raises _, _, _, _ => ⟨[], trivial, (fun _ h => by cases h), rfl⟩
  | .call path op next, w, h, hu => by
    obtain ⟨ops, h1, h2, h3⟩ := Block.history_unsaved (next (w.tree.exec E reserved w.disk op path).1) (w.step E reserved path op) h.2 hu.2
    refine ⟨(path, op) :: ops, ⟨h.1, h1⟩, fun rs hm => ?_, h3⟩
    rcases List.mem_cons.1 hm with he | hm
    · simp only [Prod.mk.injEq] at he
      exact hu.1 rs he.1.symm he.2.symm
    · exact h2 rs hm
  | .delete _, _, h, _ => h.elim

theorem run_unwritten (law : E.Law good) : ∀ {ops : List (List String × TreeOp ρ J)} {w : World J} {v : TreeView J}, w.tree.Rep E T reserved w.disk v →
    AllAllowed E good T reserved w ops → Aiootp.Database.Unsaved ops →
    (w.run E reserved ops).disk (E.rootName w.tree.node.key) = w.disk (E.rootName w.tree.node.key)
  | [], _, _, _, _, _ => rfl
  | (path, op) :: ops, w, v, h, ha, hu => by
    obtain ⟨sub, hsub, _⟩ := id ha.1
    have hl := World.step_law law h ha.1 hsub
    have h1 := root_unwritten law h ha.1 (fun rs hp ho => hu rs (by rw [hp, ho]; exact List.mem_cons_self))
    have h2 := run_unwritten law hl.rep ha.2 (fun rs hm => hu rs (List.mem_cons_of_mem _ hm))
    rw [hl.key] at h2
    exact h2.trans h1

/-- **C110** A block of a metatag, at any depth: the statement raises what the block raises, and the database of the metatag, opened again with
its key, has the metatags, the tags and the values that it had at the end of the block. -/
theorem C110_metatag (law : E.Law good) {w₀ : World J} (hw : Start E T reserved key salt w₀) (ops : List (List String × TreeOp ρ J))
    (hops : AllAllowed E good T reserved w₀ ops) (block : Block ρ J) (hblock : block.Allowed E good T reserved (w₀.run E reserved ops))
    (rs : String → ρ) (hrs : ∀ name, good (rs name)) {tree sub : Tree J} {place : List String} :
    let w := w₀.run E reserved ops
    let inner := block.run E reserved (some w.tree) w.disk
    let outer := withBlock E reserved place rs block (some w.tree) w.disk
    inner.2.1 = some tree → tree.at? place = some sub →
    outer.1 = inner.1 ∧
    ∃ depth, ∀ fuel, depth ≤ fuel → ∀ (salts : List String → Bytes) (now₁ : Int),
      ∃ sub', openTree E reserved outer.2.2 now₁ fuel salts sub.node.key = .ok sub' ∧
        (∀ path, sub.at? path = none → sub'.at? path = none) ∧
        ∀ path a, sub.at? path = some a → ∃ a', sub'.at? path = some a' ∧
          a'.node.man.metatags = a.node.man.metatags ∧ a'.node.tags = a.node.tags ∧
          ∀ t, T t → ∀ silent cache now,
            (a'.node.queryTag E outer.2.2 t none silent cache now).1 = (a.node.queryTag E inner.2.2 t none silent cache now).1 := by
  intro w inner outer htree hsub
  obtain ⟨more, h1, h2⟩ := Block.history block w hblock
  have he : inner.2.1 = some (w.run E reserved more).tree := congrArg Prod.fst h2
  have hd : inner.2.2 = (w.run E reserved more).disk := congrArg Prod.snd h2
  have ht : (w.run E reserved more).tree = tree := Option.some.inj (he.symm.trans htree)
  have hrep := (World.run_law law hw.rep (hops.append h1) (covered_start w₀)).1
  rw [World.run_append, show w₀.run E reserved ops = w from rfl, ht, ← hd] at hrep
  have hs := hrep.at hsub
  obtain ⟨s1, _, s3, s4⟩ := hs.save law hrs
  obtain ⟨x1, x2, x3⟩ := Tree.exec_writes (E := E) (reserved := reserved) (disk := inner.2.2) (op := TreeOp.save rs) hsub
  have ho : outer = exitBlock E reserved place rs inner.1 inner.2.1 inner.2.2 := rfl
  rw [htree] at ho
  simp only [exitBlock, x2, x1, TreeOp.run, s1, Except.map] at ho
  refine ⟨by rw [ho], sub.depth, fun fuel hf salts now₁ => ⟨sub.clear, ?_, ?_, ?_⟩⟩
  · rw [ho]
    exact s3.reopen law now₁ fuel salts s4 hf
  · intro path hp
    rw [Tree.at_clear, hp]; rfl
  · intro path a ha
    have ha' : sub.clear.at? path = some a.clear := by rw [Tree.at_clear, ha]; rfl
    refine ⟨a.clear, ha', by rw [Tree.node_clear]; rfl, by rw [Tree.node_clear]; rfl, ?_⟩
    intro t ht' silent cache now
    rw [ho, s3.clear.query law ha' ht', hs.query law ha ht']
    rfl

/-- **C110** does not hold for a block of a metatag whose parent has never been saved: the statement raises what the block raises, but the database,
opened again, is a new one, with nothing in it and another salt, from which it derives other keys for its metatags. -/
theorem C110_metatag_lost (law : E.Law good) {w₀ : World J} (hw : Start E T reserved key salt w₀) (ops : List (List String × TreeOp ρ J))
    (hops : AllAllowed E good T reserved w₀ ops) (hunsaved : Unsaved ops) (block : Block ρ J)
    (hblock : block.Allowed E good T reserved (w₀.run E reserved ops)) (hb : block.Unsaved E reserved (w₀.run E reserved ops))
    (rs : String → ρ) (hrs : ∀ name, good (rs name)) {tree sub : Tree J} {m : String} {place : List String} :
    let w := w₀.run E reserved ops
    let inner := block.run E reserved (some w.tree) w.disk
    let outer := withBlock E reserved (m :: place) rs block (some w.tree) w.disk
    inner.2.1 = some tree → tree.at? (m :: place) = some sub →
    outer.1 = inner.1 ∧
    ∀ fuel (salts : List String → Bytes) (now₁ : Int),
      openTree E reserved outer.2.2 now₁ (fuel + 1) salts key = .ok (.mk ⟨key, ⟨salts [], [], []⟩, []⟩ .nil) := by
  intro w inner outer htree hsub
  refine ⟨(C110_metatag law hw ops hops block hblock rs hrs htree hsub).1, fun fuel salts now₁ => ?_⟩
  obtain ⟨more, h1, hu, h2⟩ := Block.history_unsaved block w hblock hb
  have he : inner.2.1 = some (w.run E reserved more).tree := congrArg Prod.fst h2
  have hd : inner.2.2 = (w.run E reserved more).disk := congrArg Prod.snd h2
  have ht : (w.run E reserved more).tree = tree := Option.some.inj (he.symm.trans htree)
  have hall : AllAllowed E good T reserved w₀ (ops ++ (more ++ [(m :: place, TreeOp.save rs)])) := by
    refine hops.append (AllAllowed.append h1 ⟨⟨sub, ?_, hrs⟩, trivial⟩)
    rw [ht]; exact hsub
  have hnone := run_unwritten law hw.rep hall (fun rs' hm => by
    simp only [List.mem_append, List.mem_singleton, Prod.mk.injEq, reduceCtorEq, false_and, or_false] at hm
    rcases hm with hm | hm
    · exact hunsaved rs' hm
    · exact hu rs' hm)
  have hkey : w₀.tree.node.key = key := by rw [hw.tree]; rfl
  rw [hkey, hw.free _ (.inl rfl), World.run_append, World.run_append, show w₀.run E reserved ops = w from rfl] at hnone
  have ho : outer.2.2 = ((w.run E reserved more).run E reserved [(m :: place, TreeOp.save rs)]).disk := by
    have : outer = exitBlock E reserved (m :: place) rs inner.1 inner.2.1 inner.2.2 := rfl
    rw [this, he, hd]
    rfl
  rw [← ho] at hnone
  have := openNode_new (E := E) (J := J) (disk := outer.2.2) (key := key) (salt := salts []) hw.size hnone now₁
  simp only [openTree, this, bind, Except.bind, unique, openKids]

/-! ### samples -/

/-- A block that changes a value in a metatag, sees what was there, and then raises. -/
def sampleBlock : Block Unit Bool :=
  .call ["a"] (.tags (.set "t" (.json false) true ())) (fun _ =>
    .call ["a"] (.tags (.query "t" none false true 0)) (fun r => if r = .ok (some (.json false)) then .raises .value else .ends))

set_option maxRecDepth 100000 in
theorem sampleBlock_allowed : sampleBlock.Allowed treeEnv (fun _ => True) (fun _ => True) (fun _ => false) (treeStart.run treeEnv (fun _ => false) treeOps) := by
  refine ⟨⟨_, rfl, ⟨trivial, treeEnv_storable _, trivial⟩, by simp⟩, ⟨⟨_, rfl, trivial, by simp⟩, ?_⟩⟩
  dsimp only
  split <;> trivial

set_option maxRecDepth 100000 in
/-- The block raises `ValueError`; the statement raises it too, and the changed value is there afterwards. -/
example :
    let w := treeStart.run treeEnv (fun _ => false) treeOps
    let outer := withBlock treeEnv (fun _ => false) [] (fun _ => ()) sampleBlock (some w.tree) w.disk
    outer.1 = .error .value ∧
    ∃ depth, ∀ fuel, depth ≤ fuel → ∀ (salts : List String → Bytes) (now₁ : Int), ∃ tree',
      openTree treeEnv (fun _ => false) outer.2.2 now₁ fuel salts (List.replicate 64 0) = .ok tree' ∧
      ∃ sub', tree'.at? ["a"] = some sub' ∧ (sub'.node.queryTag treeEnv outer.2.2 "t" none false false 0).1 = .ok (some (.json false)) := by
  intro w outer
  obtain ⟨h1, tree, h2, depth, h3⟩ := C110_saves_partial treeEnv_law treeStart_start treeOps treeOps_allowed sampleBlock sampleBlock_allowed (fun _ => ()) (fun _ => trivial)
  refine ⟨h1.trans rfl, depth, fun fuel hf salts now₁ => ?_⟩
  obtain ⟨tree', h4, _, h5⟩ := h3 fuel hf salts now₁
  cases h2
  obtain ⟨sub', h6, _, _, h7⟩ := h5 ["a"] _ rfl
  exact ⟨tree', h4, sub', h6, (h7 "t" trivial false false 0).trans rfl⟩

example : (Block.delete (fun _ => .ends) : Block Unit Bool).Deletes treeEnv (fun _ => false) (treeStart.run treeEnv (fun _ => false) treeOps) := trivial

/-- A block that leaves a value which JSON cannot represent. -/
example : let block : Block Unit Bool := .call [] (.tags (.set "t" (.json false) true ())) (fun _ => .ends)
    ∃ tree, (block.run partEnv (fun _ => false) (some treeStart.tree) treeStart.disk).2.1 = some tree ∧ tree.at? [] = some tree ∧
      (tree.node.cache.map Prod.fst).Nodup ∧ ("file of t", .json false) ∈ tree.node.cache ∧ encodeValue partEnv (.json false) = .error .type := by
  refine ⟨_, rfl, rfl, ?_, ?_, rfl⟩
  · decide
  · simp [TreeOp.run, Op.run, Node.setTag, Node.filename, partEnv, sampleEnv, Dict.set, treeStart, Tree.node, Tree.exec]

/-- A new metatag, and a block of it that sets a tag. -/
def lostOps : List (List String × TreeOp Unit Bool) := [([], .metatag "a" [1] 0)]
def lostBlock : Block Unit Bool := .call ["a"] (.tags (.set "t" (.json true) true ())) (fun _ => .ends)

set_option maxRecDepth 100000 in
example :
    let w := treeStart.run treeEnv (fun _ => false) lostOps
    let outer := withBlock treeEnv (fun _ => false) ["a"] (fun _ => ()) lostBlock (some w.tree) w.disk
    outer.1 = .ok () ∧ ∀ fuel (salts : List String → Bytes) (now₁ : Int),
      openTree treeEnv (fun _ => false) outer.2.2 now₁ (fuel + 1) salts (List.replicate 64 0) = .ok (.mk ⟨List.replicate 64 0, ⟨salts [], [], []⟩, []⟩ .nil) := by
  have hops : AllAllowed treeEnv (fun _ => True) (fun _ => True) (fun _ => false) treeStart lostOps := by
    have := treeOps_allowed
    exact ⟨this.1, trivial⟩
  obtain ⟨h1, h2⟩ := C110_metatag_lost treeEnv_law treeStart_start lostOps hops (fun rs h => by simp [lostOps] at h) lostBlock
    ⟨⟨_, rfl, ⟨trivial, treeEnv_storable _, trivial⟩, by simp⟩, trivial⟩ ⟨fun _ h => by simp at h, trivial⟩ (fun _ => ()) (fun _ => trivial)
    (m := "a") (place := []) rfl rfl
  exact ⟨h1.trans rfl, h2⟩

end Aiootp.Database
