import Verif.Lemmas.DatabaseRooted
import Verif.Props.DatabaseTree

/-!
C41 and C42 for databases with metatags, saved with `save_database` or with `asave_database`.

`Tree.ASave` says which orders of the files are possible: that of `save_database`, and all those that `gather` and the threads of the
executor leave open in `asave_database`. A crash leaves the files of the first `k` writes of such an order, for any `k`. `reach` is what a
user does afterwards: open the database with its key, and ask for one metatag after the other.
-/

namespace Aiootp.Database

variable {ρ J : Type} {E : Env ρ J} {good : ρ → Prop} {T : String → Prop} {reserved : String → Bool} {key salt : Bytes}

/-- If the manifests on a path can be read and have the right salts then the databases on it are reached. -/
theorem reach_at {disk disk' : Disk} {salt' : Bytes} {now : Int} : ∀ {path : List String} {tree sub : Tree J} {v : TreeView J}, tree.Rep E T reserved disk' v →
    tree.at? path = some sub →
    (∀ q s, q <+: path → tree.at? q = some s → ∃ man, openManifest E disk s.node.key salt' now = .ok man ∧ man.salt = s.node.man.salt) →
    ∃ man, openManifest E disk sub.node.key salt' now = .ok man ∧ man.salt = sub.node.man.salt ∧
      reach E disk salt' now path tree.node.key = .ok (⟨sub.node.key, man, []⟩ : Node J)
  | [], tree, sub, v, h, hs, hq => by
    simp only [Tree.at?, Option.some.injEq] at hs
    subst hs
    obtain ⟨man, h1, h2⟩ := hq [] tree List.nil_prefix rfl
    refine ⟨man, h1, h2, ?_⟩
    simp [reach, openNode, h1, raiseIf, Nat.not_lt.2 h.node.2, bind, Except.bind]
  | m :: path, .mk n kids, sub, v, h, hs, hq => by
    have hlen := h.node.2
    obtain ⟨man, h1, h2⟩ := hq [] (.mk n kids) List.nil_prefix rfl
    simp only [Tree.Rep] at h
    simp only [Tree.at?] at hs
    split at hs
    · cases hs
    · rename_i t ht
      obtain ⟨htk, _, htr⟩ := h.2.2.2.2.2.2.get ht
      obtain ⟨man', g1, g2, g3⟩ := reach_at htr hs (fun q s hp hat => hq (m :: q) s ((List.cons_prefix_cons).2 ⟨rfl, hp⟩) (by simp only [Tree.at?, ht, hat]))
      refine ⟨man', g1, g2, ?_⟩
      rw [← g3, htk]
      simp only [Tree.node] at h1 h2 hlen ⊢
      simp [reach, openNode, h1, raiseIf, Nat.not_lt.2 hlen, bind, Except.bind, h2]

/-! ### C41 -/

/-- **C41** After every history, `asave_database` leaves the same files as `save_database`, whatever the order in which its files are
written. So `C41_reopen` holds for it too. -/
theorem C41_async (law : E.Law good) {w₀ : World J} (hw : Start E T reserved key salt w₀) (ops : List (List String × TreeOp ρ J))
    (hops : AllAllowed E good T reserved w₀ ops) (rs : String → ρ) (hrs : ∀ name, good (rs name)) :
    let w := w₀.run E reserved ops
    ∀ place a ws, w.tree.at? place = some a → a.ASave E rs ws → w.disk.applyAll ws = (w.step E reserved place (.save rs)).disk := by
  intro w place a ws ha hws
  have h : w.tree.Rep E T reserved w.disk _ := (World.run_law law hw.rep hops (covered_start w₀)).1
  have hr := h.at ha
  rw [(hr.agree law hrs).order (hws.writes law hrs hr)]
  show _ = w.disk.applyAll (w.tree.exec E reserved w.disk (.save rs) place).2.2
  rw [(Tree.exec_writes ha).1]
  rfl

/-! ### C42 -/

/-- **C42** After every history, let a save of some database of the tree (and of all below it) be cut off after any number of its files,
in any order that is possible in a synchronous or an asynchronous save. Take any database of the tree such that it and those above it have been
saved at some time before. Then it can be opened from the key of the first database, and it is either as it was before the save, with
the values that were saved then, or it has the tags and the metatags that were to be saved, and each of its tags has the value that was
saved before or the value that was to be saved.

What is missing: databases that have never been saved, see `C42_never_saved`, and files that are cut off themselves, see
`C42_torn_file`. -/
theorem C42_tree_partial (law : E.Law good) {w₀ : World J} (hw : Start E T reserved key salt w₀) (ops : List (List String × TreeOp ρ J))
    (hops : AllAllowed E good T reserved w₀ ops) (rs : String → ρ) (hrs : ∀ name, good (rs name)) :
    let w := w₀.run E reserved ops
    ∀ (place : List String) (a : Tree J) (ws : List Write) (k : Nat) (path : List String) (sub : Tree J),
      w.tree.at? place = some a → a.ASave E rs ws → w.tree.at? path = some sub →
      (∀ q s, q <+: path → w.tree.at? q = some s → w.disk (E.rootName s.node.key) ≠ none) →
      let crashed := w.disk.applyAll (ws.take k)
      let v := TreeView.afterAll (fun _ => View.empty) ops path
      ∀ (salt' : Bytes) (now₁ : Int), ∃ n : Node J, reach E crashed salt' now₁ path key = .ok n ∧
        ((reach E w.disk salt' now₁ path key = .ok n ∧
            ∀ t, T t → ∀ silent cache now, (n.queryTag E crashed t none silent cache now).1 = answer silent (v.saved t)) ∨
          (n.man = sub.node.man ∧
            ∀ t, T t → ∀ silent cache now, (n.queryTag E crashed t none silent cache now).1 = answer silent (v.saved t) ∨
              (n.queryTag E crashed t none silent cache now).1 = answer silent (v.current t))) := by
  intro w place a ws k path sub ha hws hs hsaved crashed v salt' now₁
  obtain ⟨h, _, hkey⟩ := World.run_law law hw.rep hops (covered_start w₀)
  change w.tree.Rep E T reserved w.disk _ at h
  have hkey : w.tree.node.key = key := by rw [hkey, hw.tree]; rfl
  have hroot : w.tree.Rooted E good w.disk := World.run_rooted law hw.rep hops hw.rooted
  have har := h.at ha
  obtain ⟨_, hown, hafter, hasaved⟩ := har.save law hrs
  have hsub : ∀ x ∈ ws.take k, x ∈ (a.save E rs).2 := fun x hx => (hws.writes law hrs har x).1 (List.mem_of_mem_take hx)
  have hagree := har.agree law hrs
  -- each database on a path is untouched, or its manifest is new
  have hdb : ∀ q s, w.tree.at? q = some s →
      (∀ name, Names E T s.node.key s.node.man.salt name → crashed name = w.disk name) ∨
      ((∃ q', q = place ++ q' ∧ a.at? q' = some s) ∧
        crashed (E.rootName s.node.key) = some (E.encrypt (E.manifestKey s.node.key) (rs (E.rootName s.node.key)) (E.dumpManifest s.node.man))) := by
    intro q s hq
    by_cases hp : place <+: q
    · obtain ⟨q', rfl⟩ := hp
      have hs' : a.at? q' = some s := by
        have : ∀ (p : List String) (tree : Tree J), tree.at? p = some a → tree.at? (p ++ q') = a.at? q' := by
          intro p
          induction p with
          | nil => intro tree ht; simp only [Tree.at?, Option.some.injEq] at ht; rw [ht]; rfl
          | cons m p ih =>
            intro tree ht
            cases tree with
            | mk n kids =>
              simp only [Tree.at?] at ht
              split at ht
              · cases ht
              · rename_i t htk
                simp only [List.cons_append, Tree.at?, htk]
                exact ih t ht
        rw [← this place w.tree ha]; exact hq
      by_cases hin : s.node.manifestWrite E (rs (E.rootName s.node.key)) ∈ ws.take k
      · refine .inr ⟨⟨q', rfl, hs'⟩, ?_⟩
        have := hagree.applyAll (ws.take k) w.disk hsub hin
        simp only [Write.name, Node.manifestWrite, Disk.apply, if_true] at this
        exact this
      · refine .inl (fun name hN => applyAll_other _ _ (fun x hx he => ?_))
        exact hws.first law hrs har (List.take_prefix _ _) hs' hin x hx (he ▸ Tree.owns_node hN)
    · exact .inl (fun name hN => applyAll_other _ _ (fun x hx he => h.apart_at ha hq hp (he ▸ hN) (hown x (hsub x hx))))
  have hold : ∀ q s, q <+: path → w.tree.at? q = some s → ∃ man, openManifest E w.disk s.node.key salt' now₁ = .ok man ∧ man.salt = s.node.man.salt := by
    intro q s hq hat
    rcases (hroot.at hat).node with h1 | ⟨r, man, hr, hsound, hsalt, h1⟩
    · exact absurd h1 (hsaved q s hq hat)
    · exact ⟨man, openManifest_put law hsound hr h1 salt' now₁, hsalt⟩
  have hman : ∀ q s, q <+: path → w.tree.at? q = some s → ∃ man, openManifest E crashed s.node.key salt' now₁ = .ok man ∧ man.salt = s.node.man.salt := by
    intro q s hq hat
    rcases hdb q s hat with h1 | ⟨_, h1⟩
    · obtain ⟨man, h2, h3⟩ := hold q s hq hat
      refine ⟨man, ?_, h3⟩
      rw [← h2]
      simp only [openManifest, h1 _ (.inl rfl)]
    · exact ⟨s.node.man, openManifest_put law (h.at hat).node.1.sound (hrs _) h1 salt' now₁, rfl⟩
  obtain ⟨man, h1, h2, h3⟩ := reach_at h hs hman
  rw [hkey] at h3
  refine ⟨_, h3, ?_⟩
  have hsrep := (h.at hs).node.1
  simp only [List.append_nil] at hsrep
  rcases hdb path sub hs with hun | ⟨⟨q', rfl, hq'⟩, hnew⟩
  · refine .inl ⟨?_, ?_⟩
    · obtain ⟨man', g1, g2, g3⟩ := reach_at h hs hold
      rw [hkey] at g3
      rw [g3]
      simp only [openManifest, hun _ (.inl rfl)] at h1 g1
      rw [h1] at g1
      cases g1
      rfl
    · intro t ht silent cache now
      exact query_stored law (n := ⟨sub.node.key, man, []⟩) rfl h2 rfl ((hsrep.stored t ht).congr (hun _ (.inr ⟨t, ht, rfl⟩))) silent cache now
  · have hm : man = sub.node.man := by
      have := openManifest_put law hsrep.sound (hrs _) hnew salt' now₁
      rw [h1] at this
      exact Except.ok.inj this
    refine .inr ⟨hm, ?_⟩
    intro t ht silent cache now
    have hnrep := (hafter.at hq').node.1
    simp only [List.append_nil, TreeView.allSaved] at hnrep
    rcases hagree.mix hsub w.disk (E.fileName sub.node.key sub.node.man.salt t) with hmix | hmix
    · exact .inl (query_stored law (n := ⟨sub.node.key, man, []⟩) rfl h2 rfl ((hsrep.stored t ht).congr hmix) silent cache now)
    · exact .inr (query_stored law (n := ⟨sub.node.key, man, []⟩) rfl h2 rfl ((hnrep.stored t ht).congr hmix) silent cache now)

/-- Two cached tags may be written in either order. -/
example : Tree.ASave treeEnv (fun _ => ()) (.mk ⟨List.replicate 64 0, ⟨[9], [], [("f", "t"), ("g", "u")]⟩, [("f", .bytes [1]), ("g", .bytes [2])]⟩ .nil)
    [.put (treeEnv.rootName (List.replicate 64 0)) (treeEnv.encrypt (List.replicate 64 1) () (treeEnv.dumpManifest ⟨[9], [], [("f", "t"), ("g", "u")]⟩)),
      .put "g" (treeEnv.encrypt (List.replicate 64 2) () [1, 2, 2]), .put "f" (treeEnv.encrypt (List.replicate 64 2) () [1, 2, 1])] :=
  .mk .nil (List.Perm.swap _ _ _) (.right (.right .nil))

set_option maxRecDepth 100000 in
/-- The hypotheses hold for the sample: a second save of the whole tree, and the metatag `c` of the metatag `a`. -/
example : ∃ a ws sub, (treeStart.run treeEnv (fun _ => false) treeOps).tree.at? [] = some a ∧ a.ASave treeEnv (fun _ => ()) ws ∧ ws.length = 4 ∧
    (treeStart.run treeEnv (fun _ => false) treeOps).tree.at? ["a", "c"] = some sub ∧
    ∀ q s, q <+: ["a", "c"] → (treeStart.run treeEnv (fun _ => false) treeOps).tree.at? q = some s →
      (treeStart.run treeEnv (fun _ => false) treeOps).disk (treeEnv.rootName s.node.key) ≠ none := by
  have hall : ∀ q ∈ [[], ["a"], ["a", "c"]], ((treeStart.run treeEnv (fun _ => false) treeOps).tree.at? q).map
      (fun s => ((treeStart.run treeEnv (fun _ => false) treeOps).disk (treeEnv.rootName s.node.key)).isSome) = some true := by decide +kernel
  have h := (World.run_law treeEnv_law treeStart_start.rep treeOps_allowed (covered_start _)).1
  refine ⟨_, _, _, rfl, h.asave (rs := fun _ => ()) treeEnv_law (fun _ => trivial), by decide +kernel, rfl, ?_⟩
  intro q s hq hs hnone
  have hmem : q ∈ [[], ["a"], ["a", "c"]] := by
    match q, hq with
    | [], _ => simp
    | [x], hq => obtain ⟨rfl, _⟩ := (List.cons_prefix_cons).1 hq; simp
    | [x, y], hq =>
      obtain ⟨rfl, hq'⟩ := (List.cons_prefix_cons).1 hq
      obtain ⟨rfl, _⟩ := (List.cons_prefix_cons).1 hq'
      simp
    | x :: y :: z :: r, hq => have := hq.length_le; simp at this
  have := hall q hmem
  rw [hs] at this
  simp only [Option.map_some, hnone] at this
  cases this

end Aiootp.Database
