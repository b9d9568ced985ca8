import Verif.Lemmas.DatabaseAsync

/-! The manifest of each database of a tree is missing, or it is one that the database wrote. -/

namespace Aiootp.Database

variable {ρ J : Type} {E : Env ρ J} {good : ρ → Prop} {T : String → Prop} {reserved : String → Bool}

/-- The file of the manifest is missing, or it has a manifest with the salt of the database. -/
def RootOk (E : Env ρ J) (good : ρ → Prop) (disk : Disk) (key salt : Bytes) : Prop :=
  disk (E.rootName key) = none ∨
    ∃ r man, good r ∧ man.Sound ∧ man.salt = salt ∧ disk (E.rootName key) = some (E.encrypt (E.manifestKey key) r (E.dumpManifest man))

theorem RootOk.disk {disk disk' : Disk} {key salt : Bytes} (h : RootOk E good disk key salt) (hd : disk' (E.rootName key) = disk (E.rootName key)) :
    RootOk E good disk' key salt := by
  simp only [RootOk, hd]; exact h

mutual
def Tree.Rooted (E : Env ρ J) (good : ρ → Prop) (disk : Disk) : Tree J → Prop
  | .mk n kids => RootOk E good disk n.key n.man.salt ∧ kids.Rooted E good disk
def Kids.Rooted (E : Env ρ J) (good : ρ → Prop) (disk : Disk) : Kids J → Prop
  | .nil => True
  | .cons _ t rest => t.Rooted E good disk ∧ rest.Rooted E good disk
end

mutual
theorem Tree.Rooted.disk {disk disk' : Disk} : ∀ {tree : Tree J}, tree.Rooted E good disk → (∀ name, tree.Owns E T name → disk' name = disk name) → tree.Rooted E good disk'
  | .mk n kids, h, hd => by
    simp only [Tree.Rooted] at h ⊢
    simp only [Tree.Owns] at hd
    exact ⟨h.1.disk (hd _ (.inl (.inl rfl))), Kids.Rooted.disk h.2 (fun name hn => hd name (.inr hn))⟩
theorem Kids.Rooted.disk {disk disk' : Disk} : ∀ {kids : Kids J}, kids.Rooted E good disk → (∀ name, kids.Owns E T name → disk' name = disk name) → kids.Rooted E good disk'
  | .nil, _, _ => by simp [Kids.Rooted]
  | .cons m t rest, h, hd => by
    simp only [Kids.Rooted] at h ⊢
    simp only [Kids.Owns] at hd
    exact ⟨Tree.Rooted.disk h.1 (fun name hn => hd name (.inl hn)), Kids.Rooted.disk h.2 (fun name hn => hd name (.inr hn))⟩
end

mutual
theorem Tree.Saved.rooted {disk : Disk} : ∀ {tree : Tree J}, tree.Saved E good disk → tree.Rooted E good disk
  | .mk n kids, h => by
    simp only [Tree.Saved] at h
    simp only [Tree.Rooted]
    obtain ⟨⟨r, hr, hm, hd⟩, hk⟩ := h
    exact ⟨.inr ⟨r, n.man, hr, hm, rfl, hd⟩, Kids.Saved.rooted hk⟩
theorem Kids.Saved.rooted {disk : Disk} : ∀ {kids : Kids J}, kids.Saved E good disk → kids.Rooted E good disk
  | .nil, _ => by simp [Kids.Rooted]
  | .cons m t rest, h => by
    simp only [Kids.Saved] at h
    simp only [Kids.Rooted]
    exact ⟨Tree.Saved.rooted h.1, Kids.Saved.rooted h.2⟩
end

mutual
theorem Tree.Rooted.clear {disk : Disk} : ∀ {tree : Tree J}, tree.Rooted E good disk → tree.clear.Rooted E good disk
  | .mk n kids, h => by
    simp only [Tree.Rooted, Tree.clear] at h ⊢
    exact ⟨h.1, Kids.Rooted.clear h.2⟩
theorem Kids.Rooted.clear {disk : Disk} : ∀ {kids : Kids J}, kids.Rooted E good disk → kids.clear.Rooted E good disk
  | .nil, _ => by simp [Kids.Rooted, Kids.clear]
  | .cons m t rest, h => by
    simp only [Kids.Rooted, Kids.clear] at h ⊢
    exact ⟨Tree.Rooted.clear h.1, Kids.Rooted.clear h.2⟩
end

theorem Kids.Rooted.get {disk : Disk} : ∀ {kids : Kids J}, kids.Rooted E good disk → ∀ {m : String} {t : Tree J}, kids.get m = some t → t.Rooted E good disk
  | .nil, _, _, _, h => by simp [Kids.get] at h
  | .cons m' t' rest, h, m, t, hg => by
    simp only [Kids.Rooted] at h
    simp only [Kids.get] at hg
    split at hg
    · cases hg; exact h.1
    · exact Kids.Rooted.get h.2 hg

theorem Kids.Rooted.add {disk : Disk} : ∀ {kids : Kids J}, kids.Rooted E good disk → ∀ {m : String} {t : Tree J}, t.Rooted E good disk → (kids.add m t).Rooted E good disk
  | .nil, _, _, _, ht => by simp only [Kids.add, Kids.Rooted]; exact ⟨ht, trivial⟩
  | .cons m' t' rest, h, m, t, ht => by
    simp only [Kids.Rooted] at h
    simp only [Kids.add, Kids.Rooted]
    exact ⟨h.1, Kids.Rooted.add h.2 ht⟩

theorem Kids.Rooted.del {disk : Disk} : ∀ {kids : Kids J}, kids.Rooted E good disk → ∀ {m : String}, (kids.del m).Rooted E good disk
  | .nil, _, _ => by simp [Kids.del, Kids.Rooted]
  | .cons m' t' rest, h, m => by
    simp only [Kids.Rooted] at h
    simp only [Kids.del]
    split
    · exact Kids.Rooted.del h.2
    · simp only [Kids.Rooted]; exact ⟨h.1, Kids.Rooted.del h.2⟩

theorem Kids.Rooted.put {disk disk' : Disk} : ∀ {kids : Kids J} {v : TreeView J} {key salt : Bytes}, kids.Rep E T reserved disk v key salt → kids.Rooted E good disk →
    ∀ {m : String} {t t' : Tree J}, kids.get m = some t → t'.Rooted E good disk' → (∀ name, kids.Owns E T name → ¬ t.Owns E T name → disk' name = disk name) →
    (kids.put m t').Rooted E good disk'
  | .nil, _, _, _, _, _, _, _, _, hg, _, _ => by simp [Kids.get] at hg
  | .cons m₀ t₀ rest, v, _, _, hr, h, m, t, t', hg, ht', hd => by
    simp only [Kids.Rep] at hr
    simp only [Kids.Rooted] at h
    simp only [Kids.get] at hg
    simp only [Kids.Owns] at hd
    simp only [Kids.put]
    split at hg
    · rename_i he
      cases hg
      simp only [he, if_true, Kids.Rooted]
      exact ⟨ht', h.2.disk (fun name ho => hd name (.inr ho) (fun hto => hr.2.2.2.1 name hto ho))⟩
    · rename_i he
      simp only [he, if_false, Kids.Rooted]
      exact ⟨h.1.disk (fun name ho => hd name (.inl ho) (fun hto => hr.2.2.2.1 name ho (Kids.owns_get hg hto))),
        Kids.Rooted.put hr.2.2.2.2 h.2 hg ht' (fun name ho hnt => hd name (.inr ho) hnt)⟩

theorem TreeOp.run_rooted (law : E.Law good) {disk : Disk} : ∀ {tree : Tree J} {v : TreeView J} (_ : tree.Rep E T reserved disk v) {op : TreeOp ρ J}
    (_ : op.Allowed E good T ⟨tree, disk⟩ []) (_ : tree.Rooted E good disk),
    (op.run E reserved disk tree).2.1.Rooted E good (disk.applyAll (op.run E reserved disk tree).2.2)
  | .mk n kids, v, h, op, hop, hro => by
    have hl := TreeOp.run_law law h hop
    obtain ⟨sub, hsub, hop⟩ := hop
    simp only [Tree.at?, Option.some.injEq] at hsub
    subst hsub
    have hwhole := h
    have hro' := hro
    simp only [Tree.Rep] at h
    simp only [Tree.Rooted] at hro
    obtain ⟨hn, hlen, hnames, hnd, hsep, hemp, hk⟩ := h
    cases op with
    | tags op =>
      obtain ⟨hop, hns⟩ := hop
      have htouch := Op.run_names (n := n) (disk := disk) hop hns
      simp only [TreeOp.run, Tree.node, Tree.kids, Tree.Rooted]
      have hk1 : (op.run E n disk).2.1.key = n.key := (hn.step law hop).hkey
      have hs1 : (op.run E n disk).2.1.man.salt = n.man.salt := (hn.step law hop).hsalt
      refine ⟨?_, ?_⟩
      · rw [hk1, hs1]
        refine hro.1.disk (applyAll_other _ _ (fun w hw he => ?_))
        obtain ⟨t, ht, hwn⟩ := htouch w hw
        exact hn.apart.root t ht (by rw [he, hwn])
      · refine hro.2.disk (T := T) (fun name ho => applyAll_other _ _ (fun w hw he => ?_))
        obtain ⟨t, ht, hwn⟩ := htouch w hw
        exact hsep name (.inr ⟨t, ht, by rw [he, hwn]⟩) ho
    | save rs => exact (hwhole.save law hop).2.2.2.rooted
    | clearAll => exact hro'.clear
    | metatag tag salt now =>
      simp only [TreeOp.run, Tree.metatag]
      by_cases hres : reserved tag = true
      · simp only [hres, if_true]
        exact hro'
      · simp only [hres, Bool.false_eq_true, if_false]
        by_cases hin : tag ∈ n.man.metatags
        · obtain ⟨t, ht⟩ := Kids.get_of_mem (hnames ▸ hin)
          simp only [ht, hin, if_true]
          exact hro'
        · have hfresh : Fresh E T ⟨.mk n kids, disk⟩ (E.metaKey n.key n.man.salt tag) salt := hop.resolve_left hin
          have hnin : tag ∉ kids.names := hnames ▸ hin
          have hopen : openTree E reserved disk now 1 (fun _ => salt) (E.metaKey n.key n.man.salt tag) = .ok (.mk ⟨E.metaKey n.key n.man.salt tag, ⟨salt, [], []⟩, []⟩ .nil) := by
            have := openNode_new (J := J) (salt := salt) (law.metaKey n.key n.man.salt tag) (hfresh.free _ (.inl rfl)) now
            simp only [openTree, this, bind, Except.bind, unique, openKids]
          simp only [Kids.get_none hnin, hin, if_false, hopen, Disk.applyAll, List.foldl_nil, Tree.Rooted]
          refine ⟨hro.1, hro.2.add ?_⟩
          simp only [Tree.Rooted, Kids.Rooted, and_true]
          exact .inl (hfresh.free _ (.inl rfl))
    | deleteMetatag tag =>
      by_cases hin : tag ∈ n.man.metatags
      · obtain ⟨t, ht⟩ := Kids.get_of_mem (hnames ▸ hin)
        simp only [TreeOp.run, Tree.deleteMetatag, hin, if_true, ht, Tree.Rooted]
        obtain ⟨htkey, htres, htrep⟩ := hk.get ht
        have hkeep : ∀ name, ¬ t.Owns E T name → name ≠ "0" ∧ name ≠ "1" → disk.applyAll (t.delete E) name = disk name := by
          intro name hto hpl
          refine applyAll_other _ _ (fun w hw he => ?_)
          rcases htrep.delete.1 w hw with hw | hw | hw
          · exact hto (he ▸ hw)
          · exact hpl.1 (by rw [he, hw]; rfl)
          · exact hpl.2 (by rw [he, hw]; rfl)
        refine ⟨hro.1.disk (hkeep _ (fun ho => hsep _ (.inl rfl) (Kids.owns_get ht ho)) hn.apart.rootPlain), ?_⟩
        exact hro.2.del.disk (T := T) (fun name ho => hkeep name (hk.del_sep (hnames ▸ hnd) ht ho) (hk.plain (Kids.owns_del ho)))
      · simp only [TreeOp.run, Tree.deleteMetatag, hin, if_false]
        exact hro'

theorem Tree.exec_rooted (law : E.Law good) {disk : Disk} {op : TreeOp ρ J} : ∀ {path : List String} {tree sub : Tree J} {v : TreeView J}
    (_ : tree.Rep E T reserved disk v) (_ : op.Allowed E good T ⟨tree, disk⟩ path) (_ : tree.at? path = some sub)
    (_ : ∀ name, NewNames E T sub op name → ¬ tree.Owns E T name) (_ : tree.Rooted E good disk),
    (tree.exec E reserved disk op path).2.1.Rooted E good (disk.applyAll (tree.exec E reserved disk op path).2.2)
  | [], tree, sub, v, h, hop, hsub, _, hro => TreeOp.run_rooted law h hop hro
  | m :: path, .mk n kids, sub, v, h, hop, hsub, hnew, hro => by
    obtain ⟨t, ht, hop'⟩ := hop.kid
    simp only [Tree.Rep] at h
    obtain ⟨hn, hlen, hnames, hnd, hsep, hemp, hk⟩ := h
    obtain ⟨htkey, htres, htrep⟩ := hk.get ht
    simp only [Tree.at?, ht] at hsub
    simp only [Tree.Owns, not_or] at hnew
    simp only [Tree.Rooted] at hro
    have hnew' : ∀ name, NewNames E T sub op name → ¬ t.Owns E T name := fun name hN ho => (hnew name hN).2 (Kids.owns_get ht ho)
    have hl := Tree.exec_law law htrep hop' hsub hnew'
    have hr := Tree.exec_rooted law htrep hop' hsub hnew' (hro.2.get ht)
    simp only [Tree.exec, ht, Tree.Rooted]
    have hkeep : ∀ name, ¬ t.Owns E T name → name ≠ "0" ∧ name ≠ "1" → disk.applyAll (t.exec E reserved disk op path).2.2 name = disk name := by
      intro name hto hpl
      refine applyAll_other _ _ (fun w hw he => ?_)
      rcases hl.touch w hw with hw | hw | hw
      · exact hto (he ▸ hw)
      · exact hpl.1 (by rw [he, hw]; rfl)
      · exact hpl.2 (by rw [he, hw]; rfl)
    refine ⟨hro.1.disk (hkeep _ (fun ho => hsep _ (.inl rfl) (Kids.owns_get ht ho)) hn.apart.rootPlain), ?_⟩
    exact Kids.Rooted.put hk hro.2 ht hr (fun name ho hnt => hkeep name hnt (hk.plain ho))

theorem World.run_rooted (law : E.Law good) : ∀ {ops : List (List String × TreeOp ρ J)} {w : World J} {v : TreeView J} (_ : w.tree.Rep E T reserved w.disk v)
    (_ : AllAllowed E good T reserved w ops) (_ : w.tree.Rooted E good w.disk),
    (w.run E reserved ops).tree.Rooted E good (w.run E reserved ops).disk
  | [], w, v, h, _, hr => hr
  | (path, op) :: rest, w, v, h, hops, hr => by
    simp only [AllAllowed] at hops
    obtain ⟨sub, hsub, _⟩ := hops.1
    have hl := World.step_law law h hops.1 hsub
    exact World.run_rooted (w := w.step E reserved path op) law hl.rep hops.2 (Tree.exec_rooted law h hops.1 hsub (hops.1.unowned hsub) hr)

theorem Start.rooted {key salt : Bytes} {w : World J} (h : Start E T reserved key salt w) : w.tree.Rooted E good w.disk := by
  rw [h.tree]
  simp only [Tree.Rooted, Kids.Rooted, and_true]
  exact .inl (h.free _ (.inl rfl))

theorem Tree.Rooted.at {disk : Disk} : ∀ {path : List String} {tree sub : Tree J}, tree.Rooted E good disk → tree.at? path = some sub → sub.Rooted E good disk
  | [], tree, sub, h, hs => by
    simp only [Tree.at?, Option.some.injEq] at hs
    subst hs
    exact h
  | m :: path, .mk n kids, sub, h, hs => by
    simp only [Tree.at?] at hs
    split at hs
    · cases hs
    · rename_i t ht
      simp only [Tree.Rooted] at h
      exact (h.2.get ht).at hs

theorem Tree.Rooted.node {disk : Disk} : ∀ {tree : Tree J}, tree.Rooted E good disk → RootOk E good disk tree.node.key tree.node.man.salt
  | .mk n kids, h => by simp only [Tree.Rooted] at h; exact h.1

theorem Tree.Rep.node {disk : Disk} : ∀ {tree : Tree J} {v : TreeView J}, tree.Rep E T reserved disk v →
    Aiootp.Database.Rep E T tree.node.key tree.node.man.salt ⟨tree.node, disk⟩ (v []) ∧ 64 ≤ tree.node.key.length
  | .mk n kids, v, h => by simp only [Tree.Rep] at h; exact ⟨h.1, h.2.1⟩

end Aiootp.Database
