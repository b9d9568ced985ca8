import Verif.Lemmas.DatabaseSave
import Verif.Spec.DatabaseTree
import Mathlib.Data.List.Basic

/-! Trees of databases: what they keep. -/

namespace Aiootp.Database

variable {ρ J : Type} {E : Env ρ J} {good : ρ → Prop} {T : String → Prop} {reserved : String → Bool}

mutual
/-- The objects and the directory have the values of the view. -/
def Tree.Rep (E : Env ρ J) (T : String → Prop) (reserved : String → Bool) (disk : Disk) : TreeView J → Tree J → Prop
  | v, .mk n kids =>
    Aiootp.Database.Rep E T n.key n.man.salt ⟨n, disk⟩ (v []) ∧ 64 ≤ n.key.length ∧ kids.names = n.man.metatags ∧ n.man.metatags.Nodup ∧
    (∀ name, Names E T n.key n.man.salt name → ¬ kids.Owns E T name) ∧ (∀ m, m ∉ kids.names → ∀ p, v (m :: p) = View.empty) ∧
    kids.Rep E T reserved disk v n.key n.man.salt
def Kids.Rep (E : Env ρ J) (T : String → Prop) (reserved : String → Bool) (disk : Disk) : TreeView J → Bytes → Bytes → Kids J → Prop
  | _, _, _, .nil => True
  | v, key, salt, .cons m t rest =>
    t.node.key = E.metaKey key salt m ∧ reserved m = false ∧ t.Rep E T reserved disk (fun p => v (m :: p)) ∧
    (∀ name, t.Owns E T name → ¬ rest.Owns E T name) ∧ rest.Rep E T reserved disk v key salt
end

/-- The files of tags decide. -/
theorem Rep.disk {key salt : Bytes} {n : Node J} {disk disk' : Disk} {v : View J} (h : Rep E T key salt ⟨n, disk⟩ v)
    (hd : ∀ t, T t → disk' (E.fileName key salt t) = disk (E.fileName key salt t)) : Rep E T key salt ⟨n, disk'⟩ v where
  apart := h.apart
  hkey := h.hkey
  hsalt := h.hsalt
  cached := h.cached
  uncached := h.uncached
  stored := fun t ht => (h.stored t ht).congr (hd t ht)
  cacheNames := h.cacheNames
  fileNames := h.fileNames
  listed := h.listed
  nodup := h.nodup

theorem Apart.names {key salt : Bytes} (h : Apart E T key salt) {name : String} (hn : Names E T key salt name) : name ≠ "0" ∧ name ≠ "1" := by
  rcases hn with rfl | ⟨t, ht, rfl⟩
  · exact h.rootPlain
  · exact h.plain t ht

mutual
theorem Tree.Rep.plain {disk : Disk} : ∀ {tree : Tree J} {v : TreeView J}, tree.Rep E T reserved disk v → ∀ {name}, tree.Owns E T name → name ≠ "0" ∧ name ≠ "1"
  | .mk n kids, v, h, name, ho => by
    simp only [Tree.Rep] at h
    simp only [Tree.Owns] at ho
    rcases ho with ho | ho
    · exact h.1.apart.names ho
    · exact Kids.Rep.plain h.2.2.2.2.2.2 ho
theorem Kids.Rep.plain {disk : Disk} : ∀ {kids : Kids J} {v : TreeView J} {key salt : Bytes}, kids.Rep E T reserved disk v key salt → ∀ {name}, kids.Owns E T name → name ≠ "0" ∧ name ≠ "1"
  | .nil, _, _, _, _, _, ho => by simp [Kids.Owns] at ho
  | .cons m t rest, v, _, _, h, name, ho => by
    simp only [Kids.Rep] at h
    simp only [Kids.Owns] at ho
    rcases ho with ho | ho
    · exact Tree.Rep.plain h.2.2.1 ho
    · exact Kids.Rep.plain h.2.2.2.2 ho
end

mutual
/-- The files of the tree decide. -/
theorem Tree.Rep.disk {disk disk' : Disk} : ∀ {tree : Tree J} {v : TreeView J}, tree.Rep E T reserved disk v →
    (∀ name, tree.Owns E T name → disk' name = disk name) → tree.Rep E T reserved disk' v
  | .mk n kids, v, h, hd => by
    simp only [Tree.Rep] at h ⊢
    simp only [Tree.Owns] at hd
    exact ⟨h.1.disk (fun t ht => hd _ (.inl (.inr ⟨t, ht, rfl⟩))), h.2.1, h.2.2.1, h.2.2.2.1, h.2.2.2.2.1, h.2.2.2.2.2.1,
      Kids.Rep.disk h.2.2.2.2.2.2 (fun name hn => hd name (.inr hn))⟩
theorem Kids.Rep.disk {disk disk' : Disk} : ∀ {kids : Kids J} {v : TreeView J} {key salt : Bytes}, kids.Rep E T reserved disk v key salt →
    (∀ name, kids.Owns E T name → disk' name = disk name) → kids.Rep E T reserved disk' v key salt
  | .nil, _, _, _, _, _ => by simp [Kids.Rep]
  | .cons m t rest, v, _, _, h, hd => by
    simp only [Kids.Rep] at h ⊢
    simp only [Kids.Owns] at hd
    exact ⟨h.1, h.2.1, Tree.Rep.disk h.2.2.1 (fun name hn => hd name (.inl hn)), h.2.2.2.1, Kids.Rep.disk h.2.2.2.2 (fun name hn => hd name (.inr hn))⟩
end

mutual
theorem Tree.Rep.congr {disk : Disk} : ∀ {tree : Tree J} {v w : TreeView J}, tree.Rep E T reserved disk v → (∀ p, w p = v p) → tree.Rep E T reserved disk w
  | .mk n kids, v, w, h, hw => by
    have : w = v := funext hw
    rw [this]; exact h
theorem Kids.Rep.congr {disk : Disk} : ∀ {kids : Kids J} {v w : TreeView J} {key salt : Bytes}, kids.Rep E T reserved disk v key salt →
    (∀ m p, m ∈ kids.names → w (m :: p) = v (m :: p)) → kids.Rep E T reserved disk w key salt
  | .nil, _, _, _, _, _, _ => by simp [Kids.Rep]
  | .cons m t rest, v, w, _, _, h, hw => by
    simp only [Kids.Rep] at h ⊢
    simp only [Kids.names, List.mem_cons] at hw
    exact ⟨h.1, h.2.1, Tree.Rep.congr h.2.2.1 (fun p => hw m p (.inl rfl)), h.2.2.2.1,
      Kids.Rep.congr h.2.2.2.2 (fun m' p hm => hw m' p (.inr hm))⟩
end

/-! ### one of the metatags -/

theorem Kids.get_mem : ∀ {kids : Kids J} {m : String} {t : Tree J}, kids.get m = some t → m ∈ kids.names
  | .nil, _, _, h => by simp [Kids.get] at h
  | .cons m' t' rest, m, t, h => by
    simp only [Kids.get] at h
    simp only [Kids.names, List.mem_cons]
    split at h
    · rename_i he; exact .inl he.symm
    · exact .inr (Kids.get_mem h)

theorem Kids.get_of_mem : ∀ {kids : Kids J} {m : String}, m ∈ kids.names → ∃ t, kids.get m = some t
  | .nil, _, h => by simp [Kids.names] at h
  | .cons m' t' rest, m, h => by
    simp only [Kids.names, List.mem_cons] at h
    simp only [Kids.get]
    by_cases he : m' = m
    · simp [he]
    · simp only [he, if_false]
      exact Kids.get_of_mem (h.resolve_left (fun hm => he hm.symm))

theorem Kids.get_none {kids : Kids J} {m : String} (h : m ∉ kids.names) : kids.get m = none := by
  cases hg : kids.get m with
  | none => rfl
  | some t => exact absurd (Kids.get_mem hg) h

theorem Kids.owns_get : ∀ {kids : Kids J} {m : String} {t : Tree J}, kids.get m = some t → ∀ {name}, t.Owns E T name → kids.Owns E T name
  | .nil, _, _, h => by simp [Kids.get] at h
  | .cons m' t' rest, m, t, h => by
    intro ho
    simp only [Kids.get] at h
    simp only [Kids.Owns]
    split at h
    · cases h; exact .inl ho
    · exact .inr (Kids.owns_get h ho)

theorem Kids.Rep.get {disk : Disk} : ∀ {kids : Kids J} {v : TreeView J} {key salt : Bytes}, kids.Rep E T reserved disk v key salt →
    ∀ {m : String} {t : Tree J}, kids.get m = some t →
    t.node.key = E.metaKey key salt m ∧ reserved m = false ∧ t.Rep E T reserved disk (fun p => v (m :: p))
  | .nil, _, _, _, _, _, _, h => by simp [Kids.get] at h
  | .cons m' t' rest, v, _, _, h, m, t, hg => by
    simp only [Kids.Rep] at h
    simp only [Kids.get] at hg
    split at hg
    · rename_i he; cases hg; subst he; exact ⟨h.1, h.2.1, h.2.2.1⟩
    · exact Kids.Rep.get h.2.2.2.2 hg

/-- Two metatags share no file. -/
theorem Kids.Rep.two {disk : Disk} : ∀ {kids : Kids J} {v : TreeView J} {key salt : Bytes}, kids.Rep E T reserved disk v key salt →
    ∀ {m m' : String} {t t' : Tree J}, kids.get m = some t → kids.get m' = some t' → m ≠ m' → ∀ {name}, t.Owns E T name → ¬ t'.Owns E T name
  | .nil, _, _, _, _, _, _, _, _, h, _, _ => by simp [Kids.get] at h
  | .cons m₀ t₀ rest, v, _, _, h, m, m', t, t', hg, hg', hne => by
    intro ho ho'
    simp only [Kids.Rep] at h
    simp only [Kids.get] at hg hg'
    split at hg
    · rename_i he
      cases hg
      split at hg'
      · rename_i he'; exact hne (he.symm.trans he')
      · exact h.2.2.2.1 _ ho (Kids.owns_get hg' ho')
    · split at hg'
      · cases hg'
        exact h.2.2.2.1 _ ho' (Kids.owns_get hg ho)
      · exact Kids.Rep.two h.2.2.2.2 hg hg' hne ho ho'

theorem Kids.names_put : ∀ {kids : Kids J} {m : String} {t : Tree J}, (kids.put m t).names = kids.names
  | .nil, _, _ => rfl
  | .cons m' t' rest, m, t => by
    simp only [Kids.put]
    split
    · rfl
    · simp only [Kids.names, Kids.names_put]

theorem Kids.owns_put {F : String → Prop} : ∀ {kids : Kids J} {m : String} {t t' : Tree J}, kids.get m = some t →
    (∀ name, t'.Owns E T name → t.Owns E T name ∨ F name) → ∀ {name}, (kids.put m t').Owns E T name → kids.Owns E T name ∨ F name
  | .nil, _, _, _, h, _ => by simp [Kids.get] at h
  | .cons m₀ t₀ rest, m, t, t', hg, hF => by
    intro ho
    simp only [Kids.get] at hg
    simp only [Kids.put] at ho
    simp only [Kids.Owns]
    split at hg
    · rename_i he
      cases hg
      simp only [he, if_true, Kids.Owns] at ho
      rcases ho with ho | ho
      · exact (hF _ ho).imp .inl id
      · exact .inl (.inr ho)
    · rename_i he
      simp only [he, if_false, Kids.Owns] at ho
      rcases ho with ho | ho
      · exact .inl (.inl ho)
      · exact (Kids.owns_put hg hF ho).imp .inr id

/-- One metatag has changed. -/
theorem Kids.Rep.put {F : String → Prop} {disk disk' : Disk} : ∀ {kids : Kids J} {v v' : TreeView J} {key salt : Bytes},
    kids.Rep E T reserved disk v key salt → kids.names.Nodup →
    ∀ {m : String} {t t' : Tree J}, kids.get m = some t →
    t'.Rep E T reserved disk' (fun p => v' (m :: p)) → t'.node.key = t.node.key →
    (∀ name, t'.Owns E T name → t.Owns E T name ∨ F name) → (∀ name, F name → ¬ kids.Owns E T name) →
    (∀ m' p, m' ≠ m → v' (m' :: p) = v (m' :: p)) → (∀ name, kids.Owns E T name → ¬ t.Owns E T name → disk' name = disk name) →
    (kids.put m t').Rep E T reserved disk' v' key salt
  | .nil, _, _, _, _, _, _, _, _, _, h, _, _, _, _, _, _ => by simp [Kids.get] at h
  | .cons m₀ t₀ rest, v, v', key, salt, h, hnd, m, t, t', hg, ht', hkey, hF, hFk, hv, hd => by
    simp only [Kids.Rep] at h
    simp only [Kids.get] at hg
    simp only [Kids.names, List.nodup_cons] at hnd
    simp only [Kids.Owns] at hd hFk
    simp only [Kids.put]
    split at hg
    · rename_i he
      cases hg
      subst he
      simp only [if_true, Kids.Rep]
      refine ⟨hkey ▸ h.1, h.2.1, ht', ?_, ?_⟩
      · intro name ho hr
        rcases hF name ho with ho | ho
        · exact h.2.2.2.1 name ho hr
        · exact hFk name ho (.inr hr)
      · refine (Kids.Rep.congr h.2.2.2.2 (fun m' p hm => ?_)).disk (fun name hn => ?_)
        · exact hv m' p (fun hmm => hnd.1 (hmm ▸ hm))
        · exact hd name (.inr hn) (fun ho => h.2.2.2.1 name ho hn)
    · rename_i he
      simp only [he, if_false, Kids.Rep]
      refine ⟨h.1, h.2.1, ?_, ?_, ?_⟩
      · refine (h.2.2.1.congr (fun p => hv m₀ p he)).disk (fun name hn => hd name (.inl hn) (fun ho => ?_))
        exact h.2.2.2.1 name hn (Kids.owns_get hg ho)
      · intro name ho hr
        rcases Kids.owns_put hg hF hr with hr | hr
        · exact h.2.2.2.1 name ho hr
        · exact hFk name hr (.inl ho)
      · exact Kids.Rep.put h.2.2.2.2 hnd.2 hg ht' hkey hF (fun name hf ho => hFk name hf (.inr ho)) hv (fun name ho hnt => hd name (.inr ho) hnt)

/-! ### saving -/

mutual
/-- The manifests on the disk are those of the objects. -/
def Tree.Saved (E : Env ρ J) (good : ρ → Prop) (disk : Disk) : Tree J → Prop
  | .mk n kids => (∃ r, good r ∧ n.man.Sound ∧ disk (E.rootName n.key) = some (E.encrypt (E.manifestKey n.key) r (E.dumpManifest n.man))) ∧ kids.Saved E good disk
def Kids.Saved (E : Env ρ J) (good : ρ → Prop) (disk : Disk) : Kids J → Prop
  | .nil => True
  | .cons _ t rest => t.Saved E good disk ∧ rest.Saved E good disk
end

mutual
theorem Tree.Saved.disk {disk disk' : Disk} : ∀ {tree : Tree J}, tree.Saved E good disk → (∀ name, tree.Owns E T name → disk' name = disk name) → tree.Saved E good disk'
  | .mk n kids, h, hd => by
    simp only [Tree.Saved] at h ⊢
    simp only [Tree.Owns] at hd
    exact ⟨by rw [hd _ (.inl (.inl rfl))]; exact h.1, Kids.Saved.disk h.2 (fun name hn => hd name (.inr hn))⟩
theorem Kids.Saved.disk {disk disk' : Disk} : ∀ {kids : Kids J}, kids.Saved E good disk → (∀ name, kids.Owns E T name → disk' name = disk name) → kids.Saved E good disk'
  | .nil, _, _ => by simp [Kids.Saved]
  | .cons m t rest, h, hd => by
    simp only [Kids.Saved] at h ⊢
    simp only [Kids.Owns] at hd
    exact ⟨Tree.Saved.disk h.1 (fun name hn => hd name (.inl hn)), Kids.Saved.disk h.2 (fun name hn => hd name (.inr hn))⟩
end

/-- Everything is saved. -/
def TreeView.allSaved (v : TreeView J) : TreeView J := fun q => { v q with saved := (v q).current }

/-- Writes outside of the owned names change nothing there. -/
theorem untouched {ws : List Write} {S : String → Prop} (h : ∀ w ∈ ws, S w.name) (disk : Disk) {name : String} (hn : ¬ S name) :
    disk.applyAll ws name = disk name :=
  applyAll_other ws disk (fun w hw he => hn (he ▸ h w hw))

mutual
theorem Tree.Rep.save (law : E.Law good) {rs : String → ρ} (hrs : ∀ name, good (rs name)) : ∀ {tree : Tree J} {v : TreeView J} {disk : Disk},
    tree.Rep E T reserved disk v →
    (tree.save E rs).1 = .ok () ∧ (∀ w ∈ (tree.save E rs).2, tree.Owns E T w.name) ∧
    tree.Rep E T reserved (disk.applyAll (tree.save E rs).2) v.allSaved ∧ tree.Saved E good (disk.applyAll (tree.save E rs).2)
  | .mk n kids, v, disk, h => by
    simp only [Tree.Rep] at h
    obtain ⟨hn, hlen, hnames, hnd, hsep, hemp, hk⟩ := h
    -- the manifest
    let w := n.manifestWrite E (rs (E.rootName n.key))
    have hwname : w.name = E.rootName n.key := rfl
    have hn1 : Aiootp.Database.Rep E T n.key n.man.salt ⟨n, disk.apply w⟩ (v []) := hn.manifested _
    have hk1 : kids.Rep E T reserved (disk.apply w) v n.key n.man.salt := hk.disk (fun name ho => by
      refine apply_other _ _ (fun he => ?_)
      exact hsep name (.inl (by rw [he, hwname])) ho)
    -- the metatags
    obtain ⟨hkok, hktouch, hk2, hksaved⟩ := Kids.Rep.save law hrs hk1
    have hkeep : ∀ name, Names E T n.key n.man.salt name → (disk.apply w).applyAll (kids.save E rs).2 name = disk.apply w name :=
      fun name hN => untouched hktouch _ (hsep name hN)
    have hn2 : Aiootp.Database.Rep E T n.key n.man.salt ⟨n, (disk.apply w).applyAll (kids.save E rs).2⟩ (v []) :=
      hn1.disk (fun t ht => hkeep _ (.inr ⟨t, ht, rfl⟩))
    -- the tags
    have hget : ∀ p ∈ n.cache, ∃ x, n.cache.get p.1 = some x := fun p hp => Dict.get_of_mem (v := p.2) hp
    obtain ⟨view, htok, hn3, hcur, hold, hnew⟩ := Rep.saveTags law hrs n.cache _ _ hn2 hget
    have httouch := hn2.saveTags_names (rs := rs) n.cache hget
    have hsave : Tree.save E rs (.mk n kids) = (.ok (), w :: ((kids.save E rs).2 ++ (n.saveTags E rs n.cache).2)) := by
      simp only [Tree.save, hkok, htok, w]
    have hdisk : disk.applyAll (w :: ((kids.save E rs).2 ++ (n.saveTags E rs n.cache).2)) =
        ((disk.apply w).applyAll (kids.save E rs).2).applyAll (n.saveTags E rs n.cache).2 := by
      rw [← applyAll_append]; rfl
    rw [hsave]
    simp only [hdisk, true_and]
    have hkids : ∀ name, kids.Owns E T name → ((disk.apply w).applyAll (kids.save E rs).2).applyAll (n.saveTags E rs n.cache).2 name =
        (disk.apply w).applyAll (kids.save E rs).2 name := by
      intro name ho
      refine applyAll_other _ _ (fun x hx he => ?_)
      obtain ⟨t, ht, hxn⟩ := httouch x hx
      exact hsep name (.inr ⟨t, ht, by rw [he, hxn]⟩) ho
    refine ⟨?_, ?_, ?_⟩
    · intro x hx
      simp only [List.mem_cons, List.mem_append] at hx
      simp only [Tree.Owns]
      rcases hx with rfl | hx | hx
      · exact .inl (.inl rfl)
      · exact .inr (hktouch x hx)
      · obtain ⟨t, ht, hxn⟩ := httouch x hx
        exact .inl (.inr ⟨t, ht, hxn⟩)
    · simp only [Tree.Rep]
      refine ⟨?_, hlen, hnames, hnd, hsep, ?_, ?_⟩
      · refine hn3.congr (fun t ht => by simp only [TreeView.allSaved, hcur]) (fun t ht => ?_)
        simp only [TreeView.allSaved]
        cases hc : n.cache.get (E.fileName n.key n.man.salt t) with
        | some x => exact (hnew t ht (Dict.mem_names.2 ⟨x, hc⟩)).symm
        | none =>
          have := hn.uncached t ht hc
          rcases hold t ht with h4 | h4
          · rw [h4]; exact this
          · exact h4.symm
      · intro m hm p
        simp only [TreeView.allSaved, hemp m hm p, View.empty]
      · exact hk2.disk hkids
    · simp only [Tree.Saved]
      refine ⟨⟨rs (E.rootName n.key), hrs _, hn.sound, ?_⟩, hksaved.disk hkids⟩
      rw [applyAll_other, hkeep _ (.inl rfl)]
      · simp [w, Node.manifestWrite, Disk.apply]
      · intro x hx he
        obtain ⟨t, ht, hxn⟩ := httouch x hx
        exact hn.apart.root t ht (by rw [← hxn, ← he])
theorem Kids.Rep.save (law : E.Law good) {rs : String → ρ} (hrs : ∀ name, good (rs name)) : ∀ {kids : Kids J} {v : TreeView J} {key salt : Bytes} {disk : Disk},
    kids.Rep E T reserved disk v key salt →
    (kids.save E rs).1 = .ok () ∧ (∀ w ∈ (kids.save E rs).2, kids.Owns E T w.name) ∧
    kids.Rep E T reserved (disk.applyAll (kids.save E rs).2) v.allSaved key salt ∧ kids.Saved E good (disk.applyAll (kids.save E rs).2)
  | .nil, v, _, _, disk, _ => by simp [Kids.save, Kids.Rep, Kids.Saved]
  | .cons m t rest, v, key, salt, disk, h => by
    simp only [Kids.Rep] at h
    obtain ⟨hkey, hres, ht, hsep, hr⟩ := h
    obtain ⟨h1, h2, h3, h4⟩ := Tree.Rep.save law hrs ht
    have hr1 : rest.Rep E T reserved (disk.applyAll (t.save E rs).2) v key salt :=
      hr.disk (fun name ho => untouched h2 _ (fun hto => hsep name hto ho))
    obtain ⟨g1, g2, g3, g4⟩ := Kids.Rep.save law hrs hr1
    have hkeep : ∀ name, t.Owns E T name → (disk.applyAll (t.save E rs).2).applyAll (rest.save E rs).2 name = disk.applyAll (t.save E rs).2 name :=
      fun name ho => untouched g2 _ (fun hro => hsep name ho hro)
    simp only [Kids.save, h1, g1, applyAll_append]
    refine ⟨trivial, ?_, ?_, ?_⟩
    · intro w hw
      simp only [List.mem_append] at hw
      simp only [Kids.Owns]
      exact hw.imp (h2 w) (g2 w)
    · simp only [Kids.Rep]
      exact ⟨hkey, hres, h3.disk hkeep, hsep, g3⟩
    · simp only [Kids.Saved]
      exact ⟨h4.disk hkeep, g4⟩
end

/-! ### clearing -/

mutual
theorem Tree.owns_clear : ∀ {tree : Tree J} {name}, tree.clear.Owns E T name ↔ tree.Owns E T name
  | .mk n kids, name => by
    simp only [Tree.clear, Tree.Owns, Node.clearCache]
    rw [Kids.owns_clear]
theorem Kids.owns_clear : ∀ {kids : Kids J} {name}, kids.clear.Owns E T name ↔ kids.Owns E T name
  | .nil, _ => Iff.rfl
  | .cons m t rest, name => by
    simp only [Kids.clear, Kids.Owns]
    rw [Tree.owns_clear, Kids.owns_clear]
end

theorem Kids.names_clear : ∀ {kids : Kids J}, kids.clear.names = kids.names
  | .nil => rfl
  | .cons m t rest => by simp only [Kids.clear, Kids.names, Kids.names_clear]

theorem Tree.node_clear : ∀ {tree : Tree J}, tree.clear.node = tree.node.clearCache
  | .mk _ _ => rfl

mutual
theorem Tree.Rep.clear {disk : Disk} : ∀ {tree : Tree J} {v : TreeView J}, tree.Rep E T reserved disk v →
    tree.clear.Rep E T reserved disk (fun q => { v q with current := (v q).saved })
  | .mk n kids, v, h => by
    simp only [Tree.Rep] at h
    obtain ⟨hn, hlen, hnames, hnd, hsep, hemp, hk⟩ := h
    simp only [Tree.clear, Tree.Rep]
    refine ⟨hn.cleared, hlen, by rw [Kids.names_clear]; exact hnames, hnd, fun name hN ho => hsep name hN (Kids.owns_clear.1 ho), ?_, Kids.Rep.clear hk⟩
    intro m hm p
    rw [Kids.names_clear] at hm
    simp only [hemp m hm p, View.empty]
theorem Kids.Rep.clear {disk : Disk} : ∀ {kids : Kids J} {v : TreeView J} {key salt : Bytes}, kids.Rep E T reserved disk v key salt →
    kids.clear.Rep E T reserved disk (fun q => { v q with current := (v q).saved }) key salt
  | .nil, _, _, _, _ => by simp [Kids.clear, Kids.Rep]
  | .cons m t rest, v, _, _, h => by
    simp only [Kids.Rep] at h
    simp only [Kids.clear, Kids.Rep]
    refine ⟨by rw [Tree.node_clear]; exact h.1, h.2.1, Tree.Rep.clear h.2.2.1, fun name ho hr => ?_, Kids.Rep.clear h.2.2.2.2⟩
    exact h.2.2.2.1 name (Tree.owns_clear.1 ho) (Kids.owns_clear.1 hr)
end

/-! ### opening -/

mutual
/-- The depth of a tree. -/
def Tree.depth : Tree J → Nat
  | .mk _ kids => kids.depth + 1
def Kids.depth : Kids J → Nat
  | .nil => 0
  | .cons _ t rest => max t.depth rest.depth
end

theorem unique_nodup : ∀ {l : List String}, l.Nodup → unique l = l
  | [], _ => rfl
  | m :: ms, h => by
    rw [List.nodup_cons] at h
    simp only [unique, h.1, if_false, unique_nodup h.2]

mutual
/-- Opening a saved tree gives its objects, with nothing in the caches. -/
theorem Tree.Rep.reopen (law : E.Law good) {disk : Disk} (now : Int) : ∀ {tree : Tree J} {v : TreeView J} (fuel : Nat) (salts : List String → Bytes),
    tree.Rep E T reserved disk v → tree.Saved E good disk → tree.depth ≤ fuel →
    openTree E reserved disk now fuel salts tree.node.key = .ok tree.clear
  | .mk n kids, v, fuel, salts, h, hs, hf => by
    simp only [Tree.Rep] at h
    obtain ⟨hn, hlen, hnames, hnd, hsep, hemp, hk⟩ := h
    simp only [Tree.Saved] at hs
    obtain ⟨⟨r, hr, hsound, hroot⟩, hks⟩ := hs
    simp only [Tree.depth] at hf
    cases fuel with
    | zero => omega
    | succ fuel =>
      have hopen := openManifest_put law hsound hr hroot (salts []) now
      have hkids := Kids.Rep.reopen law now fuel salts hk hks (by omega)
      simp only [openTree, Tree.node, openNode, hopen, raiseIf, Nat.not_lt.2 hlen, if_false, bind, Except.bind, ← hnames]
      rw [unique_nodup (hnames ▸ hnd)]
      simp only [bind, Except.bind, raiseIf] at hkids
      rw [hkids]
      rfl
theorem Kids.Rep.reopen (law : E.Law good) {disk : Disk} (now : Int) : ∀ {kids : Kids J} {v : TreeView J} {key salt : Bytes} (fuel : Nat) (salts : List String → Bytes),
    kids.Rep E T reserved disk v key salt → kids.Saved E good disk → kids.depth ≤ fuel →
    openKids (fun m => do
      raiseIf (reserved m = true) .attribute
      openTree E reserved disk now fuel (fun p => salts (m :: p)) (E.metaKey key salt m)) kids.names = .ok kids.clear
  | .nil, _, _, _, _, _, _, _, _ => rfl
  | .cons m t rest, v, key, salt, fuel, salts, h, hs, hf => by
    simp only [Kids.Rep] at h
    simp only [Kids.Saved] at hs
    simp only [Kids.depth] at hf
    have ht := Tree.Rep.reopen law now fuel (fun p => salts (m :: p)) h.2.2.1 hs.1 (by omega)
    have hr := Kids.Rep.reopen law now fuel salts h.2.2.2.2 hs.2 (by omega)
    rw [h.1] at ht
    simp only [Kids.names, openKids, h.2.1]
    simp only [bind, Except.bind, raiseIf, Bool.false_eq_true, if_false, ht] at hr ⊢
    rw [hr]
    rfl
end

/-! ### deleting -/

theorem applyAll_unlink : ∀ (ws : List Write) (disk : Disk) (_ : ∀ w ∈ ws, ∃ n, w = .unlink n) {name : String},
    ((∃ w ∈ ws, w.name = name) ∨ disk name = none) → disk.applyAll ws name = none
  | [], disk, _, name, h => by
    rcases h with ⟨w, hw, _⟩ | h
    · cases hw
    · exact h
  | w :: ws, disk, hu, name, h => by
    show (disk.apply w).applyAll ws name = none
    obtain ⟨n, rfl⟩ := hu w List.mem_cons_self
    refine applyAll_unlink ws _ (fun x hx => hu x (List.mem_cons_of_mem _ hx)) ?_
    rcases h with ⟨x, hx, hxn⟩ | h
    · rcases List.mem_cons.1 hx with rfl | hx
      · right; simp only [Write.name] at hxn; simp [Disk.apply, hxn]
      · exact .inl ⟨x, hx, hxn⟩
    · right; simp only [Disk.apply, h]; split <;> rfl

mutual
theorem Tree.delete_unlinks : ∀ (tree : Tree J), ∀ w ∈ tree.delete E, ∃ n, w = .unlink n
  | .mk n kids, w, hw => by
    simp only [Tree.delete, List.mem_append, List.mem_map, List.mem_cons, List.not_mem_nil, or_false] at hw
    rcases hw with (hw | (hw | hw) | ⟨p, _, rfl⟩) | hw
    · exact Kids.delete_unlinks kids w hw
    · exact ⟨_, hw⟩
    · exact ⟨_, hw⟩
    · exact ⟨_, rfl⟩
    · exact ⟨_, hw⟩
theorem Kids.delete_unlinks : ∀ (kids : Kids J), ∀ w ∈ kids.delete E, ∃ n, w = .unlink n
  | .nil, w, hw => by simp [Kids.delete] at hw
  | .cons m t rest, w, hw => by
    simp only [Kids.delete, List.mem_append] at hw
    rcases hw with hw | hw
    · exact Tree.delete_unlinks t w hw
    · exact Kids.delete_unlinks rest w hw
end

mutual
theorem Tree.Rep.delete {disk : Disk} : ∀ {tree : Tree J} {v : TreeView J}, tree.Rep E T reserved disk v →
    (∀ w ∈ tree.delete E, tree.Owns E T w.name ∨ w = .unlink "0" ∨ w = .unlink "1") ∧
    ∀ name, tree.Owns E T name → (∃ w ∈ tree.delete E, w.name = name) ∨ disk name = none
  | .mk n kids, v, h => by
    simp only [Tree.Rep] at h
    obtain ⟨hn, hlen, hnames, hnd, hsep, hemp, hk⟩ := h
    obtain ⟨hk1, hk2⟩ := Kids.Rep.delete hk
    simp only [Tree.delete, Tree.Owns]
    refine ⟨?_, ?_⟩
    · intro w hw
      simp only [List.mem_append, List.mem_map, List.mem_cons, List.not_mem_nil, or_false] at hw
      rcases hw with (hw | (hw | hw) | ⟨p, hp, rfl⟩) | hw
      · exact (hk1 w hw).imp .inr id
      · subst hw; exact .inr (.inl rfl)
      · subst hw; exact .inr (.inr rfl)
      · obtain ⟨ht, he⟩ := hn.fileNames p.1 p.2 ((Dict.mem_iff hn.nodup).1 hp)
        exact .inl (.inl (.inr ⟨p.2, ht, he⟩))
      · subst hw; exact .inl (.inl (.inl rfl))
    · intro name ho
      rcases ho with (rfl | ⟨t, ht, rfl⟩) | ho
      · exact .inl ⟨_, List.mem_append_right _ (List.mem_singleton.2 rfl), rfl⟩
      · have hst := hn.stored t ht
        cases hv : (v []).saved t with
        | none => rw [hv] at hst; exact .inr hst
        | some x =>
          have := hn.listed t ht (.inr (by rw [hv]; rfl))
          refine .inl ⟨.unlink (E.fileName n.key n.man.salt t), ?_, rfl⟩
          refine List.mem_append_left _ (List.mem_append_right _ (List.mem_append_right _ ?_))
          exact List.mem_map.2 ⟨_, (Dict.mem_iff hn.nodup).2 this, rfl⟩
      · refine (hk2 name ho).imp (fun ⟨w, hw, he⟩ => ⟨w, ?_, he⟩) id
        exact List.mem_append_left _ (List.mem_append_left _ hw)
theorem Kids.Rep.delete {disk : Disk} : ∀ {kids : Kids J} {v : TreeView J} {key salt : Bytes}, kids.Rep E T reserved disk v key salt →
    (∀ w ∈ kids.delete E, kids.Owns E T w.name ∨ w = .unlink "0" ∨ w = .unlink "1") ∧
    ∀ name, kids.Owns E T name → (∃ w ∈ kids.delete E, w.name = name) ∨ disk name = none
  | .nil, _, _, _, _ => by simp [Kids.delete, Kids.Owns]
  | .cons m t rest, v, _, _, h => by
    simp only [Kids.Rep] at h
    obtain ⟨h1, h2⟩ := Tree.Rep.delete h.2.2.1
    obtain ⟨g1, g2⟩ := Kids.Rep.delete h.2.2.2.2
    simp only [Kids.delete, Kids.Owns]
    refine ⟨?_, ?_⟩
    · intro w hw
      rcases List.mem_append.1 hw with hw | hw
      · exact (h1 w hw).imp .inl id
      · exact (g1 w hw).imp .inr id
    · intro name ho
      rcases ho with ho | ho
      · exact (h2 name ho).imp (fun ⟨w, hw, he⟩ => ⟨w, List.mem_append_left _ hw, he⟩) id
      · exact (g2 name ho).imp (fun ⟨w, hw, he⟩ => ⟨w, List.mem_append_right _ hw, he⟩) id
end

/-- Nothing is left of a deleted tree. -/
theorem Tree.Rep.deleted {disk : Disk} {tree : Tree J} {v : TreeView J} (h : tree.Rep E T reserved disk v) {name : String} (ho : tree.Owns E T name) :
    disk.applyAll (tree.delete E) name = none :=
  applyAll_unlink _ _ (Tree.delete_unlinks tree) ((Tree.Rep.delete h).2 name ho)

end Aiootp.Database
