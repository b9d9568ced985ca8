import Verif.Lemmas.DatabaseTree

/-! Trees of databases: calls. -/

namespace Aiootp.Database

variable {ρ J : Type} {E : Env ρ J} {good : ρ → Prop} {T : String → Prop} {reserved : String → Bool}

/-! ### calls on the tags of one database -/

theorem queryTag_man (n : Node J) (disk : Disk) (t : String) (ttl : Option Int) (silent cache : Bool) (now : Int) :
    (n.queryTag E disk t ttl silent cache now).2.man = n.man := by
  simp only [Node.queryTag]
  split
  · rfl
  · split
    · rfl
    · rfl
    · split
      · rfl
      · split <;> rfl

theorem loadTags_man (disk : Disk) (silent : Bool) (now : Int) : ∀ (tags : List String) (n : Node J), (n.loadTags E disk silent now tags).2.man = n.man
  | [], _ => rfl
  | t :: tags, n => by
    simp only [Node.loadTags]
    have := queryTag_man (E := E) n disk t none silent true now
    split
    · rename_i n' h
      rw [loadTags_man disk silent now tags, ← this, h]
    · rename_i n' h
      rw [← this, h]

theorem saveTag_man (n : Node J) (t : String) (drop : Bool) (r : ρ) : (n.saveTag E t drop r).2.1.man = n.man := by
  simp only [Node.saveTag]
  split <;> split <;> rfl

theorem Op.run_metatags (n : Node J) (disk : Disk) (op : Op ρ J) : (op.run E n disk).2.1.man.metatags = n.man.metatags := by
  cases op with
  | set t x cache r =>
    simp only [Op.run, Node.setTag]
    split
    · rfl
    · rw [saveTag_man]
  | query t ttl silent cache now => simp only [Op.run, queryTag_man]
  | pop t silent now =>
    simp only [Op.run, Node.popTag]
    split
    · rfl
    · split <;> rfl
  | delItem t => rfl
  | rollback t cache now =>
    simp only [Op.run, Node.rollbackTag]
    split
    · split <;> rename_i h <;> rw [← congrArg (fun x => x.2.man.metatags) h] <;> simp only [queryTag_man]
    · rfl
  | clearCache => rfl
  | saveTag t drop r => simp only [Op.run, saveTag_man]
  | save rs => rfl
  | loadTags silent now => simp only [Op.run, loadTags_man]

theorem saveFile_name {n : Node J} {f : String} {r : ρ} {w : Write} (h : n.saveFile E f r = .ok w) : w.name = f := by
  simp only [Node.saveFile] at h
  split at h
  · cases h
  · obtain ⟨text, _, h⟩ := bind_eq_ok.1 h
    cases h
    rfl

theorem saveTag_names (n : Node J) (t : String) (drop : Bool) (r : ρ) : ∀ w ∈ (n.saveTag E t drop r).2.2, w.name = n.filename E t := by
  intro w hw
  simp only [Node.saveTag] at hw
  split at hw
  · rename_i h
    simp only [List.mem_singleton] at hw
    subst hw
    exact saveFile_name h
  · cases hw
  · cases hw

theorem Op.run_names {n : Node J} {disk : Disk} {op : Op ρ J} (hop : op.Allowed E good T) (hs : ∀ rs, op ≠ .save rs) :
    ∀ w ∈ (op.run E n disk).2.2, ∃ t, T t ∧ w.name = E.fileName n.key n.man.salt t := by
  intro w hw
  cases op with
  | set t x cache r =>
    simp only [Op.run, Node.setTag] at hw
    split at hw
    · cases hw
    · have := saveTag_names _ _ _ _ w hw
      exact ⟨t, hop.1, this⟩
  | query t ttl silent cache now => cases hw
  | pop t silent now =>
    simp only [Op.run, Node.popTag] at hw
    split at hw
    · cases hw
    · simp only [List.mem_singleton] at hw
      subst hw
      exact ⟨t, hop, rfl⟩
  | delItem t =>
    simp only [Op.run, List.mem_singleton] at hw
    subst hw
    exact ⟨t, hop, rfl⟩
  | rollback t cache now => cases hw
  | clearCache => cases hw
  | saveTag t drop r => exact ⟨t, hop.1, saveTag_names _ _ _ _ w hw⟩
  | save rs => exact absurd rfl (hs rs)
  | loadTags silent now => cases hw

/-! ### new and deleted metatags -/

theorem Kids.names_add : ∀ {kids : Kids J} {m : String} {t : Tree J}, (kids.add m t).names = kids.names ++ [m]
  | .nil, _, _ => rfl
  | .cons m' t' rest, m, t => by simp only [Kids.add, Kids.names, Kids.names_add, List.cons_append]

theorem Kids.owns_add : ∀ {kids : Kids J} {m : String} {t : Tree J} {name}, (kids.add m t).Owns E T name ↔ kids.Owns E T name ∨ t.Owns E T name
  | .nil, _, _, _ => by simp [Kids.add, Kids.Owns]
  | .cons m' t' rest, m, t, name => by simp only [Kids.add, Kids.Owns, Kids.owns_add, or_assoc]

theorem Kids.Rep.add {disk : Disk} : ∀ {kids : Kids J} {v : TreeView J} {key salt : Bytes}, kids.Rep E T reserved disk v key salt →
    ∀ {m : String} {t : Tree J}, t.node.key = E.metaKey key salt m → reserved m = false → t.Rep E T reserved disk (fun p => v (m :: p)) →
    (∀ name, t.Owns E T name → ¬ kids.Owns E T name) → (kids.add m t).Rep E T reserved disk v key salt
  | .nil, _, _, _, _, _, _, hk, hr, ht, _ => by
    simp only [Kids.add, Kids.Rep]
    exact ⟨hk, hr, ht, fun _ _ h => h, trivial⟩
  | .cons m' t' rest, v, _, _, h, m, t, hk, hr, ht, hsep => by
    simp only [Kids.Rep] at h
    simp only [Kids.Owns, not_or] at hsep
    simp only [Kids.add, Kids.Rep]
    refine ⟨h.1, h.2.1, h.2.2.1, ?_, Kids.Rep.add h.2.2.2.2 hk hr ht (fun name ho => (hsep name ho).2)⟩
    intro name ho hadd
    rcases Kids.owns_add.1 hadd with hr' | ht'
    · exact h.2.2.2.1 name ho hr'
    · exact (hsep name ht').1 ho

theorem Kids.names_del : ∀ {kids : Kids J} {m : String}, (kids.del m).names = kids.names.filter (fun x => x ≠ m)
  | .nil, _ => rfl
  | .cons m' t' rest, m => by
    simp only [Kids.del, Kids.names]
    by_cases h : m' = m
    · simp [h, Kids.names_del]
    · simp [h, Kids.names, Kids.names_del]

theorem Kids.owns_del : ∀ {kids : Kids J} {m : String} {name}, (kids.del m).Owns E T name → kids.Owns E T name
  | .nil, _, _, h => h
  | .cons m' t' rest, m, name, h => by
    simp only [Kids.del] at h
    simp only [Kids.Owns]
    split at h
    · exact .inr (Kids.owns_del h)
    · simp only [Kids.Owns] at h
      exact h.imp id Kids.owns_del

theorem Kids.owns_del_or : ∀ {kids : Kids J}, kids.names.Nodup → ∀ {m : String} {t : Tree J}, kids.get m = some t → ∀ {name}, kids.Owns E T name →
    t.Owns E T name ∨ (kids.del m).Owns E T name
  | .nil, _, _, _, h, _, _ => by simp [Kids.get] at h
  | .cons m' t' rest, hnd, m, t, hg, name, ho => by
    simp only [Kids.names, List.nodup_cons] at hnd
    simp only [Kids.get] at hg
    simp only [Kids.Owns] at ho
    simp only [Kids.del]
    split at hg
    · rename_i he
      cases hg
      subst he
      simp only [if_true]
      refine ho.imp id (fun ho => ?_)
      have : ∀ (ks : Kids J), m' ∉ ks.names → ks.del m' = ks := by
        intro ks
        induction ks using Kids.rec (motive_1 := fun _ => True) with
        | mk => trivial
        | nil => intro _; rfl
        | cons a b c _ ih =>
          intro hn
          simp only [Kids.names, List.mem_cons, not_or] at hn
          simp only [Kids.del, if_neg (fun h : a = m' => hn.1 h.symm), ih hn.2]
      rw [this rest hnd.1]; exact ho
    · rename_i he
      simp only [he, if_false, Kids.Owns]
      rcases ho with ho | ho
      · exact .inr (.inl ho)
      · exact (Kids.owns_del_or hnd.2 hg ho).imp id .inr

theorem Kids.Rep.del {disk disk' : Disk} : ∀ {kids : Kids J} {v v' : TreeView J} {key salt : Bytes}, kids.Rep E T reserved disk v key salt →
    ∀ {m : String}, (∀ m' p, m' ≠ m → v' (m' :: p) = v (m' :: p)) →
    (∀ name, (kids.del m).Owns E T name → disk' name = disk name) → (kids.del m).Rep E T reserved disk' v' key salt
  | .nil, _, _, _, _, _, _, _, _ => by simp [Kids.del, Kids.Rep]
  | .cons m' t' rest, v, v', _, _, h, m, hv, hd => by
    simp only [Kids.Rep] at h
    simp only [Kids.del] at hd ⊢
    split at hd
    · rename_i he
      simp only [he, if_true]
      exact Kids.Rep.del h.2.2.2.2 hv hd
    · rename_i he
      simp only [Kids.Owns] at hd
      simp only [he, if_false, Kids.Rep]
      refine ⟨h.1, h.2.1, (h.2.2.1.congr (fun p => hv m' p he)).disk (fun name ho => hd name (.inl ho)), ?_,
        Kids.Rep.del h.2.2.2.2 hv (fun name ho => hd name (.inr ho))⟩
      exact fun name ho hr => h.2.2.2.1 name ho (Kids.owns_del hr)

/-- The deleted metatag shares no file with the others. -/
theorem Kids.Rep.del_sep {disk : Disk} : ∀ {kids : Kids J} {v : TreeView J} {key salt : Bytes}, kids.Rep E T reserved disk v key salt →
    kids.names.Nodup → ∀ {m : String} {t : Tree J}, kids.get m = some t → ∀ {name}, (kids.del m).Owns E T name → ¬ t.Owns E T name
  | .nil, _, _, _, _, _, _, _, hg, _, _ => by simp [Kids.get] at hg
  | .cons m' t' rest, v, _, _, h, hnd, m, t, hg, name, ho => by
    intro hto
    simp only [Kids.Rep] at h
    simp only [Kids.names, List.nodup_cons] at hnd
    simp only [Kids.get] at hg
    simp only [Kids.del] at ho
    split at hg
    · rename_i he
      cases hg
      simp only [he, if_true] at ho
      exact h.2.2.2.1 name hto (Kids.owns_del ho)
    · rename_i he
      simp only [he, if_false, Kids.Owns] at ho
      rcases ho with ho | ho
      · exact h.2.2.2.1 name ho (Kids.owns_get hg hto)
      · exact Kids.Rep.del_sep h.2.2.2.2 hnd.2 hg ho hto

/-! ### one call -/

/-- The names of the files that the call adds. -/
def NewNames (E : Env ρ J) (T : String → Prop) (sub : Tree J) (op : TreeOp ρ J) (name : String) : Prop :=
  ∃ tag salt now, op = .metatag tag salt now ∧ tag ∉ sub.node.man.metatags ∧ Names E T (E.metaKey sub.node.key sub.node.man.salt tag) salt name

/-- What a call does to the values, the files and the names. -/
structure StepLaw (E : Env ρ J) (T : String → Prop) (reserved : String → Bool) (disk disk' : Disk) (tree tree' : Tree J) (ws : List Write)
    (v' : TreeView J) (new : String → Prop) : Prop where
  rep : tree'.Rep E T reserved disk' v'
  touch : ∀ w ∈ ws, tree.Owns E T w.name ∨ w = .unlink "0" ∨ w = .unlink "1"
  grow : ∀ name, tree'.Owns E T name → tree.Owns E T name ∨ new name
  gone : ∀ name, tree.Owns E T name → tree'.Owns E T name ∨ disk' name = none
  key : tree'.node.key = tree.node.key
  salt : tree'.node.man.salt = tree.node.man.salt

theorem TreeOp.run_law (law : E.Law good) {disk : Disk} : ∀ {tree : Tree J} {v : TreeView J} (_ : tree.Rep E T reserved disk v) {op : TreeOp ρ J}
    (_ : op.Allowed E good T ⟨tree, disk⟩ []),
    StepLaw E T reserved disk (disk.applyAll (op.run E reserved disk tree).2.2) tree (op.run E reserved disk tree).2.1 (op.run E reserved disk tree).2.2
      (v.after [] op) (NewNames E T tree op)
  | .mk n kids, v, h, op, hop => by
    obtain ⟨sub, hsub, hop⟩ := hop
    simp only [Tree.at?, Option.some.injEq] at hsub
    subst hsub
    have hwhole := h
    simp only [Tree.Rep] at h
    obtain ⟨hn, hlen, hnames, hnd, hsep, hemp, hk⟩ := h
    cases op with
    | tags op =>
      obtain ⟨hop, hns⟩ := hop
      have hstep := hn.step law hop
      have htouch := Op.run_names (n := n) (disk := disk) hop hns
      have hk1 : (op.run E n disk).2.1.key = n.key := hstep.hkey
      have hs1 : (op.run E n disk).2.1.man.salt = n.man.salt := hstep.hsalt
      have hm1 := Op.run_metatags (E := E) n disk op
      simp only [TreeOp.run, Tree.node, Tree.kids]
      refine ⟨?_, ?_, ?_, ?_, hk1, hs1⟩
      · simp only [Tree.Rep, hk1, hs1, hm1]
        refine ⟨by simp only [TreeView.after, if_true]; exact hstep, hlen, hnames, hnd, hsep, ?_, ?_⟩
        · intro m hm p
          simp [TreeView.after, hemp m hm p]
        · refine (hk.congr (fun m p _ => by simp [TreeView.after])).disk (fun name ho => applyAll_other _ _ (fun w hw he => ?_))
          obtain ⟨t, ht, hwn⟩ := htouch w hw
          exact hsep name (.inr ⟨t, ht, by rw [he, hwn]⟩) ho
      · intro w hw
        obtain ⟨t, ht, hwn⟩ := htouch w hw
        simp only [Tree.Owns]
        exact .inl (.inl (.inr ⟨t, ht, hwn⟩))
      · intro name ho
        simp only [Tree.Owns, hk1, hs1] at ho ⊢
        exact .inl ho
      · intro name ho
        simp only [Tree.Owns, hk1, hs1] at ho ⊢
        exact .inl ho
    | save rs =>
      obtain ⟨_, h2, h3, _⟩ := hwhole.save law hop
      exact ⟨h3.congr (fun p => by simp [TreeView.after, TreeView.allSaved]), fun w hw => .inl (h2 w hw), fun _ ho => .inl ho, fun _ ho => .inl ho, rfl, rfl⟩
    | clearAll =>
      refine ⟨hwhole.clear.congr (fun p => by simp [TreeView.after]), by simp [TreeOp.run], fun _ ho => .inl (Tree.owns_clear.1 ho), fun _ ho => .inl (Tree.owns_clear.2 ho), rfl, rfl⟩
    | metatag tag salt now =>
      simp only [TreeOp.run, Tree.metatag]
      have same : ∀ {e : Except Err Unit}, StepLaw E T reserved disk (disk.applyAll []) (.mk n kids) (.mk n kids) [] (v.after [] (TreeOp.metatag (ρ := ρ) tag salt now)) (NewNames E T (.mk n kids) (TreeOp.metatag (ρ := ρ) tag salt now)) :=
        ⟨hwhole, by simp, fun _ ho => .inl ho, fun _ ho => .inl ho, rfl, rfl⟩
      by_cases hres : reserved tag = true
      · simp only [hres, if_true]
        exact same (e := .ok ())
      · simp only [hres, Bool.false_eq_true, if_false]
        by_cases hin : tag ∈ n.man.metatags
        · obtain ⟨t, ht⟩ := Kids.get_of_mem (hnames ▸ hin)
          simp only [ht, hin, if_true]
          exact same (e := .ok ())
        · have hfresh : Fresh E T ⟨.mk n kids, disk⟩ (E.metaKey n.key n.man.salt tag) salt := hop.resolve_left hin
          have hnin : tag ∉ kids.names := hnames ▸ hin
          have hopen : openTree E reserved disk now 1 (fun _ => salt) (E.metaKey n.key n.man.salt tag) = .ok (.mk ⟨E.metaKey n.key n.man.salt tag, ⟨salt, [], []⟩, []⟩ .nil) := by
            have := openNode_new (J := J) (salt := salt) (law.metaKey n.key n.man.salt tag) (hfresh.free _ (.inl rfl)) now
            simp only [openTree, this, bind, Except.bind, unique, openKids]
          simp only [Kids.get_none hnin, hin, if_false, hopen, Disk.applyAll, List.foldl_nil]
          have hown : ∀ name, Tree.Owns E T (.mk (⟨E.metaKey n.key n.man.salt tag, ⟨salt, [], []⟩, []⟩ : Node J) .nil) name ↔ Names E T (E.metaKey n.key n.man.salt tag) salt name := by
            intro name; simp [Tree.Owns, Kids.Owns]
          have hun : ∀ name, Names E T (E.metaKey n.key n.man.salt tag) salt name → ¬ Names E T n.key n.man.salt name ∧ ¬ kids.Owns E T name := by
            intro name hN
            have := hfresh.unowned name hN
            simpa [Tree.Owns] using this
          refine ⟨?_, by simp, ?_, ?_, rfl, rfl⟩
          · simp only [Tree.Rep, Kids.names_add, hnames]
            refine ⟨?_, hlen, trivial, ?_, ?_, ?_, ?_⟩
            · exact ⟨hn.apart, hn.hkey, hn.hsalt, hn.cached, hn.uncached, hn.stored, hn.cacheNames, hn.fileNames, hn.listed, hn.nodup⟩
            · rw [List.nodup_append]
              refine ⟨hnd, List.nodup_cons.2 ⟨List.not_mem_nil, List.nodup_nil⟩, ?_⟩
              intro a ha b hb hab
              rw [List.mem_singleton] at hb
              exact hin (hb ▸ hab ▸ ha)
            · intro name hN ho
              rcases Kids.owns_add.1 ho with ho | ho
              · exact hsep name hN ho
              · exact (hun name ((hown name).1 ho)).1 hN
            · intro m hm p
              simp only [List.mem_append, not_or] at hm
              exact hemp m (hnames ▸ hm.1) p
            · refine hk.add rfl (by simpa using hres) ?_ (fun name ho => (hun name ((hown name).1 ho)).2)
              simp only [Tree.Rep]
              refine ⟨?_, law.metaKey _ _ _, rfl, List.nodup_nil, fun _ _ h => h, fun m _ p => hemp tag hnin _, trivial⟩
              refine (Rep.new (J := J) hfresh.apart (fun t ht => hfresh.free _ (.inr ⟨t, ht, rfl⟩))).congr ?_ ?_ <;> intro t ht <;> simp only [TreeView.after, hemp tag hnin []]
          · intro name ho
            simp only [Tree.Owns] at ho ⊢
            rcases ho with ho | ho
            · exact .inl (.inl ho)
            · rcases Kids.owns_add.1 ho with ho | ho
              · exact .inl (.inr ho)
              · exact .inr ⟨tag, salt, now, rfl, hin, (hown name).1 ho⟩
          · intro name ho
            simp only [Tree.Owns] at ho ⊢
            exact .inl (ho.imp id (fun ho => Kids.owns_add.2 (.inl ho)))
    | deleteMetatag tag =>
      simp only [TreeOp.run, Tree.deleteMetatag]
      by_cases hin : tag ∈ n.man.metatags
      · obtain ⟨t, ht⟩ := Kids.get_of_mem (hnames ▸ hin)
        simp only [hin, if_true, ht]
        obtain ⟨htkey, htres, htrep⟩ := hk.get ht
        have hdel := htrep.delete
        have hndk : kids.names.Nodup := hnames ▸ hnd
        have hkeep : ∀ name, ¬ t.Owns E T name → name ≠ "0" ∧ name ≠ "1" → disk.applyAll (t.delete E) name = disk name := by
          intro name hto hpl
          refine applyAll_other _ _ (fun w hw he => ?_)
          rcases hdel.1 w hw with hw | hw | hw
          · exact hto (he ▸ hw)
          · exact hpl.1 (by rw [he, hw]; rfl)
          · exact hpl.2 (by rw [he, hw]; rfl)
        refine ⟨?_, ?_, ?_, ?_, rfl, rfl⟩
        · simp only [Tree.Rep]
          refine ⟨?_, hlen, ?_, hnd.erase _, fun name hN ho => hsep name hN (Kids.owns_del ho), ?_, ?_⟩
          · have : Aiootp.Database.Rep E T n.key n.man.salt ⟨n, disk.applyAll (t.delete E)⟩ (v []) := by
              refine hn.disk (fun u hu => hkeep _ (fun ho => ?_) (hn.apart.plain u hu))
              exact hsep _ (.inr ⟨u, hu, rfl⟩) (Kids.owns_get ht ho)
            simp only [TreeView.after, List.nil_append, List.prefix_nil, List.cons_ne_nil, if_false]
            exact ⟨this.apart, this.hkey, this.hsalt, this.cached, this.uncached, this.stored, this.cacheNames, this.fileNames, this.listed, this.nodup⟩
          · rw [Kids.names_del, hnames, hnd.erase_eq_filter]
            congr 1
            funext x
            by_cases hx : x = tag <;> simp [hx]
          · intro m hm p
            simp only [TreeView.after, List.nil_append]
            by_cases hmt : m = tag
            · subst hmt
              rw [if_pos]
              exact (List.cons_prefix_cons).2 ⟨rfl, List.nil_prefix⟩
            · rw [Kids.names_del, List.mem_filter] at hm
              rw [if_neg (fun hp => hmt ((List.cons_prefix_cons).1 hp).1.symm)]
              exact hemp m (fun hm' => hm ⟨hm', by simpa using hmt⟩) p
          · refine hk.del (fun m' p hne => ?_) (fun name ho => ?_)
            · simp only [TreeView.after, List.nil_append]
              rw [if_neg (fun hp => hne ((List.cons_prefix_cons).1 hp).1.symm)]
            · exact hkeep name (hk.del_sep hndk ht ho) (hk.plain (Kids.owns_del ho))
        · intro w hw
          refine (hdel.1 w hw).imp (fun ho => ?_) id
          simp only [Tree.Owns]
          exact .inr (Kids.owns_get ht ho)
        · intro name ho
          simp only [Tree.Owns] at ho ⊢
          exact .inl (ho.imp id Kids.owns_del)
        · intro name ho
          simp only [Tree.Owns] at ho ⊢
          rcases ho with ho | ho
          · exact .inl (.inl ho)
          · rcases Kids.owns_del_or hndk ht ho with ho | ho
            · exact .inr (htrep.deleted ho)
            · exact .inl (.inr ho)
      · simp only [hin, if_false]
        refine ⟨hwhole.congr (fun p => ?_), by simp, fun _ ho => .inl ho, fun _ ho => .inl ho, rfl, rfl⟩
        simp only [TreeView.after, List.nil_append]
        split
        · rename_i hp
          obtain ⟨r, rfl⟩ := hp
          exact (hemp tag (hnames ▸ hin) r).symm
        · rfl

/-! ### calls along a path -/

theorem Kids.owns_put_new : ∀ {kids : Kids J} {m : String} {t t' : Tree J}, kids.get m = some t → ∀ {name}, t'.Owns E T name → (kids.put m t').Owns E T name
  | .nil, _, _, _, h, _, _ => by simp [Kids.get] at h
  | .cons m₀ t₀ rest, m, t, t', hg, name, ho => by
    simp only [Kids.get] at hg
    simp only [Kids.put]
    split at hg
    · rename_i he
      simp only [he, if_true, Kids.Owns]
      exact .inl ho
    · rename_i he
      simp only [he, if_false, Kids.Owns]
      exact .inr (Kids.owns_put_new hg ho)

theorem Kids.owns_put_or : ∀ {kids : Kids J}, kids.names.Nodup → ∀ {m : String} {t t' : Tree J}, kids.get m = some t → ∀ {name}, kids.Owns E T name →
    t.Owns E T name ∨ (kids.put m t').Owns E T name
  | .nil, _, _, _, _, h, _, _ => by simp [Kids.get] at h
  | .cons m₀ t₀ rest, hnd, m, t, t', hg, name, ho => by
    simp only [Kids.names, List.nodup_cons] at hnd
    simp only [Kids.get] at hg
    simp only [Kids.Owns] at ho
    simp only [Kids.put]
    split at hg
    · rename_i he
      cases hg
      simp only [he, if_true, Kids.Owns]
      exact ho.imp id .inr
    · rename_i he
      simp only [he, if_false, Kids.Owns]
      rcases ho with ho | ho
      · exact .inr (.inl ho)
      · exact (Kids.owns_put_or hnd.2 hg ho).imp id .inr

theorem Fresh.mono {tree sub : Tree J} {disk : Disk} {key salt : Bytes} (h : Fresh E T ⟨tree, disk⟩ key salt) (hsub : ∀ name, sub.Owns E T name → tree.Owns E T name) :
    Fresh E T ⟨sub, disk⟩ key salt := ⟨h.apart, h.free, fun name hN ho => h.unowned name hN (hsub name ho)⟩

theorem TreeOp.Allowed.kid {n : Node J} {kids : Kids J} {disk : Disk} {m : String} {path : List String} {op : TreeOp ρ J} (h : op.Allowed E good T ⟨.mk n kids, disk⟩ (m :: path)) :
    ∃ t, kids.get m = some t ∧ op.Allowed E good T ⟨t, disk⟩ path := by
  obtain ⟨sub, hsub, hop⟩ := h
  simp only [Tree.at?] at hsub
  split at hsub
  · cases hsub
  · rename_i t ht
    refine ⟨t, ht, sub, hsub, ?_⟩
    cases op with
    | metatag tag salt now =>
      exact hop.imp id (fun hf => hf.mono (fun name ho => by simp only [Tree.Owns]; exact .inr (Kids.owns_get ht ho)))
    | _ => exact hop

theorem after_cons (v : TreeView J) (m : String) (path : List String) (op : TreeOp ρ J) (q : List String) :
    v.after (m :: path) op (m :: q) = TreeView.after (fun p => v (m :: p)) path op q := by
  cases op <;> simp [TreeView.after]

theorem after_cons_other (v : TreeView J) (m : String) (path : List String) (op : TreeOp ρ J) {m' : String} (hne : m' ≠ m) (q : List String) :
    v.after (m :: path) op (m' :: q) = v (m' :: q) := by
  cases op <;> simp [TreeView.after, hne, Ne.symm hne]

theorem after_cons_root (v : TreeView J) (m : String) (path : List String) (op : TreeOp ρ J) : v.after (m :: path) op [] = v [] := by
  cases op <;> simp [TreeView.after]

/-- A call along a path. The new names are those of the object that is called. -/
theorem Tree.exec_law (law : E.Law good) {disk : Disk} {op : TreeOp ρ J} : ∀ {path : List String} {tree sub : Tree J} {v : TreeView J}
    (_ : tree.Rep E T reserved disk v) (_ : op.Allowed E good T ⟨tree, disk⟩ path) (_ : tree.at? path = some sub)
    (_ : ∀ name, NewNames E T sub op name → ¬ tree.Owns E T name),
    StepLaw E T reserved disk (disk.applyAll (tree.exec E reserved disk op path).2.2) tree (tree.exec E reserved disk op path).2.1
      (tree.exec E reserved disk op path).2.2 (v.after path op) (NewNames E T sub op)
  | [], tree, sub, v, h, hop, hsub, _ => by
    simp only [Tree.at?, Option.some.injEq] at hsub
    subst hsub
    exact TreeOp.run_law law h hop
  | m :: path, .mk n kids, sub, v, h, hop, hsub, hnew => by
    have hwhole := h
    obtain ⟨t, ht, hop'⟩ := hop.kid
    simp only [Tree.Rep] at h
    obtain ⟨hn, hlen, hnames, hnd, hsep, hemp, hk⟩ := h
    obtain ⟨htkey, htres, htrep⟩ := hk.get ht
    simp only [Tree.at?, ht] at hsub
    simp only [Tree.Owns, not_or] at hnew
    obtain ⟨hrep, htouch, hgrow, hgone, hkey, hsalt⟩ := Tree.exec_law law htrep hop' hsub (fun name hN ho => (hnew name hN).2 (Kids.owns_get ht ho))
    simp only [Tree.exec, ht]
    have hkeep : ∀ name, ¬ t.Owns E T name → name ≠ "0" ∧ name ≠ "1" → disk.applyAll (t.exec E reserved disk op path).2.2 name = disk name := by
      intro name hto hpl
      refine applyAll_other _ _ (fun w hw he => ?_)
      rcases htouch w hw with hw | hw | hw
      · exact hto (he ▸ hw)
      · exact hpl.1 (by rw [he, hw]; rfl)
      · exact hpl.2 (by rw [he, hw]; rfl)
    have hndk : kids.names.Nodup := hnames ▸ hnd
    refine ⟨?_, ?_, ?_, ?_, rfl, rfl⟩
    · simp only [Tree.Rep, Kids.names_put, after_cons_root]
      refine ⟨?_, hlen, hnames, hnd, ?_, ?_, ?_⟩
      · exact hn.disk (fun u hu => hkeep _ (fun ho => hsep _ (.inr ⟨u, hu, rfl⟩) (Kids.owns_get ht ho)) (hn.apart.plain u hu))
      · intro name hN ho
        rcases Kids.owns_put ht hgrow ho with ho | ho
        · exact hsep name hN ho
        · exact (hnew name ho).1 hN
      · intro m' hm' p
        have hne : m' ≠ m := fun he => hm' (by rw [he]; exact Kids.get_mem ht)
        rw [after_cons_other _ _ _ _ hne]
        exact hemp m' hm' p
      · refine hk.put (F := NewNames E T sub op) hndk ht (hrep.congr (fun p => after_cons v m path op p)) hkey hgrow (fun name hN => (hnew name hN).2)
          (fun m' p hne => after_cons_other v m path op hne p) (fun name ho hnt => hkeep name hnt (hk.plain ho))
    · intro w hw
      refine (htouch w hw).imp (fun ho => ?_) id
      simp only [Tree.Owns]
      exact .inr (Kids.owns_get ht ho)
    · intro name ho
      simp only [Tree.Owns] at ho ⊢
      rcases ho with ho | ho
      · exact .inl (.inl ho)
      · exact (Kids.owns_put ht hgrow ho).imp .inr id
    · intro name ho
      simp only [Tree.Owns] at ho ⊢
      rcases ho with ho | ho
      · exact .inl (.inl ho)
      · rcases Kids.owns_put_or (t' := (t.exec E reserved disk op path).2.1) hndk ht ho with ho | ho
        · exact (hgone name ho).imp (fun ho => .inr (Kids.owns_put_new ht ho)) id
        · exact .inl (.inr ho)

/-! ### histories -/

theorem TreeOp.Allowed.unowned {w : World J} {path : List String} {op : TreeOp ρ J} (hop : op.Allowed E good T w path) {sub : Tree J} (hsub : w.tree.at? path = some sub) :
    ∀ name, NewNames E T sub op name → ¬ w.tree.Owns E T name := by
  rintro name ⟨tag, salt, now, rfl, hnin, hN⟩
  obtain ⟨sub', hsub', hop⟩ := hop
  rw [hsub] at hsub'
  cases hsub'
  exact (hop.resolve_left hnin).unowned name hN

theorem World.step_law (law : E.Law good) {w : World J} {path : List String} {op : TreeOp ρ J} {v : TreeView J} (h : w.tree.Rep E T reserved w.disk v)
    (hop : op.Allowed E good T w path) {sub : Tree J} (hsub : w.tree.at? path = some sub) :
    StepLaw E T reserved w.disk (w.step E reserved path op).disk w.tree (w.step E reserved path op).tree (w.tree.exec E reserved w.disk op path).2.2
      (v.after path op) (NewNames E T sub op) :=
  Tree.exec_law law h hop hsub (hop.unowned hsub)

/-- The files that were not there before are files of the tree. -/
def Covered (E : Env ρ J) (T : String → Prop) (disk₀ : Disk) (w : World J) : Prop :=
  ∀ name, w.disk name ≠ none → disk₀ name ≠ none ∨ w.tree.Owns E T name

theorem Covered.step {disk₀ : Disk} {w : World J} {disk' : Disk} {tree' : Tree J} {ws : List Write} {v' : TreeView J} {new : String → Prop}
    (hc : Covered E T disk₀ w) (h : StepLaw E T reserved w.disk disk' w.tree tree' ws v' new) (hd : disk' = w.disk.applyAll ws) : Covered E T disk₀ ⟨tree', disk'⟩ := by
  intro name hne
  by_cases ho : w.tree.Owns E T name
  · rcases h.gone name ho with h1 | h1
    · exact .inr h1
    · exact absurd h1 hne
  · have key : ∀ (ws : List Write) (disk : Disk), (∀ w' ∈ ws, w.tree.Owns E T w'.name ∨ w' = .unlink "0" ∨ w' = .unlink "1") →
        disk.applyAll ws name = disk name ∨ disk.applyAll ws name = none := by
      intro ws
      induction ws with
      | nil => intro disk _; exact .inl rfl
      | cons x xs ih =>
        intro disk hx
        have hstep : disk.apply x name = disk name ∨ disk.apply x name = none := by
          by_cases hxn : x.name = name
          · rcases hx x List.mem_cons_self with h1 | rfl | rfl
            · exact absurd (hxn ▸ h1) ho
            · simp only [Write.name] at hxn; right; simp [Disk.apply, hxn]
            · simp only [Write.name] at hxn; right; simp [Disk.apply, hxn]
          · exact .inl (apply_other _ _ (fun he => hxn he.symm))
        rcases ih (disk.apply x) (fun w' hw' => hx w' (List.mem_cons_of_mem _ hw')) with h1 | h1
        · exact hstep.imp h1.trans h1.trans
        · exact .inr h1
    rcases key ws w.disk h.touch with h1 | h1
    · refine (hc name ?_).imp id (fun h2 => absurd h2 ho)
      have hne' : disk' name ≠ none := hne
      rw [hd, h1] at hne'
      exact hne'
    · exact absurd (hd ▸ h1) hne

theorem World.run_law (law : E.Law good) {disk₀ : Disk} : ∀ {ops : List (List String × TreeOp ρ J)} {w : World J} {v : TreeView J} (_ : w.tree.Rep E T reserved w.disk v)
    (_ : AllAllowed E good T reserved w ops) (_ : Covered E T disk₀ w),
    (w.run E reserved ops).tree.Rep E T reserved (w.run E reserved ops).disk (v.afterAll ops) ∧ Covered E T disk₀ (w.run E reserved ops) ∧
    (w.run E reserved ops).tree.node.key = w.tree.node.key
  | [], w, v, h, _, hc => ⟨h, hc, rfl⟩
  | (path, op) :: rest, w, v, h, hops, hc => by
    simp only [AllAllowed] at hops
    obtain ⟨sub, hsub, _⟩ := hops.1
    have hl := World.step_law law h hops.1 hsub
    obtain ⟨h1, h2, h3⟩ := World.run_law law hl.rep hops.2 (hc.step hl rfl)
    exact ⟨h1, h2, h3.trans hl.key⟩

/-- The object of each place has the values of that place. -/
theorem Tree.Rep.at {disk : Disk} : ∀ {path : List String} {tree sub : Tree J} {v : TreeView J}, tree.Rep E T reserved disk v → tree.at? path = some sub →
    sub.Rep E T reserved disk (fun p => v (path ++ p))
  | [], tree, sub, v, h, hs => by
    simp only [Tree.at?, Option.some.injEq] at hs
    subst hs
    exact h
  | m :: path, .mk n kids, sub, v, h, hs => by
    simp only [Tree.at?] at hs
    split at hs
    · cases hs
    · rename_i t ht
      simp only [Tree.Rep] at h
      exact (h.2.2.2.2.2.2.get ht).2.2.at hs

theorem Tree.owns_at : ∀ {path : List String} {tree sub : Tree J}, tree.at? path = some sub → ∀ {name}, sub.Owns E T name → tree.Owns E T name
  | [], tree, sub, hs => by
    simp only [Tree.at?, Option.some.injEq] at hs
    subst hs
    exact fun h => h
  | m :: path, .mk n kids, sub, hs => by
    simp only [Tree.at?] at hs
    split at hs
    · cases hs
    · rename_i t ht
      intro ho
      simp only [Tree.Owns]
      exact .inr (Kids.owns_get ht (Tree.owns_at hs ho))

theorem Tree.owns_node : ∀ {tree : Tree J} {name}, Names E T tree.node.key tree.node.man.salt name → tree.Owns E T name
  | .mk n kids, name, h => by
    simp only [Tree.Owns]
    exact .inl h

/-- The database of one place and the databases at and below another place, which is not above it, share no file. -/
theorem Tree.Rep.apart_at {disk : Disk} : ∀ {p q : List String} {tree a b : Tree J} {v : TreeView J}, tree.Rep E T reserved disk v →
    tree.at? p = some a → tree.at? q = some b → ¬ p <+: q → ∀ {name}, Names E T b.node.key b.node.man.salt name → ¬ a.Owns E T name
  | [], q, tree, a, b, v, h, ha, hb, hpq => absurd List.nil_prefix hpq
  | m :: p, [], .mk n kids, a, b, v, h, ha, hb, hpq => by
    intro hN ho
    simp only [Tree.at?, Option.some.injEq] at hb
    subst hb
    simp only [Tree.Rep] at h
    simp only [Tree.at?] at ha
    split at ha
    · cases ha
    · rename_i t ht
      exact h.2.2.2.2.1 _ hN (Kids.owns_get ht (Tree.owns_at ha ho))
  | m :: p, m' :: q, .mk n kids, a, b, v, h, ha, hb, hpq => by
    intro hN ho
    simp only [Tree.Rep] at h
    simp only [Tree.at?] at ha hb
    split at ha
    · cases ha
    · rename_i t ht
      split at hb
      · cases hb
      · rename_i t' ht'
        by_cases hm : m = m'
        · subst hm
          rw [ht] at ht'
          cases ht'
          refine Tree.Rep.apart_at (h.2.2.2.2.2.2.get ht).2.2 ha hb (fun hp => hpq ?_) hN ho
          exact (List.cons_prefix_cons).2 ⟨rfl, hp⟩
        · exact h.2.2.2.2.2.2.two ht ht' hm (Tree.owns_at ha ho) (Tree.owns_at hb (Tree.owns_node hN))

/-! ### the other objects -/

theorem Kids.get_put_same : ∀ {kids : Kids J} {m : String} {t t' : Tree J}, kids.get m = some t → (kids.put m t').get m = some t'
  | .nil, _, _, _, h => by simp [Kids.get] at h
  | .cons m₀ t₀ rest, m, t, t', h => by
    simp only [Kids.get] at h
    simp only [Kids.put]
    split at h
    · rename_i he; simp [he, Kids.get]
    · rename_i he; simp only [he, if_false, Kids.get]; exact Kids.get_put_same h

theorem Kids.get_put_other : ∀ {kids : Kids J} {m m' : String} {t' : Tree J}, m' ≠ m → (kids.put m t').get m' = kids.get m'
  | .nil, _, _, _, _ => rfl
  | .cons m₀ t₀ rest, m, m', t', h => by
    simp only [Kids.put]
    split
    · rename_i he; simp only [Kids.get, he, Ne.symm h, if_false]
    · simp only [Kids.get, Kids.get_put_other h]

theorem Tree.exec_writes {disk : Disk} {op : TreeOp ρ J} : ∀ {path : List String} {tree sub : Tree J}, tree.at? path = some sub →
    (tree.exec E reserved disk op path).2.2 = (op.run E reserved disk sub).2.2 ∧ (tree.exec E reserved disk op path).1 = (op.run E reserved disk sub).1 ∧
    (tree.exec E reserved disk op path).2.1.at? path = some (op.run E reserved disk sub).2.1
  | [], tree, sub, hs => by
    simp only [Tree.at?, Option.some.injEq] at hs
    subst hs
    exact ⟨rfl, rfl, rfl⟩
  | m :: path, .mk n kids, sub, hs => by
    simp only [Tree.at?] at hs
    split at hs
    · cases hs
    · rename_i t ht
      simp only [Tree.exec, ht, Tree.at?, Kids.get_put_same ht]
      exact Tree.exec_writes hs

/-- The objects at places that are not at or below the called one stay. -/
theorem Tree.exec_other {disk : Disk} {op : TreeOp ρ J} : ∀ {p q : List String} {tree a b : Tree J}, tree.at? p = some a → tree.at? q = some b → ¬ p <+: q →
    ∃ b', (tree.exec E reserved disk op p).2.1.at? q = some b' ∧ b'.node = b.node
  | [], q, tree, a, b, ha, hb, hpq => absurd List.nil_prefix hpq
  | m :: p, [], .mk n kids, a, b, ha, hb, hpq => by
    simp only [Tree.at?, Option.some.injEq] at hb
    subst hb
    simp only [Tree.exec]
    split
    · exact ⟨_, rfl, rfl⟩
    · exact ⟨_, rfl, rfl⟩
  | m :: p, m' :: q, .mk n kids, a, b, ha, hb, hpq => by
    simp only [Tree.at?] at ha hb
    split at ha
    · cases ha
    · rename_i t ht
      split at hb
      · cases hb
      · rename_i t' ht'
        by_cases hm : m = m'
        · subst hm
          rw [ht] at ht'
          cases ht'
          simp only [Tree.exec, ht, Tree.at?, Kids.get_put_same ht]
          exact Tree.exec_other ha hb (fun hp => hpq ((List.cons_prefix_cons).2 ⟨rfl, hp⟩))
        · simp only [Tree.exec, ht, Tree.at?, Kids.get_put_other (Ne.symm hm), ht']
          exact ⟨b, hb, rfl⟩

/-- A call on the tags changes one object. -/
theorem Tree.exec_tags_below {disk : Disk} {op : Op ρ J} : ∀ {p q : List String} {tree b : Tree J}, tree.at? (p ++ q) = some b → q ≠ [] →
    (tree.exec E reserved disk (.tags op) p).2.1.at? (p ++ q) = some b
  | [], m :: q, .mk n kids, b, hb, _ => by
    simp only [List.nil_append, Tree.exec, TreeOp.run, Tree.at?] at hb ⊢
    exact hb
  | [], [], _, _, _, hq => absurd rfl hq
  | m :: p, q, .mk n kids, b, hb, hq => by
    simp only [List.cons_append, Tree.at?] at hb
    split at hb
    · cases hb
    · rename_i t ht
      simp only [Tree.exec, ht, List.cons_append, Tree.at?, Kids.get_put_same ht]
      exact Tree.exec_tags_below hb hq

/-! ### new databases -/

theorem Start.tree {key salt : Bytes} {w : World J} (h : Start E T reserved key salt w) : w.tree = .mk ⟨key, ⟨salt, [], []⟩, []⟩ .nil := by
  obtain ⟨now, fuel, ho⟩ := h.opened
  have := openNode_new (J := J) (salt := salt) h.size (h.free _ (.inl rfl)) now
  simp only [openTree, this, bind, Except.bind, unique, openKids, Except.ok.injEq] at ho
  exact ho.symm

theorem Start.rep {key salt : Bytes} {w : World J} (h : Start E T reserved key salt w) : w.tree.Rep E T reserved w.disk (fun _ => View.empty) := by
  rw [h.tree]
  simp only [Tree.Rep]
  exact ⟨Rep.new h.apart (fun t ht => h.free _ (.inr ⟨t, ht, rfl⟩)), h.size, rfl, List.nodup_nil, fun _ _ h => h, fun _ _ _ => trivial, trivial⟩

theorem covered_start (w : World J) : Covered E T w.disk w := fun _ h => .inl h

theorem Tree.at_clear : ∀ {path : List String} {tree : Tree J}, tree.clear.at? path = (tree.at? path).map Tree.clear
  | [], _ => rfl
  | m :: path, .mk n kids => by
    simp only [Tree.clear, Tree.at?]
    have : ∀ (ks : Kids J), ks.clear.get m = (ks.get m).map Tree.clear := by
      intro ks
      induction ks using Kids.rec (motive_1 := fun _ => True) with
      | mk => trivial
      | nil => rfl
      | cons a b c _ ih =>
        simp only [Kids.clear, Kids.get]
        split
        · rfl
        · exact ih
    rw [this]
    cases kids.get m with
    | none => rfl
    | some t => exact Tree.at_clear

/-- Queries of the object of one place give the values of that place. -/
theorem Tree.Rep.query (law : E.Law good) {disk : Disk} {tree : Tree J} {v : TreeView J} (h : tree.Rep E T reserved disk v) {path : List String} {sub : Tree J}
    (hs : tree.at? path = some sub) {t : String} (ht : T t) (silent cache : Bool) (now : Int) :
    (sub.node.queryTag E disk t none silent cache now).1 = answer silent ((v path).current t) := by
  have h := h.at hs
  cases sub with
  | mk n kids =>
    simp only [Tree.Rep, List.append_nil] at h
    have := (query_result law h.1 ht none silent cache now).2.2.1 rfl
    simp only [Tree.node]
    rw [this]
    cases (v path).current t <;> rfl

end Aiootp.Database
