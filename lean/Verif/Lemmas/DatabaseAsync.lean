import Verif.Lemmas.DatabaseTreeStep
import Verif.Model.DatabaseAsync

/-! Saves whose files are written in any order, and what a crash in them leaves. -/

namespace Aiootp.Database

variable {ρ J : Type} {E : Env ρ J} {good : ρ → Prop} {T : String → Prop} {reserved : String → Bool}

/-! ### lists of writes -/

theorem Merge.mem {α : Type} {a b c : List α} (h : Merge a b c) {x : α} : x ∈ c ↔ x ∈ a ∨ x ∈ b := by
  induction h with
  | nil => simp
  | left _ ih => simp [ih, or_assoc]
  | right _ ih => simp only [List.mem_cons, ih]; exact ⟨fun h => h.elim (fun h => .inr (.inl h)) (fun h => h.imp id .inr), fun h => h.elim (fun h => .inr (.inl h)) (fun h => h.elim .inl (fun h => .inr (.inr h)))⟩

theorem Merge.append {α : Type} : ∀ (a b : List α), Merge a b (a ++ b)
  | [], [] => .nil
  | [], x :: b => .right (Merge.append [] b)
  | x :: a, b => .left (Merge.append a b)

/-- The beginning of a merge is a merge of beginnings. -/
theorem Merge.prefix {α : Type} {a b c : List α} (h : Merge a b c) : ∀ {us : List α}, us <+: c → ∃ a' b', a' <+: a ∧ b' <+: b ∧ Merge a' b' us := by
  induction h with
  | nil => intro us hus; rw [List.prefix_nil] at hus; subst hus; exact ⟨[], [], List.nil_prefix, List.nil_prefix, .nil⟩
  | @left x a b c _ ih =>
    intro us hus
    cases us with
    | nil => exact ⟨[], [], List.nil_prefix, List.nil_prefix, .nil⟩
    | cons y us =>
      obtain ⟨rfl, hus'⟩ := List.cons_prefix_cons.1 hus
      obtain ⟨a', b', ha, hb, hm⟩ := ih hus'
      exact ⟨y :: a', b', List.cons_prefix_cons.2 ⟨rfl, ha⟩, hb, .left hm⟩
  | @right x a b c _ ih =>
    intro us hus
    cases us with
    | nil => exact ⟨[], [], List.nil_prefix, List.nil_prefix, .nil⟩
    | cons y us =>
      obtain ⟨rfl, hus'⟩ := List.cons_prefix_cons.1 hus
      obtain ⟨a', b', ha, hb, hm⟩ := ih hus'
      exact ⟨a', y :: b', ha, List.cons_prefix_cons.2 ⟨rfl, hb⟩, .right hm⟩

/-- Writes to one file are the same. -/
def Agree (ws : List Write) : Prop := ∀ x ∈ ws, ∀ y ∈ ws, x.name = y.name → x = y

theorem apply_same (disk disk' : Disk) (w : Write) : disk.apply w w.name = disk'.apply w w.name := by
  cases w <;> simp [Disk.apply, Write.name]

/-- A file that was written has the content of its last write. -/
theorem Agree.applyAll {ws : List Write} (h : Agree ws) : ∀ (us : List Write) (disk : Disk), (∀ x ∈ us, x ∈ ws) → ∀ {w : Write}, w ∈ us →
    disk.applyAll us w.name = disk.apply w w.name
  | [], _, _, _, hw => by cases hw
  | u :: us, disk, hus, w, hw => by
    show Disk.applyAll (disk.apply u) us w.name = _
    by_cases hin : ∃ x ∈ us, x.name = w.name
    · obtain ⟨x, hx, hxn⟩ := hin
      have hxw := h x (hus x (List.mem_cons_of_mem _ hx)) w (hus w hw) hxn
      subst hxw
      rw [Agree.applyAll h us (disk.apply u) (fun y hy => hus y (List.mem_cons_of_mem _ hy)) hx]
      exact apply_same _ _ _
    · rw [applyAll_other _ _ (fun x hx he => hin ⟨x, hx, he.symm⟩)]
      rcases List.mem_cons.1 hw with rfl | hw
      · rfl
      · exact absurd ⟨w, hw, rfl⟩ hin

/-- Each file has the old or the new content. -/
theorem Agree.mix {ws : List Write} (h : Agree ws) {us : List Write} (hus : ∀ x ∈ us, x ∈ ws) (disk : Disk) (name : String) :
    disk.applyAll us name = disk name ∨ disk.applyAll us name = disk.applyAll ws name := by
  by_cases hin : ∃ x ∈ us, x.name = name
  · obtain ⟨x, hx, rfl⟩ := hin
    exact .inr (by rw [h.applyAll us disk hus hx, h.applyAll ws disk (fun _ hy => hy) (hus x hx)])
  · exact .inl (applyAll_other _ _ (fun x hx he => hin ⟨x, hx, he.symm⟩))

/-- The order does not matter. -/
theorem Agree.order {ws : List Write} (h : Agree ws) {us : List Write} (hus : ∀ x, x ∈ us ↔ x ∈ ws) (disk : Disk) :
    disk.applyAll us = disk.applyAll ws := by
  funext name
  by_cases hin : ∃ x ∈ us, x.name = name
  · obtain ⟨x, hx, rfl⟩ := hin
    rw [h.applyAll us disk (fun y hy => (hus y).1 hy) hx, h.applyAll ws disk (fun _ hy => hy) ((hus x).1 hx)]
  · rw [applyAll_other _ _ (fun x hx he => hin ⟨x, hx, he.symm⟩), applyAll_other _ _ (fun x hx he => hin ⟨x, (hus x).2 hx, he.symm⟩)]

/-! ### the writes of a save -/

section
variable {key salt : Bytes} {s : Sys J} {v : View J}

/-- The writes of the tags. -/
theorem Rep.saveTags_eq (h : Rep E T key salt s v) {rs : String → ρ} : ∀ (d : Dict (Value J)) (_ : ∀ p ∈ d, ∃ x, s.node.cache.get p.1 = some x),
    (s.node.saveTags E rs d) = (.ok (), d.filterMap (fun p => (s.node.saveFile E p.1 (rs p.1)).toOption)) ∧
    ∀ w ∈ (s.node.saveTags E rs d).2, s.node.saveFile E w.name (rs w.name) = .ok w
  | [], _ => by simp [Node.saveTags]
  | (f, y) :: d, hd => by
    obtain ⟨x, hx⟩ := hd (f, y) List.mem_cons_self
    obtain ⟨t, ht, hf⟩ := h.cacheNames f x hx
    obtain ⟨text, htext, hdec⟩ := (h.cached t ht x (hf ▸ hx)).2
    obtain ⟨h1, h2⟩ := Rep.saveTags_eq h (rs := rs) d (fun q hq => hd q (List.mem_cons_of_mem _ hq))
    have hs : s.node.saveFile E f (rs f) = .ok (.put f (E.encrypt (E.fileKey s.node.key s.node.man.salt f) (rs f) text)) := by
      simp [Node.saveFile, hx, htext, bind, Except.bind]
    constructor
    · simp only [Node.saveTags, hs, h1, List.filterMap_cons, Except.toOption]
    · intro w hw
      simp only [Node.saveTags, hs, List.mem_cons] at hw
      rcases hw with rfl | hw
      · exact hs
      · exact h2 w hw
end

theorem Rep.tagWrites {n : Node J} {disk : Disk} {v : View J} (h : Rep E T n.key n.man.salt ⟨n, disk⟩ v) (rs : String → ρ) :
    (n.saveTags E rs n.cache) = (.ok (), n.tagWrites E rs) ∧ (∀ w ∈ n.tagWrites E rs, n.saveFile E w.name (rs w.name) = .ok w) ∧
    ∀ w ∈ n.tagWrites E rs, ∃ t, T t ∧ w.name = E.fileName n.key n.man.salt t := by
  have hget : ∀ p ∈ n.cache, ∃ x, n.cache.get p.1 = some x := fun p hp => Dict.get_of_mem (v := p.2) hp
  obtain ⟨h1, h2⟩ := Rep.saveTags_eq h (rs := rs) n.cache hget
  have h1' : (n.saveTags E rs n.cache) = (.ok (), n.tagWrites E rs) := h1
  have h3 := h.saveTags_names (rs := rs) n.cache hget
  simp only [h1'] at h2 h3
  exact ⟨h1', h2, h3⟩

mutual
/-- The writes of a save are those of the synchronous save; they are of owned files; writes of one file are the same. -/
theorem Tree.ASave.writes (law : E.Law good) {rs : String → ρ} (hrs : ∀ name, good (rs name)) {disk : Disk} : ∀ {tree : Tree J} {v : TreeView J} {ws : List Write},
    tree.Rep E T reserved disk v → tree.ASave E rs ws → (∀ x, x ∈ ws ↔ x ∈ (tree.save E rs).2)
  | .mk n kids, v, _, h, .mk (a := a) (b := b) (c := c) hk hb hm => by
    simp only [Tree.Rep] at h
    obtain ⟨hn, hlen, hnames, hnd, hsep, hemp, hkr⟩ := h
    obtain ⟨h1, _, _⟩ := hn.tagWrites rs
    have hkok := (Kids.Rep.save law hrs hkr).1
    have hkw := Kids.ASave.writes law hrs hkr hk
    intro x
    simp only [Tree.save, hkok, h1, List.mem_cons, List.mem_append, hm.mem, hkw, hb.mem_iff]
theorem Kids.ASave.writes (law : E.Law good) {rs : String → ρ} (hrs : ∀ name, good (rs name)) {disk : Disk} : ∀ {kids : Kids J} {v : TreeView J} {key salt : Bytes} {ws : List Write},
    kids.Rep E T reserved disk v key salt → kids.ASave E rs ws → (∀ x, x ∈ ws ↔ x ∈ (kids.save E rs).2)
  | .nil, _, _, _, _, _, .nil => by simp [Kids.save]
  | .cons m t rest, v, _, _, _, h, .cons (a := a) (b := b) (c := c) ht hr hm => by
    simp only [Kids.Rep] at h
    have h1 := (Tree.Rep.save law hrs h.2.2.1).1
    have hw1 := Tree.ASave.writes law hrs h.2.2.1 ht
    have hw2 := Kids.ASave.writes law hrs h.2.2.2.2 hr
    intro x
    simp only [Kids.save, h1, List.mem_append, hm.mem, hw1, hw2]
end

mutual
theorem Tree.Rep.agree (law : E.Law good) {rs : String → ρ} (hrs : ∀ name, good (rs name)) {disk : Disk} : ∀ {tree : Tree J} {v : TreeView J},
    tree.Rep E T reserved disk v → Agree (tree.save E rs).2
  | .mk n kids, v, h => by
    simp only [Tree.Rep] at h
    obtain ⟨hn, hlen, hnames, hnd, hsep, hemp, hkr⟩ := h
    obtain ⟨h1, h2, h3⟩ := hn.tagWrites rs
    obtain ⟨hkok, hkown, _⟩ := Kids.Rep.save law hrs hkr
    have hka := Kids.Rep.agree law hrs hkr
    intro x hx y hy hxy
    simp only [Tree.save, hkok, h1, List.mem_cons, List.mem_append] at hx hy
    have hroot : (n.manifestWrite E (rs (E.rootName n.key))).name = E.rootName n.key := rfl
    have hN : ∀ z, z = n.manifestWrite E (rs (E.rootName n.key)) ∨ z ∈ n.tagWrites E rs → Names E T n.key n.man.salt z.name := by
      rintro z (rfl | hz)
      · exact .inl hroot
      · exact .inr (h3 z hz)
    rcases hx with rfl | hx | hx <;> rcases hy with rfl | hy | hy
    · rfl
    · exact absurd (hxy ▸ hkown y hy) (hsep _ (.inl hroot))
    · obtain ⟨t, ht, hyn⟩ := h3 y hy
      exact absurd (hyn.symm.trans (hxy.symm.trans hroot)) (hn.apart.root t ht)
    · exact absurd (hxy ▸ hkown x hx) (hsep _ (.inl hroot))
    · exact hka x hx y hy hxy
    · exact absurd (hxy ▸ hkown x hx) (hsep _ (hN y (.inr hy)))
    · obtain ⟨t, ht, hxn⟩ := h3 x hx
      exact absurd (hxn.symm.trans (hxy.trans hroot)) (hn.apart.root t ht)
    · exact absurd (hkown y hy) (hsep _ (hxy ▸ hN x (.inr hx)))
    · have hX := h2 x hx
      rw [hxy, h2 y hy] at hX
      exact (Except.ok.inj hX).symm
theorem Kids.Rep.agree (law : E.Law good) {rs : String → ρ} (hrs : ∀ name, good (rs name)) {disk : Disk} : ∀ {kids : Kids J} {v : TreeView J} {key salt : Bytes},
    kids.Rep E T reserved disk v key salt → Agree (kids.save E rs).2
  | .nil, _, _, _, _ => by simp [Kids.save, Agree]
  | .cons m t rest, v, _, _, h => by
    simp only [Kids.Rep] at h
    obtain ⟨h1, hown, _⟩ := Tree.Rep.save law hrs h.2.2.1
    obtain ⟨_, hrown, _⟩ := Kids.Rep.save law hrs h.2.2.2.2
    have ha := Tree.Rep.agree law hrs h.2.2.1
    have hb := Kids.Rep.agree law hrs h.2.2.2.2
    intro x hx y hy hxy
    simp only [Kids.save, h1, List.mem_append] at hx hy
    rcases hx with hx | hx <;> rcases hy with hy | hy
    · exact ha x hx y hy hxy
    · exact absurd (hrown y hy) (h.2.2.2.1 _ (hxy ▸ hown x hx))
    · exact absurd (hrown x hx) (h.2.2.2.1 _ (hxy.symm ▸ hown y hy))
    · exact hb x hx y hy hxy
end

mutual
/-- The manifest of a database is written before everything else of it. -/
theorem Tree.ASave.first (law : E.Law good) {rs : String → ρ} (hrs : ∀ name, good (rs name)) {disk : Disk} : ∀ {tree : Tree J} {v : TreeView J} {ws : List Write},
    tree.Rep E T reserved disk v → tree.ASave E rs ws → ∀ {us : List Write}, us <+: ws → ∀ {path : List String} {sub : Tree J}, tree.at? path = some sub →
    sub.node.manifestWrite E (rs (E.rootName sub.node.key)) ∉ us → ∀ w ∈ us, ¬ sub.Owns E T w.name
  | .mk n kids, v, _, h, .mk (a := a) (b := b) (c := c) hk hb hm, us, hus, path, sub, hsub, hnot, w, hw => by
    cases us with
    | nil => cases hw
    | cons u us =>
      obtain ⟨rfl, hus'⟩ := List.cons_prefix_cons.1 hus
      cases path with
      | nil =>
        simp only [Tree.at?, Option.some.injEq] at hsub
        subst hsub
        exact absurd List.mem_cons_self hnot
      | cons m path =>
        simp only [Tree.Rep] at h
        obtain ⟨hn, hlen, hnames, hnd, hsep, hemp, hkr⟩ := h
        simp only [Tree.at?] at hsub
        split at hsub
        · cases hsub
        · rename_i t ht
          obtain ⟨a', b', ha', hb', hm'⟩ := hm.prefix hus'
          have hk1 : ∀ name, sub.Owns E T name → kids.Owns E T name := fun name ho => Kids.owns_get ht (Tree.owns_at hsub ho)
          rcases List.mem_cons.1 hw with rfl | hw
          · exact fun ho => hsep _ (.inl rfl) (hk1 _ ho)
          · rcases hm'.mem.1 hw with hw | hw
            · exact Kids.ASave.first law hrs hkr hk ha' ht hsub (fun hin => hnot (List.mem_cons_of_mem _ (hm'.mem.2 (.inl hin)))) w hw
            · obtain ⟨u, hu, hwn⟩ := (hn.tagWrites rs).2.2 w (hb.mem_iff.1 (hb'.subset hw))
              exact fun ho => hsep _ (.inr ⟨u, hu, hwn⟩) (hk1 _ ho)
theorem Kids.ASave.first (law : E.Law good) {rs : String → ρ} (hrs : ∀ name, good (rs name)) {disk : Disk} : ∀ {kids : Kids J} {v : TreeView J} {key salt : Bytes} {ws : List Write},
    kids.Rep E T reserved disk v key salt → kids.ASave E rs ws → ∀ {us : List Write}, us <+: ws → ∀ {m : String} {t : Tree J}, kids.get m = some t →
    ∀ {path : List String} {sub : Tree J}, t.at? path = some sub →
    sub.node.manifestWrite E (rs (E.rootName sub.node.key)) ∉ us → ∀ w ∈ us, ¬ sub.Owns E T w.name
  | .nil, _, _, _, _, _, .nil, _, _, _, _, ht, _, _, _, _, _, _ => by simp [Kids.get] at ht
  | .cons m' t' rest, v, _, _, _, h, .cons (a := a) (b := b) (c := c) hta hr hm, us, hus, m, t, ht, path, sub, hsub, hnot, w, hw => by
    simp only [Kids.Rep] at h
    obtain ⟨a', b', ha', hb', hm'⟩ := hm.prefix hus
    have hown := (Tree.Rep.save law hrs h.2.2.1).2.1
    have hrown := (Kids.Rep.save law hrs h.2.2.2.2).2.1
    simp only [Kids.get] at ht
    split at ht
    · cases ht
      rcases hm'.mem.1 hw with hw | hw
      · exact Tree.ASave.first law hrs h.2.2.1 hta ha' hsub (fun hin => hnot (hm'.mem.2 (.inl hin))) w hw
      · have := hrown w ((Kids.ASave.writes law hrs h.2.2.2.2 hr w).1 (hb'.subset hw))
        exact fun ho => h.2.2.2.1 _ (Tree.owns_at hsub ho) this
    · rcases hm'.mem.1 hw with hw | hw
      · have := hown w ((Tree.ASave.writes law hrs h.2.2.1 hta w).1 (ha'.subset hw))
        exact fun ho => h.2.2.2.1 _ this (Kids.owns_get ht (Tree.owns_at hsub ho))
      · exact Kids.ASave.first law hrs h.2.2.2.2 hr hb' ht hsub (fun hin => hnot (hm'.mem.2 (.inr hin))) w hw
end

mutual
/-- The order of the synchronous save is one of those of the asynchronous save. -/
theorem Tree.Rep.asave (law : E.Law good) {rs : String → ρ} (hrs : ∀ name, good (rs name)) {disk : Disk} : ∀ {tree : Tree J} {v : TreeView J},
    tree.Rep E T reserved disk v → tree.ASave E rs (tree.save E rs).2
  | .mk n kids, v, h => by
    simp only [Tree.Rep] at h
    obtain ⟨hn, hlen, hnames, hnd, hsep, hemp, hkr⟩ := h
    have hkok := (Kids.Rep.save law hrs hkr).1
    simp only [Tree.save, hkok, (hn.tagWrites rs).1]
    exact .mk (Kids.Rep.asave law hrs hkr) (List.Perm.refl _) (Merge.append _ _)
theorem Kids.Rep.asave (law : E.Law good) {rs : String → ρ} (hrs : ∀ name, good (rs name)) {disk : Disk} : ∀ {kids : Kids J} {v : TreeView J} {key salt : Bytes},
    kids.Rep E T reserved disk v key salt → kids.ASave E rs (kids.save E rs).2
  | .nil, _, _, _, _ => by simp only [Kids.save]; exact .nil
  | .cons m t rest, v, _, _, h => by
    simp only [Kids.Rep] at h
    simp only [Kids.save, (Tree.Rep.save law hrs h.2.2.1).1]
    exact .cons (Tree.Rep.asave law hrs h.2.2.1) (Kids.Rep.asave law hrs h.2.2.2.2) (Merge.append _ _)
end

end Aiootp.Database
