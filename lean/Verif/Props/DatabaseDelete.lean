import Verif.Model.DatabaseDelete
import Verif.Props.DatabaseCrash

/-! C85: a deletion that is cut off can be finished by opening the database again and deleting it. -/

namespace Aiootp.Database

variable {ρ J : Type} {E : Env ρ J} {good : ρ → Prop} {T : String → Prop} {reserved : String → Bool} {key salt : Bytes}

mutual
theorem Tree.Deletes.mem : ∀ {tree : Tree J} {ws : List Write}, tree.Deletes E ws → ∀ x, x ∈ ws ↔ x ∈ tree.delete E
  | .mk n kids, _, .mk (a := a) (b := b) hk hb, x => by
    simp only [Tree.delete, List.mem_append, Kids.Deletes.mem hk x, hb.mem_iff]
theorem Kids.Deletes.mem : ∀ {kids : Kids J} {ws : List Write}, kids.Deletes E ws → ∀ x, x ∈ ws ↔ x ∈ kids.delete E
  | .nil, _, .nil, x => by simp [Kids.delete]
  | .cons m t rest, _, .cons ht hr hm, x => by
    simp only [Kids.delete, List.mem_append, hm.mem, Tree.Deletes.mem ht x, Kids.Deletes.mem hr x]
end

mutual
/-- The order of the model's `delete`. -/
theorem Tree.deletes : ∀ (tree : Tree J), tree.Deletes E (tree.delete E)
  | .mk n kids => by
    simp only [Tree.delete]
    exact .mk (Kids.deletes kids) (List.Perm.refl _)
theorem Kids.deletes : ∀ (kids : Kids J), kids.Deletes E (kids.delete E)
  | .nil => by simp only [Kids.delete]; exact .nil
  | .cons m t rest => by
    simp only [Kids.delete]
    exact .cons (Tree.deletes t) (Kids.deletes rest) (Merge.append _ _)
end

/-- The files that the unlinks name are gone, and the others of the tree are as before. -/
def Partly (disk crashed : Disk) (us : List Write) (owned : String → Prop) : Prop :=
  ∀ name, owned name → ((∃ w ∈ us, w.name = name) → crashed name = none) ∧ ((∀ w ∈ us, w.name ≠ name) → crashed name = disk name)

theorem prefix_append_cases {α : Type} : ∀ {a b us : List α}, us <+: a ++ b → us <+: a ∨ ∃ c, c <+: b ∧ us = a ++ c
  | [], b, us, h => .inr ⟨us, by simpa using h, rfl⟩
  | x :: a, b, [], _ => .inl List.nil_prefix
  | x :: a, b, y :: us, h => by
    obtain ⟨rfl, h'⟩ := (List.cons_prefix_cons).1 h
    rcases prefix_append_cases h' with h' | ⟨c, hc, he⟩
    · exact .inl ((List.cons_prefix_cons).2 ⟨rfl, h'⟩)
    · exact .inr ⟨c, hc, by rw [he]; rfl⟩

mutual
/-- Opening and deleting again what is left of a tree. -/
theorem Tree.Rep.again (law : E.Law good) {disk crashed : Disk} (now : Int) : ∀ {tree : Tree J} {v : TreeView J} {ws us : List Write} (fuel : Nat) (salts : List String → Bytes),
    tree.Rep E T reserved disk v → tree.Saved E good disk → tree.depth ≤ fuel → tree.Deletes E ws → us <+: ws → Partly disk crashed us (tree.Owns E T) →
    ∃ tree' : Tree J, openTree E reserved crashed now fuel salts tree.node.key = .ok tree' ∧
      (∀ w ∈ tree'.delete E, tree.Owns E T w.name ∨ w = .unlink "0" ∨ w = .unlink "1") ∧
      ∀ name, tree.Owns E T name → (∃ w ∈ tree'.delete E, w.name = name) ∨ crashed name = none
  | .mk n kids, v, _, us, fuel, salts, h, hs, hf, .mk (a := a) (b := b) hka hb, hus, hp => by
    have hdel := h.delete
    have hwhole := h
    have hws : Tree.Deletes E (.mk n kids) (a ++ b ++ [.unlink (E.rootName n.key)]) := .mk hka hb
    simp only [Tree.Rep] at h
    obtain ⟨hn, hlen, hnames, hnd, hsep, hemp, hk⟩ := h
    simp only [Tree.Saved] at hs
    obtain ⟨⟨r, hr, hsound, hroot⟩, hks⟩ := hs
    simp only [Tree.depth] at hf
    cases fuel with
    | zero => omega
    | succ fuel =>
      have hus : us <+: a ++ b ∨ us = a ++ b ++ [.unlink (E.rootName n.key)] := by
        rcases prefix_append_cases hus with hus | ⟨c, hc, rfl⟩
        · exact .inl hus
        · cases c with
          | nil => exact .inl (by simp)
          | cons y c => obtain ⟨rfl, hc'⟩ := (List.cons_prefix_cons).1 hc; rw [List.prefix_nil.1 hc']; exact .inr rfl
      rcases hus with hus | hus
      · -- the manifest is still there
        have hrootk : crashed (E.rootName n.key) = disk (E.rootName n.key) := by
          refine (hp _ (Tree.owns_node (.inl rfl))).2 (fun w hw he => ?_)
          have hw := hus.subset hw
          rcases List.mem_append.1 hw with hw | hw
          · rcases (Kids.Rep.delete hk).1 w ((hka.mem w).1 hw) with h1 | rfl | rfl
            · exact hsep _ (.inl he) h1
            · exact hn.apart.rootPlain.1 he.symm
            · exact hn.apart.rootPlain.2 he.symm
          · have hw := hb.mem_iff.1 hw
            simp only [List.mem_append, List.mem_map, List.mem_cons, List.not_mem_nil, or_false] at hw
            rcases hw with (rfl | rfl) | ⟨p, hp, rfl⟩
            · exact hn.apart.rootPlain.1 he.symm
            · exact hn.apart.rootPlain.2 he.symm
            · obtain ⟨ht, hpe⟩ := hn.fileNames p.1 p.2 ((Dict.mem_iff hn.nodup).1 hp)
              exact hn.apart.root p.2 ht (hpe.symm.trans he)
        have hmidnot : ∀ w ∈ b, ∀ name, kids.Owns E T name → w.name ≠ name := by
          intro w hw name ho he
          have hw := hb.mem_iff.1 hw
          simp only [List.mem_append, List.mem_map, List.mem_cons, List.not_mem_nil, or_false] at hw
          rcases hw with (rfl | rfl) | ⟨p, hp, rfl⟩
          · exact (hk.plain ho).1 he.symm
          · exact (hk.plain ho).2 he.symm
          · obtain ⟨ht, hpe⟩ := hn.fileNames p.1 p.2 ((Dict.mem_iff hn.nodup).1 hp)
            exact hsep name (.inr ⟨p.2, ht, he.symm.trans hpe⟩) ho
        obtain ⟨a', ha', hpk⟩ : ∃ a', a' <+: a ∧ Partly disk crashed a' (kids.Owns E T) := by
          rcases prefix_append_cases hus with hus | ⟨c, hc, rfl⟩
          · exact ⟨us, hus, fun name ho => hp name (by simp only [Tree.Owns]; exact .inr ho)⟩
          · refine ⟨a, List.prefix_refl a, fun name ho => ?_⟩
            have hpn := hp name (by simp only [Tree.Owns]; exact .inr ho)
            refine ⟨fun ⟨w, hw, he⟩ => hpn.1 ⟨w, List.mem_append_left _ hw, he⟩, fun hall => hpn.2 (fun w hw => ?_)⟩
            rcases List.mem_append.1 hw with hw | hw
            · exact hall w hw
            · exact hmidnot w (hc.subset hw) name ho
        obtain ⟨kids', hopenk, hk1, hk2⟩ := Kids.Rep.again law now fuel salts hk hks (by omega) hka ha' hpk
        have hopen := openManifest_put law hsound hr (hrootk.trans hroot) (salts []) now
        refine ⟨.mk ⟨n.key, n.man, []⟩ kids', ?_, ?_, ?_⟩
        · simp only [openTree, Tree.node, openNode, hopen, raiseIf, Nat.not_lt.2 hlen, if_false, bind, Except.bind, ← hnames]
          rw [unique_nodup (hnames ▸ hnd)]
          simp only [bind, Except.bind, raiseIf] at hopenk
          rw [hopenk]
        · intro w hw
          simp only [Tree.delete, List.mem_append] at hw
          simp only [Tree.Owns]
          rcases hw with (hw | hw) | hw
          · exact (hk1 w hw).imp .inr id
          · have : w ∈ Tree.delete E (.mk n kids) := by
              simp only [Tree.delete, List.mem_append]; exact .inl (.inr hw)
            have := hdel.1 w this
            simpa only [Tree.Owns] using this
          · rw [List.mem_singleton] at hw
            subst hw
            exact .inl (.inl (.inl rfl))
        · intro name ho
          have ho' := ho
          simp only [Tree.Owns] at ho
          rcases ho with hN | ho
          · rcases hdel.2 name ho' with ⟨w, hw, he⟩ | hnone
            · simp only [Tree.delete, List.mem_append] at hw
              rcases hw with (hw | hw) | hw
              · rcases (Kids.Rep.delete hk).1 w hw with h1 | h1 | h1
                · exact absurd (he ▸ h1) (hsep name hN)
                · exact absurd (by rw [← he, h1]; rfl) (hn.apart.names hN).1
                · exact absurd (by rw [← he, h1]; rfl) (hn.apart.names hN).2
              · exact .inl ⟨w, by simp only [Tree.delete, List.mem_append]; exact .inl (.inr hw), he⟩
              · exact .inl ⟨w, by simp only [Tree.delete, List.mem_append]; exact .inr hw, he⟩
            · refine .inr ?_
              by_cases hex : ∃ w ∈ us, w.name = name
              · exact (hp name ho').1 hex
              · rw [(hp name ho').2 (fun w hw he => hex ⟨w, hw, he⟩), hnone]
          · exact (hk2 name ho).imp (fun ⟨w, hw, he⟩ => ⟨w, by simp only [Tree.delete, List.mem_append]; exact .inl (.inl hw), he⟩) id
      · -- everything is gone
        subst hus
        have hgone : ∀ name, Tree.Owns E T (.mk n kids) name → crashed name = none := by
          intro name ho
          by_cases hex : ∃ w ∈ a ++ b ++ [.unlink (E.rootName n.key)], w.name = name
          · exact (hp name ho).1 hex
          · rw [(hp name ho).2 (fun w hw he => hex ⟨w, hw, he⟩)]
            rcases hdel.2 name ho with ⟨w, hw, he⟩ | h1
            · exact absurd ⟨w, (hws.mem w).2 hw, he⟩ hex
            · exact h1
        have hopen := openNode_new (J := J) (salt := salts []) hlen (hgone _ (Tree.owns_node (.inl rfl))) now
        refine ⟨.mk ⟨n.key, ⟨salts [], [], []⟩, []⟩ .nil, ?_, ?_, fun name ho => .inr (hgone name ho)⟩
        · simp only [Tree.node, openTree, hopen, bind, Except.bind, unique, openKids]
        · intro w hw
          simp only [Tree.delete, Kids.delete, List.map_nil, List.append_nil, List.nil_append, List.mem_append, List.mem_cons, List.not_mem_nil, or_false] at hw
          rcases hw with (hw | hw) | hw
          · exact .inr (.inl hw)
          · exact .inr (.inr hw)
          · subst hw; exact .inl (Tree.owns_node (.inl rfl))
theorem Kids.Rep.again (law : E.Law good) {disk crashed : Disk} (now : Int) : ∀ {kids : Kids J} {v : TreeView J} {key salt : Bytes} {ws us : List Write} (fuel : Nat) (salts : List String → Bytes),
    kids.Rep E T reserved disk v key salt → kids.Saved E good disk → kids.depth ≤ fuel → kids.Deletes E ws → us <+: ws → Partly disk crashed us (kids.Owns E T) →
    ∃ kids' : Kids J, openKids (fun m => do
      raiseIf (reserved m = true) .attribute
      openTree E reserved crashed now fuel (fun p => salts (m :: p)) (E.metaKey key salt m)) kids.names = .ok kids' ∧
      (∀ w ∈ kids'.delete E, kids.Owns E T w.name ∨ w = .unlink "0" ∨ w = .unlink "1") ∧
      ∀ name, kids.Owns E T name → (∃ w ∈ kids'.delete E, w.name = name) ∨ crashed name = none
  | .nil, _, _, _, _, _, _, _, _, _, _, _, _, _ => ⟨.nil, rfl, by simp [Kids.delete], by simp [Kids.Owns]⟩
  | .cons m t rest, v, key, salt, _, us, fuel, salts, h, hs, hf, .cons (a := a) (b := b) hta hra hm, hus, hp => by
    simp only [Kids.Rep] at h
    simp only [Kids.Saved] at hs
    simp only [Kids.depth] at hf
    obtain ⟨a', b', ha', hb', hm'⟩ := hm.prefix hus
    have hat : ∀ w ∈ a', ∀ name, rest.Owns E T name → w.name ≠ name := by
      intro w hw name ho he
      rcases (Tree.Rep.delete h.2.2.1).1 w ((hta.mem w).1 (ha'.subset hw)) with h1 | rfl | rfl
      · exact h.2.2.2.1 name (he ▸ h1) ho
      · exact (h.2.2.2.2.plain ho).1 he.symm
      · exact (h.2.2.2.2.plain ho).2 he.symm
    have hbt : ∀ w ∈ b', ∀ name, t.Owns E T name → w.name ≠ name := by
      intro w hw name ho he
      rcases (Kids.Rep.delete h.2.2.2.2).1 w ((hra.mem w).1 (hb'.subset hw)) with h1 | rfl | rfl
      · exact h.2.2.2.1 name ho (he ▸ h1)
      · exact (h.2.2.1.plain ho).1 he.symm
      · exact (h.2.2.1.plain ho).2 he.symm
    have hpt : Partly disk crashed a' (t.Owns E T) := by
      intro name ho
      have hpn := hp name (by simp only [Kids.Owns]; exact .inl ho)
      refine ⟨fun ⟨w, hw, he⟩ => hpn.1 ⟨w, hm'.mem.2 (.inl hw), he⟩, fun hall => hpn.2 (fun w hw => ?_)⟩
      exact (hm'.mem.1 hw).elim (hall w) (fun hw => hbt w hw name ho)
    have hpr : Partly disk crashed b' (rest.Owns E T) := by
      intro name ho
      have hpn := hp name (by simp only [Kids.Owns]; exact .inr ho)
      refine ⟨fun ⟨w, hw, he⟩ => hpn.1 ⟨w, hm'.mem.2 (.inr hw), he⟩, fun hall => hpn.2 (fun w hw => ?_)⟩
      exact (hm'.mem.1 hw).elim (fun hw => hat w hw name ho) (hall w)
    obtain ⟨t', h1, h2, h3⟩ := Tree.Rep.again law now fuel (fun p => salts (m :: p)) h.2.2.1 hs.1 (by omega) hta ha' hpt
    obtain ⟨rest', g1, g2, g3⟩ := Kids.Rep.again law now fuel salts h.2.2.2.2 hs.2 (by omega) hra hb' hpr
    rw [h.1] at h1
    refine ⟨.cons m t' rest', ?_, ?_, ?_⟩
    · simp only [Kids.names, openKids, h.2.1]
      simp only [bind, Except.bind, raiseIf, Bool.false_eq_true, if_false, h1] at g1 ⊢
      rw [g1]
    · intro w hw
      simp only [Kids.delete, List.mem_append] at hw
      simp only [Kids.Owns]
      rcases hw with hw | hw
      · exact (h2 w hw).imp .inl id
      · exact (g2 w hw).imp .inr id
    · intro name ho
      simp only [Kids.Owns] at ho
      rcases ho with ho | ho
      · exact (h3 name ho).imp (fun ⟨w, hw, he⟩ => ⟨w, by simp only [Kids.delete, List.mem_append]; exact .inl hw, he⟩) id
      · exact (g3 name ho).imp (fun ⟨w, hw, he⟩ => ⟨w, by simp only [Kids.delete, List.mem_append]; exact .inr hw, he⟩) id
end

/-- **C85** After every history and a save of the database, let a deletion of it be cut off after any number of unlinked files, in any
order in which the metatags and the files of one database may come. Then opening the database again with its key succeeds, and deleting
it then leaves no file behind: what is in the directory was there before the database was made. Files of others stay, except for files
that are named `0` or `1`. -/
theorem C85_delete_again (law : E.Law good) {w₀ : World J} (hw : Start E T reserved key salt w₀) (ops : List (List String × TreeOp ρ J))
    (hops : AllAllowed E good T reserved w₀ ops) (rs : String → ρ) (hrs : ∀ name, good (rs name)) :
    let w := (w₀.run E reserved ops).step E reserved [] (.save rs)
    ∀ (ws : List Write) (k : Nat), w.tree.Deletes E ws →
      let crashed := w.disk.applyAll (ws.take k)
      ∃ depth, ∀ fuel, depth ≤ fuel → ∀ (salts : List String → Bytes) (now : Int), ∃ tree' : Tree J,
        openTree E reserved crashed now fuel salts key = .ok tree' ∧
        ∀ ws', tree'.Deletes E ws' →
          (∀ name, crashed.applyAll ws' name ≠ none → w₀.disk name ≠ none) ∧
          ∀ name, ¬ w.tree.Owns E T name → name ≠ "0" → name ≠ "1" → crashed.applyAll ws' name = w.disk name := by
  intro w ws k hws crashed
  obtain ⟨h, hc, hkey⟩ := World.run_law law hw.rep hops (covered_start w₀)
  have hl := World.step_law (path := []) (op := .save rs) law h ⟨_, rfl, hrs⟩ rfl
  have hcov : Covered E T w₀.disk w := hc.step hl rfl
  have hrep : w.tree.Rep E T reserved w.disk _ := hl.rep
  have hsaved : w.tree.Saved E good w.disk := (h.save law hrs).2.2.2
  have hkey : w.tree.node.key = key := by rw [hl.key, hkey, hw.tree]; rfl
  have hunl : ∀ x ∈ ws.take k, ∃ n, x = .unlink n := fun x hx => Tree.delete_unlinks _ x ((hws.mem x).1 (List.mem_of_mem_take hx))
  have hpart : Partly w.disk crashed (ws.take k) (w.tree.Owns E T) := fun name _ =>
    ⟨fun hex => applyAll_unlink _ _ hunl (.inl hex), fun hall => applyAll_other _ _ (fun x hx he => hall x hx he.symm)⟩
  refine ⟨w.tree.depth, fun fuel hf salts now => ?_⟩
  obtain ⟨tree', h1, h2, h3⟩ := hrep.again law now fuel salts hsaved hf hws (List.take_prefix _ _) hpart
  rw [hkey] at h1
  refine ⟨tree', h1, fun ws' hws' => ?_⟩
  have hunl' : ∀ x ∈ ws', ∃ n, x = .unlink n := fun x hx => Tree.delete_unlinks _ x ((hws'.mem x).1 hx)
  refine ⟨fun name hne => ?_, fun name ho h0 h1' => ?_⟩
  · have hcr : crashed name ≠ none := fun hnone => hne (applyAll_unlink _ _ hunl' (.inr hnone))
    have hd : w.disk name ≠ none := fun hnone => hcr (applyAll_unlink _ _ hunl (.inr hnone))
    refine (hcov name hd).resolve_right (fun ho => hne (applyAll_unlink _ _ hunl' ?_))
    exact (h3 name ho).imp (fun ⟨x, hx, he⟩ => ⟨x, (hws'.mem x).2 hx, he⟩) id
  · have hother : ∀ (x : Write), (w.tree.Owns E T x.name ∨ x = .unlink "0" ∨ x = .unlink "1") → name ≠ x.name := by
      rintro x (hx | rfl | rfl) he
      · exact ho (he ▸ hx)
      · exact h0 he
      · exact h1' he
    rw [applyAll_other _ _ (fun x hx => hother x (h2 x ((hws'.mem x).1 hx))),
      show crashed = w.disk.applyAll (ws.take k) from rfl,
      applyAll_other _ _ (fun x hx => hother x (hrep.delete.1 x ((hws.mem x).1 (List.mem_of_mem_take hx))))]

/-- The sample: its deletion is cut off after three files, and a second one leaves nothing. -/
example : let w := (treeStart.run treeEnv (fun _ => false) treeOps).step treeEnv (fun _ => false) [] (.save (fun _ => ()))
    let crashed := w.disk.applyAll ((w.tree.delete treeEnv).take 3)
    ∃ depth, ∀ fuel, depth ≤ fuel → ∃ tree' : Tree Bool, openTree treeEnv (fun _ => false) crashed 7 fuel (fun _ => [4]) (List.replicate 64 0) = .ok tree' ∧
      ∀ name, crashed.applyAll (tree'.delete treeEnv) name = none := by
  obtain ⟨depth, h⟩ := C85_delete_again treeEnv_law treeStart_start treeOps treeOps_allowed (fun _ => ()) (fun _ => trivial) _ 3 (Tree.deletes _)
  refine ⟨depth, fun fuel hf => ?_⟩
  obtain ⟨tree', h1, h2⟩ := h fuel hf (fun _ => [4]) 7
  refine ⟨tree', h1, fun name => Classical.byContradiction fun hne => (h2 _ (Tree.deletes _)).1 name hne rfl⟩

end Aiootp.Database
