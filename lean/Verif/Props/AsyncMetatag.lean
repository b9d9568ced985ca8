import Verif.Model.AsyncMetatag
import Verif.Props.Database

/-!
C73: `ametatag(tag)` gives every coroutine the one object that is the attribute `tag` of the parent. False if two coroutines ask for a new metatag at the
same time.
-/

namespace Aiootp.AsyncMetatag

/-- What holds if only coroutine `k` asks for `tag` before the metatag exists. -/
structure Inv (k : Nat) (tag : String) (s : Sys) : Prop where
  mine : ∀ j id, (tag, id) ∈ (s.threads j).got → s.attrs tag = some id
  other : ∀ j, j ≠ k → s.attrs tag = none → tag ∉ (s.threads j).todo ∧ ∀ pc, (s.threads j).call ≠ some (tag, pc)
  making : ∀ j, (s.threads j).call = some (tag, .making) → j = k ∧ s.attrs tag = none
  listed : ∀ j id, (tag, id) ∈ (s.threads j).got → tag ∈ s.listed

theorem Inv.step {k : Nat} {tag : String} {s : Sys} (h : Inv k tag s) (j : Nat) : Inv k tag (s.step j) := by
  unfold Sys.step
  simp only
  split
  · rename_i hc
    split
    · exact h
    · rename_i t rest ht
      refine ⟨fun i id hm => ?_, fun i hi ha => ?_, fun i hm => ?_, fun i id hm => ?_⟩
      · simp only at hm ⊢
        split at hm
        · exact h.mine j id hm
        · exact h.mine i id hm
      · simp only at ha ⊢
        split
        · rename_i e
          subst e
          obtain ⟨h1, h2⟩ := h.other i hi ha
          rw [ht] at h1
          refine ⟨fun hm => h1 (List.mem_cons_of_mem _ hm), fun pc e => ?_⟩
          simp only [Option.some.injEq, Prod.mk.injEq] at e
          exact h1 (by rw [e.1]; exact List.mem_cons_self)
        · exact h.other i hi ha
      · simp only at hm ⊢
        split at hm
        · simp at hm
        · exact h.making i hm
      · simp only at hm ⊢
        split at hm
        · exact h.listed j id hm
        · exact h.listed i id hm
  · rename_i t hc
    split
    · rename_i id ha
      refine ⟨fun i id' hm => ?_, fun i hi hn => ?_, fun i hm => ?_, fun i id' hm => ?_⟩
      · simp only [Sys.finish] at hm ⊢
        split at hm
        · simp only [List.mem_append, List.mem_singleton, Prod.mk.injEq] at hm
          rcases hm with hm | ⟨rfl, rfl⟩
          · exact h.mine j id' hm
          · exact ha
        · exact h.mine i id' hm
      · simp only [Sys.finish] at hn ⊢
        split
        · rename_i e
          subst e
          exact ⟨(h.other i hi hn).1, fun pc e => by simp at e⟩
        · exact h.other i hi hn
      · simp only [Sys.finish] at hm ⊢
        split at hm
        · simp at hm
        · exact h.making i hm
      · simp only [Sys.finish] at hm ⊢
        have hsub : ∀ x, x ∈ s.listed → x ∈ (if t ∈ s.listed then s.listed else s.listed ++ [t]) := by
          intro x hx; split
          · exact hx
          · exact List.mem_append_left _ hx
        split at hm
        · simp only [List.mem_append, List.mem_singleton, Prod.mk.injEq] at hm
          rcases hm with hm | ⟨rfl, rfl⟩
          · exact hsub _ (h.listed j id' hm)
          · split
            · assumption
            · simp
        · exact hsub _ (h.listed i id' hm)
    · rename_i ha
      refine ⟨fun i id' hm => ?_, fun i hi hn => ?_, fun i hm => ?_, fun i id' hm => ?_⟩
      · simp only at hm ⊢
        split at hm
        · exact h.mine j id' hm
        · exact h.mine i id' hm
      · simp only at hn ⊢
        split
        · rename_i e
          subst e
          obtain ⟨h1, h2⟩ := h.other i hi hn
          refine ⟨h1, fun pc e => ?_⟩
          simp only [Option.some.injEq, Prod.mk.injEq] at e
          exact h2 .start (by rw [hc, e.1])
        · exact h.other i hi hn
      · simp only at hm ⊢
        split at hm
        · rename_i e
          simp only [Option.some.injEq, Prod.mk.injEq, and_true] at hm
          subst hm
          refine ⟨?_, ha⟩
          refine Classical.byContradiction fun hik => ?_
          exact (h.other i hik ha).2 .start (by rw [e]; exact hc)
        · exact h.making i hm
      · simp only at hm ⊢
        split at hm
        · exact h.listed j id' hm
        · exact h.listed i id' hm
  · rename_i t hc
    have hsub : ∀ x, x ∈ s.listed → x ∈ (if t ∈ s.listed then s.listed else s.listed ++ [t]) := by
      intro x hx; split
      · exact hx
      · exact List.mem_append_left _ hx
    have nogot : t = tag → ∀ i id, (tag, id) ∉ (s.threads i).got := by
      rintro rfl i id hm
      have := h.mine i id hm
      rw [(h.making j hc).2] at this
      cases this
    refine ⟨fun i id' hm => ?_, fun i hi hn => ?_, fun i hm => ?_, fun i id' hm => ?_⟩
    · simp only [Sys.finish] at hm ⊢
      split at hm
      · simp only [List.mem_append, List.mem_singleton, Prod.mk.injEq] at hm
        rcases hm with hm | ⟨rfl, rfl⟩
        · split
          · rename_i e; exact absurd hm (nogot e.symm j id')
          · exact h.mine j id' hm
        · simp
      · split
        · rename_i e; exact absurd hm (nogot e.symm i id')
        · exact h.mine i id' hm
    · simp only [Sys.finish] at hn ⊢
      split at hn
      · cases hn
      · split
        · rename_i e
          subst e
          exact ⟨(h.other i hi hn).1, fun pc e => by simp at e⟩
        · exact h.other i hi hn
    · simp only [Sys.finish] at hm ⊢
      split at hm
      · simp at hm
      · rename_i e
        have h1 := h.making i hm
        refine ⟨h1.1, ?_⟩
        split
        · rename_i e'
          subst e'
          exact absurd (h1.1.trans (h.making j hc).1.symm) e
        · exact h1.2
    · simp only [Sys.finish] at hm ⊢
      split at hm
      · simp only [List.mem_append, List.mem_singleton, Prod.mk.injEq] at hm
        rcases hm with hm | ⟨rfl, rfl⟩
        · exact hsub _ (h.listed j id' hm)
        · split
          · assumption
          · simp
      · exact hsub _ (h.listed i id' hm)

theorem Inv.run {k : Nat} {tag : String} (ks : List Nat) : ∀ {s : Sys}, Inv k tag s → Inv k tag (s.run ks) := by
  induction ks with
  | nil => intro s h; exact h
  | cons j ks ih => intro s h; exact ih (h.step j)

/-- C73, if the metatag exists already, or only one coroutine ever asks for it: in every schedule, every call for it returns the object that is the
attribute of the parent from then on, and it is listed in the manifest. -/
theorem C73_one_object_partial (attrs : String → Option Nat) (listed : List String) (next : Nat) (asks : Nat → List String) (tag : String) (k : Nat)
    (h : attrs tag ≠ none ∨ ∀ j, j ≠ k → tag ∉ asks j) (schedule : List Nat) :
    let s := (Sys.start attrs listed next asks).run schedule
    ∀ j id, (tag, id) ∈ (s.threads j).got → s.attrs tag = some id ∧ tag ∈ s.listed := by
  intro s j id hm
  have h0 : Inv k tag (Sys.start attrs listed next asks) := by
    refine ⟨?_, ?_, ?_, ?_⟩
    · intro j id hm; cases hm
    · intro j hj ha
      refine ⟨?_, fun pc e => by cases e⟩
      rcases h with h | h
      · exact absurd ha h
      · exact h j hj
    · intro j hm; cases hm
    · intro j id hm; cases hm
  have h1 := h0.run schedule
  exact ⟨h1.mine j id hm, h1.listed j id hm⟩

example : let asks : Nat → List String := fun k => if k = 0 then ["m", "m"] else if k = 1 then ["n"] else []
    let s := (Sys.start (fun _ => none) [] 0 asks).run [0, 1, 0, 1, 0, 1, 0, 0]
    (∀ j, j ≠ 0 → "m" ∉ asks j) ∧ (s.threads 0).got = [("m", 0), ("m", 0)] ∧ (s.threads 1).got = [("n", 1)] ∧ s.attrs "m" = some 0 := by
  refine ⟨fun j hj => ?_, by decide, by decide, by decide⟩
  simp only [if_neg hj]
  split <;> decide

/-- C73 is false: two coroutines that ask for a new metatag at the same time get two objects, and only the second one is the attribute of the
parent. This is so for every database and every new tag. -/
theorem C73_two_objects (attrs : String → Option Nat) (listed : List String) (next : Nat) (tag : String) (hnew : attrs tag = none) :
    let s := (Sys.start attrs listed next (fun k => if k < 2 then [tag] else [])).run [0, 0, 1, 1, 0, 1]
    (s.threads 0).got = [(tag, next)] ∧ (s.threads 1).got = [(tag, next + 1)] ∧ s.attrs tag = some (next + 1) := by
  simp [Sys.start, Sys.run, Sys.step, Sys.finish, hnew]

end Aiootp.AsyncMetatag

namespace Aiootp.Database

variable {ρ J : Type} {E : Env ρ J} {good : ρ → Prop} {T : String → Prop} {key salt : Bytes}

/-- C73, what this means for the data: `first` and `second` are the two objects; each has drawn a salt of its own. A tag is set and saved with the first
one, which then is saved; then the parent saves its metatag, the second one. Whoever opens the metatag afterwards does not find the tag. -/
theorem C73_data_lost (law : E.Law good) (hk : 64 ≤ key.length) {salt₁ salt₂ : Bytes} {disk : Disk} {t : String} (x : Value J) (r : ρ)
    (hfree : disk (E.fileName key salt₂ t) = none) (hnames : E.fileName key salt₁ t ≠ E.fileName key salt₂ t)
    (hroot : E.rootName key ≠ E.fileName key salt₂ t)
    (rs₁ rs₂ : String → ρ) (hrs : good (rs₂ (E.rootName key))) (salt : Bytes) (now : Int) :
    let first : Node J := ⟨key, ⟨salt₁, [], []⟩, []⟩
    let second : Node J := ⟨key, ⟨salt₂, [], []⟩, []⟩
    let s := Sys.run E ⟨first, disk⟩ [.set t x false r, .save rs₁]
    let disk' := s.disk.applyAll (second.save E rs₂).2
    ∃ n, openNode E disk' key salt now = .ok n ∧ n.tags = [] ∧ (n.queryTag E disk' t none false false now).1 = .error .key := by
  intro first second s disk'
  have hmem : ∀ w ∈ ((first.setTag E t x false r).2.2), w = .put (E.fileName key salt₁ t) (match w with | .put _ d => d | .unlink _ => []) := by
    intro w hw
    simp only [Node.setTag, Node.saveTag, Node.saveFile, first, Node.filename, Bool.false_eq_true, if_false, Dict.set, Dict.get, if_true] at hw
    cases he : encodeValue E x with
    | error e =>
      rw [he] at hw
      cases e <;> simp [bind, Except.bind] at hw
    | ok text =>
      rw [he] at hw
      simp only [bind, Except.bind, List.mem_singleton] at hw
      rw [hw]
  have hcache : (first.setTag E t x false r).2.1.cache = [] := by
    simp only [Node.setTag, Node.saveTag, first, Bool.false_eq_true, if_false, if_true]
    split <;> simp [Dict.set, Dict.del, Node.filename]
  have hkey : (first.setTag E t x false r).2.1.key = key := by
    simp only [Node.setTag, Node.saveTag, first, Bool.false_eq_true, if_false, if_true]
    split <;> rfl
  have hf : s.disk (E.fileName key salt₂ t) = none := by
    have : s.disk = ((disk.applyAll (first.setTag E t x false r).2.2).applyAll ((first.setTag E t x false r).2.1.save E rs₁).2) := rfl
    rw [this]
    have h1 : disk.applyAll (first.setTag E t x false r).2.2 (E.fileName key salt₂ t) = none := by
      rw [applyAll_other]
      · exact hfree
      · intro w hw he
        rw [hmem w hw] at he
        exact hnames he.symm
    simp only [Node.save, hcache, Node.saveTags, Disk.applyAll, List.foldl_cons, List.foldl_nil, Node.manifestWrite, Disk.apply, hkey]
    rw [if_neg (fun e => hroot e.symm)]
    exact h1
  have hdisk : disk' = s.disk.apply (.put (E.rootName key) (E.encrypt (E.manifestKey key) (rs₂ (E.rootName key)) (E.dumpManifest ⟨salt₂, [], []⟩))) := rfl
  have hopen : openManifest E disk' key salt now = .ok ⟨salt₂, [], []⟩ := by
    have hd : disk' (E.rootName key) = some (E.encrypt (E.manifestKey key) (rs₂ (E.rootName key)) (E.dumpManifest ⟨salt₂, [], []⟩)) := by
      rw [hdisk]; simp [Disk.apply]
    simp only [openManifest, hd, law.back _ _ _ (law.manifestKey key) hrs, bind, Except.bind, law.manifest _ (Manifest.sound_nil _ _)]
  have hq : disk' (E.fileName key salt₂ t) = none := by
    rw [hdisk]
    simp only [Disk.apply, if_neg (fun e => hroot e.symm : ¬ E.fileName key salt₂ t = E.rootName key)]
    exact hf
  refine ⟨⟨key, ⟨salt₂, [], []⟩, []⟩, ?_, rfl, ?_⟩
  · simp only [openNode, hopen, raiseIf, bind, Except.bind, if_neg (show ¬ key.length < 64 by omega)]
  · simp [Node.queryTag, Node.filename, Dict.get, hq]

/-- A sample in which the names of the files depend on the salt. -/
def saltedEnv : Env Unit Bool := { sampleEnv with fileName := fun _ salt tag => (if salt = [1] then "first " else "second ") ++ tag }

example : saltedEnv.Law (fun _ => True) ∧ saltedEnv.fileName [] [1] "a" ≠ saltedEnv.fileName [] [2] "a" ∧
    saltedEnv.rootName [] ≠ saltedEnv.fileName [] [2] "a" :=
  ⟨⟨sampleEnv_law.back, sampleEnv_law.same, sampleEnv_law.nonempty, sampleEnv_law.fileKey, sampleEnv_law.manifestKey, sampleEnv_law.metaKey,
    sampleEnv_law.manifest⟩, by decide, by decide⟩

end Aiootp.Database
