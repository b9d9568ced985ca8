import Verif.Lemmas.AsyncDbThreads

/-! `asave_database` and `aload_tags` of an object that nobody else uses. -/

namespace Aiootp.AsyncDb

open Database

variable {ρ J : Type} {E : Env ρ J}

theorem mem_of_failure {ps : List (Part ρ J)} {e : Err} (h : failure ps = some e) :
    (∃ f r, Part.save f r (.ended (.error e)) ∈ ps) ∨ (∃ t a b, Part.look t a b (.found (.error e)) ∈ ps) := by
  induction ps with
  | nil => cases h
  | cons p ps ih =>
    unfold failure at h
    split at h
    · rename_i hcons; cases hcons
    · rename_i hcons
      cases hcons; cases h
      exact .inl ⟨_, _, List.mem_cons_self⟩
    · rename_i hcons
      cases hcons; cases h
      exact .inr ⟨_, _, _, List.mem_cons_self⟩
    · rename_i hcons
      cases hcons
      rcases ih h with ⟨f, r, h⟩ | ⟨t, a, b, h⟩
      · exact .inl ⟨f, r, List.mem_cons_of_mem _ h⟩
      · exact .inr ⟨t, a, b, List.mem_cons_of_mem _ h⟩

theorem no_failure {ps : List (Part ρ J)} (h : failure ps = none) (h' : allEnded ps = true) :
    ∀ p ∈ ps, (∃ f r, p = .save f r (.ended (.ok ()))) ∨ (∃ t a b x, p = .look t a b (.found (.ok x))) := by
  induction ps with
  | nil => intro p hp; cases hp
  | cons q ps ih =>
    intro p hp
    have hq : allEnded ps = true ∧ ((∃ f r x, q = .save f r (.ended x)) ∨ ∃ t a b x, q = .look t a b (.found x)) := by
      unfold allEnded at h'
      split at h'
      · rename_i hcons; cases hcons
      · rename_i hcons; cases hcons; exact ⟨h', .inl ⟨_, _, _, rfl⟩⟩
      · rename_i hcons; cases hcons; exact ⟨h', .inr ⟨_, _, _, _, rfl⟩⟩
      · cases h'
    rcases hq.2 with ⟨f, r, x, rfl⟩ | ⟨t, a, b, x, rfl⟩
    · cases x with
      | error e => simp [failure] at h
      | ok u =>
        simp only [failure] at h
        rcases List.mem_cons.1 hp with rfl | hp
        · exact .inl ⟨f, r, rfl⟩
        · exact ih h hq.1 p hp
    · cases x with
      | error e => simp [failure] at h
      | ok u =>
        simp only [failure] at h
        rcases List.mem_cons.1 hp with rfl | hp
        · exact .inr ⟨t, a, b, u, rfl⟩
        · exact ih h hq.1 p hp

/-! ### saving -/

/-- How far the saving of one file is, and what is in it. -/
def SaveAt (E : Env ρ J) (n : Node J) (rs : String → ρ) (old now : Option Bytes) (f : String) : Save → Prop
  | .begin => now = old
  | .opening d => n.saveFile E f (rs f) = .ok (.put f d) ∧ now = old
  | .writing d => n.saveFile E f (rs f) = .ok (.put f d) ∧ now = some []
  | .ended (.ok _) => ∃ d, n.saveFile E f (rs f) = .ok (.put f d) ∧ now = some d
  | .ended (.error e) => n.saveFile E f (rs f) = .error e

theorem SaveAt.step {n : Node J} {rs : String → ρ} {old : Option Bytes} {f : String} {disk : Disk} {s : Save} (h : SaveAt E n rs old (disk f) f s) :
    SaveAt E n rs old ((s.step E n disk f (rs f)).2 f) f (s.step E n disk f (rs f)).1 ∧
    ∀ g, g ≠ f → (s.step E n disk f (rs f)).2 g = disk g := by
  cases s with
  | begin =>
    simp only [SaveAt] at h
    cases hc : n.cache.get f with
    | none =>
      have e : Save.step E n disk f (rs f) .begin = (.ended (.error .attribute), disk) := by simp [Save.step, hc]
      rw [e]
      exact ⟨by simp [SaveAt, Node.saveFile, hc], fun _ _ => rfl⟩
    | some v =>
      cases he : encodeValue E v with
      | error e =>
        have e' : Save.step E n disk f (rs f) .begin = (.ended (.error e), disk) := by simp [Save.step, hc, he]
        rw [e']
        exact ⟨by simp only [SaveAt, Node.saveFile, hc, he]; rfl, fun _ _ => rfl⟩
      | ok text =>
        have e' : Save.step E n disk f (rs f) .begin = (.opening (E.encrypt (E.fileKey n.key n.man.salt f) (rs f) text), disk) := by
          simp [Save.step, hc, he]
        rw [e']
        exact ⟨⟨by simp only [Node.saveFile, hc, he]; rfl, h⟩, fun _ _ => rfl⟩
  | opening d =>
    exact ⟨⟨h.1, by simp [Save.step, Disk.apply]⟩, fun g hg => by simp [Save.step, Disk.apply, hg]⟩
  | writing d =>
    refine ⟨⟨d, h.1, ?_⟩, fun g hg => by simp [Save.step, overwrite, hg]⟩
    simp [Save.step, overwrite, h.2]
  | ended x => exact ⟨by cases x <;> exact h, fun _ _ => rfl⟩

/-- The parts of the `gather` of a save. -/
structure Saving (E : Env ρ J) (n : Node J) (rs : String → ρ) (old : Disk) (disk : Disk) (parts : List (Part ρ J)) : Prop where
  length : parts.length = n.cache.length
  part : ∀ (i : Nat) (p : String × Value J), n.cache[i]? = some p → ∃ s : Save, parts[i]? = some (.save p.1 (rs p.1) s) ∧ SaveAt E n rs (old p.1) (disk p.1) p.1 s
  rest : ∀ f : String, f ∉ n.cache.map Prod.fst → disk f = old f

theorem Saving.mem {n : Node J} {rs : String → ρ} {old disk : Disk} {parts : List (Part ρ J)} (h : Saving E n rs old disk parts) {q : Part ρ J}
    (hq : q ∈ parts) : ∃ p ∈ n.cache, ∃ s, q = .save p.1 (rs p.1) s ∧ SaveAt E n rs (old p.1) (disk p.1) p.1 s := by
  obtain ⟨i, hi, he⟩ := List.mem_iff_getElem.1 hq
  have hi' : i < n.cache.length := by rw [← h.length]; exact hi
  obtain ⟨s, hs, hat⟩ := h.part i n.cache[i] (List.getElem?_eq_getElem hi')
  rw [List.getElem?_eq_getElem hi, he] at hs
  cases hs
  exact ⟨_, List.getElem_mem hi', s, rfl, hat⟩

theorem Saving.step {n : Node J} {rs : String → ρ} {old disk : Disk} {parts : List (Part ρ J)} (h : Saving E n rs old disk parts)
    (hnd : (n.cache.map Prod.fst).Nodup) {i : Nat} {q : Part ρ J} (hq : parts[i]? = some q) :
    ∃ f s, q = .save f (rs f) s ∧ (let y := s.step E n disk f (rs f)
      Saving E n rs old y.2 (parts.set i (.save f (rs f) y.1)) ∧
      (∀ e, s = .ended (.error e) → y.1 = .ended (.error e)) ∧ (s = .ended (.ok ()) → y = (.ended (.ok ()), disk))) := by
  have hi : i < n.cache.length := by
    rw [← h.length]
    exact (List.getElem?_eq_some_iff.1 hq).1
  have hc := List.getElem?_eq_getElem hi
  obtain ⟨s, hs, hat⟩ := h.part i _ hc
  rw [hq] at hs
  cases hs
  obtain ⟨h1, h2⟩ := hat.step
  refine ⟨n.cache[i].1, s, rfl, ⟨by rw [List.length_set]; exact h.length, ?_, ?_⟩, ?_, ?_⟩
  · intro j p hp
    by_cases hj : i = j
    · subst hj
      rw [hc] at hp
      cases hp
      refine ⟨_, ?_, h1⟩
      rw [List.getElem?_set_self (by rw [h.length]; exact hi)]
    · obtain ⟨s', hs', hat'⟩ := h.part j p hp
      refine ⟨s', by rw [List.getElem?_set_ne hj]; exact hs', ?_⟩
      have hne : p.1 ≠ n.cache[i].1 := by
        intro e
        have hj' := (List.getElem?_eq_some_iff.1 hp)
        obtain ⟨hjl, hpe⟩ := hj'
        have hl : i < (n.cache.map Prod.fst).length := by simpa using hi
        have hl' : j < (n.cache.map Prod.fst).length := by simpa using hjl
        exact hj (List.getElem_inj hnd (h₀ := hl) (h₁ := hl') |>.1 (by simp [hpe, e]))
      rw [h2 _ hne]
      exact hat'
  · intro f hf
    rw [h2 f (fun e => hf (by rw [e]; exact List.mem_map_of_mem (List.getElem_mem hi)))]
    exact h.rest f hf
  · intro e he; subst he; rfl
  · intro he; subst he; rfl

theorem saveTags_writes {n : Node J} {rs : String → ρ} (d : Dict (Value J)) (hnd : (d.map Prod.fst).Nodup) (old disk : Disk)
    (h : ∀ p ∈ d, ∃ b, n.saveFile E p.1 (rs p.1) = .ok (.put p.1 b) ∧ disk p.1 = some b) (hrest : ∀ f, f ∉ d.map Prod.fst → disk f = old f) :
    (n.saveTags E rs d).1 = .ok () ∧ old.applyAll (n.saveTags E rs d).2 = disk := by
  induction d generalizing old with
  | nil => exact ⟨rfl, by funext f; exact (hrest f (by simp)).symm⟩
  | cons p d ih =>
    obtain ⟨f, v⟩ := p
    obtain ⟨b, hb, hd⟩ := h (f, v) List.mem_cons_self
    simp only [List.map_cons, List.nodup_cons] at hnd
    have := ih hnd.2 (old.apply (.put f b)) (fun p hp => h p (List.mem_cons_of_mem _ hp)) (fun g hg => by
      simp only [Disk.apply]
      split
      · rename_i e; subst e; exact hd
      · rename_i e; exact hrest g (by simp only [List.map_cons, List.mem_cons, not_or]; exact ⟨e, hg⟩))
    simp only at hb
    simp only [Node.saveTags, hb]
    exact ⟨this.1, this.2⟩

theorem saveTags_error {n : Node J} {rs : String → ρ} (d : Dict (Value J)) {p : String × Value J} (hp : p ∈ d) {e : Err}
    (h : n.saveFile E p.1 (rs p.1) = .error e) : ∃ e', (n.saveTags E rs d).1 = .error e' := by
  induction d with
  | nil => cases hp
  | cons q d ih =>
    obtain ⟨f, v⟩ := q
    simp only [Node.saveTags]
    cases hq : n.saveFile E f (rs f) with
    | error e' => exact ⟨e', rfl⟩
    | ok w =>
      rcases List.mem_cons.1 hp with rfl | hp
      · simp only at h; rw [hq] at h; cases h
      · exact ih hp

/-- What holds while an object is saved that nobody else uses. -/
structure SaveInv (E : Env ρ J) (n : Node J) (disk : Disk) (rs : String → ρ) (k : Nat) (s : Sys ρ J) : Prop where
  node : s.node = n
  idle : ∀ j, j ≠ k → (s.threads j).todo = [] ∧ (s.threads j).call = none ∧ (s.threads j).parts = []
  state : let t := s.threads k
    let data := E.encrypt (E.manifestKey n.key) (rs (E.rootName n.key)) (E.dumpManifest n.man)
    let old := disk.apply (n.manifestWrite E (rs (E.rootName n.key)))
    (t = ⟨[.save rs], none, [], []⟩ ∧ s.disk = disk) ∨
    (t = ⟨[], some (.save rs, .start), [], []⟩ ∧ s.disk = disk) ∨
    (t = ⟨[], some (.save rs, .manifestOpen data), [], []⟩ ∧ s.disk = disk) ∨
    (t = ⟨[], some (.save rs, .manifestWrite data), [], []⟩ ∧ s.disk = disk.apply (.put (E.rootName n.key) [])) ∨
    (t = ⟨[], some (.save rs, .spawning), [], []⟩ ∧ s.disk = old) ∨
    (∃ parts, t = ⟨[], some (.save rs, .gathering), parts, []⟩ ∧ Saving E n rs old s.disk parts) ∨
    (∃ parts, t = ⟨[], none, parts, [.ok none]⟩ ∧ Saving E n rs old s.disk parts ∧ ∀ p ∈ parts, ∃ f r, p = .save f r (.ended (.ok ()))) ∨
    (∃ parts e, t = ⟨[], none, parts, [.error e]⟩ ∧ Saving E n rs old s.disk parts ∧ ∃ f r, Part.save f r (.ended (.error e)) ∈ parts)

theorem saving_spawn (n : Node J) (rs : String → ρ) (old : Disk) : Saving E n rs old old (n.cache.map (fun p => .save p.1 (rs p.1) .begin)) where
  length := by simp
  part i p hp := ⟨.begin, by simp [hp], rfl⟩
  rest _ _ := rfl

theorem SaveInv.step {n : Node J} {disk : Disk} {rs : String → ρ} {k : Nat} {s : Sys ρ J} (hnd : (n.cache.map Prod.fst).Nodup)
    (h : SaveInv E n disk rs k s) (m : Move) : SaveInv E n disk rs k (s.step E m) := by
  obtain ⟨hnode, hidle, hst⟩ := h
  cases m with
  | main j =>
    by_cases hj : j = k
    · subst hj
      have hidle' : ∀ (t : Thread ρ J) (i : Nat), i ≠ j → (if i = j then t else s.threads i).todo = [] ∧
          (if i = j then t else s.threads i).call = none ∧ (if i = j then t else s.threads i).parts = [] := by
        intro t i hi; rw [if_neg hi]; exact hidle i hi
      simp only at hst
      rcases hst with ⟨ht, hd⟩ | ⟨ht, hd⟩ | ⟨ht, hd⟩ | ⟨ht, hd⟩ | ⟨ht, hd⟩ | ⟨parts, ht, hS⟩ | ⟨parts, ht, hS, hend⟩ | ⟨parts, e, ht, hS, hend⟩
      · simp only [Sys.step, Sys.main, ht]
        exact ⟨hnode, hidle' _, .inr (.inl ⟨by simp, hd⟩)⟩
      · simp only [Sys.step, Sys.main, ht, isWide, if_true, wideStep]
        exact ⟨hnode, hidle' _, .inr (.inr (.inl ⟨by simp [hnode], hd⟩))⟩
      · simp only [Sys.step, Sys.main, ht, isWide, if_true, wideStep]
        exact ⟨hnode, hidle' _, .inr (.inr (.inr (.inl ⟨by simp, by simp [hd, hnode]⟩)))⟩
      · simp only [Sys.step, Sys.main, ht, isWide, if_true, wideStep]
        refine ⟨hnode, hidle' _, .inr (.inr (.inr (.inr (.inl ⟨by simp, ?_⟩))))⟩
        simp only [hd, hnode, overwrite_empty, Node.manifestWrite]
      · simp only [Sys.step, Sys.main, ht, isWide, if_true, wideStep]
        refine ⟨hnode, hidle' _, .inr (.inr (.inr (.inr (.inr (.inl ⟨n.cache.map (fun p => .save p.1 (rs p.1) .begin), by simp [hnode], ?_⟩)))))⟩
        simp only [hd]
        exact saving_spawn _ _ _
      · simp only [Sys.step, Sys.main, ht, isWide, if_true, wideStep]
        cases hf : failure parts with
        | some e =>
          simp only
          refine ⟨hnode, hidle' _, .inr (.inr (.inr (.inr (.inr (.inr (.inr ⟨parts, e, by simp, hS, ?_⟩))))))⟩
          rcases mem_of_failure hf with h | ⟨t, a, b, h⟩
          · exact h
          · obtain ⟨_, _, _, h, _⟩ := hS.mem h; cases h
        | none =>
          by_cases ha : allEnded parts = true
          · simp only [ha, if_true]
            refine ⟨hnode, hidle' _, .inr (.inr (.inr (.inr (.inr (.inr (.inl ⟨parts, by simp, hS, ?_⟩))))))⟩
            intro p hp
            rcases no_failure hf ha p hp with h | ⟨t, a, b, x, rfl⟩
            · exact h
            · obtain ⟨_, _, _, h, _⟩ := hS.mem hp; cases h
          · simp only [ha]
            exact ⟨hnode, hidle' _, .inr (.inr (.inr (.inr (.inr (.inl ⟨parts, by simp, hS⟩)))))⟩
      · have e : s.step E (.main j) = s := by simp [Sys.step, Sys.main, ht]
        rw [e]
        exact ⟨hnode, hidle, .inr (.inr (.inr (.inr (.inr (.inr (.inl ⟨parts, ht, hS, hend⟩))))))⟩
      · have e' : s.step E (.main j) = s := by simp [Sys.step, Sys.main, ht]
        rw [e']
        exact ⟨hnode, hidle, .inr (.inr (.inr (.inr (.inr (.inr (.inr ⟨parts, e, ht, hS, hend⟩))))))⟩
    · have e : s.step E (.main j) = s := by simp [Sys.step, Sys.main, (hidle j hj).1, (hidle j hj).2.1]
      rw [e]
      exact ⟨hnode, hidle, hst⟩
  | part j i =>
    cases hq : (s.threads j).parts[i]? with
    | none =>
      have e : s.step E (.part j i) = s := by simp [Sys.step, Sys.part, hq]
      rw [e]
      exact ⟨hnode, hidle, hst⟩
    | some q =>
      have hj : j = k := by
        refine Classical.byContradiction fun hj => ?_
        rw [(hidle j hj).2.2] at hq
        simp at hq
      subst hj
      have hidle' : ∀ (t : Thread ρ J) (i : Nat), i ≠ j → (if i = j then t else s.threads i).todo = [] ∧
          (if i = j then t else s.threads i).call = none ∧ (if i = j then t else s.threads i).parts = [] := by
        intro t i hi; rw [if_neg hi]; exact hidle i hi
      simp only at hst
      have none' : ∀ t : Thread ρ J, s.threads j = t → t.parts = [] → False := by
        intro t ht hp
        rw [ht, hp] at hq
        simp at hq
      rcases hst with ⟨ht, hd⟩ | ⟨ht, hd⟩ | ⟨ht, hd⟩ | ⟨ht, hd⟩ | ⟨ht, hd⟩ | ⟨parts, ht, hS⟩ | ⟨parts, ht, hS, hend⟩ | ⟨parts, e, ht, hS, hend⟩
      · exact absurd rfl (none' _ ht)
      · exact absurd rfl (none' _ ht)
      · exact absurd rfl (none' _ ht)
      · exact absurd rfl (none' _ ht)
      · exact absurd rfl (none' _ ht)
      · have hq' : parts[i]? = some q := by rw [ht] at hq; exact hq
        obtain ⟨f, st, rfl, hS', _, _⟩ := hS.step hnd hq'
        simp only [Sys.step, Sys.part, hq, hnode]
        exact ⟨rfl, hidle' _, .inr (.inr (.inr (.inr (.inr (.inl ⟨_, by simp [ht], hS'⟩)))))⟩
      · have hq' : parts[i]? = some q := by rw [ht] at hq; exact hq
        obtain ⟨f, st, rfl, hS', _, hok⟩ := hS.step hnd hq'
        have hst : st = .ended (.ok ()) := by
          obtain ⟨_, _, h⟩ := hend _ (List.mem_of_getElem? hq')
          cases h; rfl
        simp only [Sys.step, Sys.part, hq, hnode]
        refine ⟨rfl, hidle' _, .inr (.inr (.inr (.inr (.inr (.inr (.inl ⟨_, by simp [ht], hS', ?_⟩))))))⟩
        intro p hp
        rcases List.mem_or_eq_of_mem_set hp with hp | rfl
        · exact hend p hp
        · exact ⟨f, rs f, by rw [hok hst]⟩
      · have hq' : parts[i]? = some q := by rw [ht] at hq; exact hq
        obtain ⟨f, st, rfl, hS', herr, _⟩ := hS.step hnd hq'
        simp only [Sys.step, Sys.part, hq, hnode]
        refine ⟨rfl, hidle' _, .inr (.inr (.inr (.inr (.inr (.inr (.inr ⟨_, e, by simp [ht], hS', ?_⟩))))))⟩
        obtain ⟨g, r, hg⟩ := hend
        obtain ⟨i', hi', he⟩ := List.mem_iff_getElem.1 hg
        refine ⟨g, r, ?_⟩
        by_cases hii : i = i'
        · subst hii
          rw [List.getElem?_eq_getElem hi', he] at hq'
          cases hq'
          rw [herr e rfl]
          exact List.mem_set hi' _
        · have : (parts.set i (Part.save f (rs f) (Save.step E n s.disk f (rs f) st).1))[i']? = some (.save g r (.ended (.error e))) := by
            rw [List.getElem?_set_ne hii, List.getElem?_eq_getElem hi', he]
          exact List.mem_of_getElem? this

theorem SaveInv.run {n : Node J} {disk : Disk} {rs : String → ρ} {k : Nat} (hnd : (n.cache.map Prod.fst).Nodup) (moves : List Move) :
    ∀ {s : Sys ρ J}, SaveInv E n disk rs k s → SaveInv E n disk rs k (s.run E moves) := by
  induction moves with
  | nil => intro s h; exact h
  | cons m ms ih => intro s h; exact ih (h.step hnd m)

/-! ### loading -/

/-- What a query depends on, and what it changes. -/
theorem queryTag_alike {n n' : Node J} {disk : Disk} {tag : String} (hk : n.key = n'.key) (hm : n.man = n'.man)
    (hc : n.cache.get (n'.filename E tag) = n'.cache.get (n'.filename E tag)) (silent : Bool) (now : Int) :
    (n.queryTag E disk tag none silent true now).1 = (n'.queryTag E disk tag none silent true now).1 ∧
    (n.queryTag E disk tag none silent true now).2.cache.get (n'.filename E tag) = (n'.queryTag E disk tag none silent true now).2.cache.get (n'.filename E tag) ∧
    (∀ f, f ≠ n'.filename E tag → (n.queryTag E disk tag none silent true now).2.cache.get f = n.cache.get f) ∧
    (n.queryTag E disk tag none silent true now).2.key = n.key ∧ (n.queryTag E disk tag none silent true now).2.man = n.man := by
  have hfn : n.filename E tag = n'.filename E tag := by simp [Node.filename, hk, hm]
  simp only [Node.queryTag, hfn, hc, hk, hm]
  cases h : n'.cache.get (n'.filename E tag) with
  | some v => simp [h, hc, hk, hm]
  | none =>
    cases hd : disk (n'.filename E tag) with
    | none => simp [h, hc, hk, hm]
    | some b =>
      cases b with
      | nil => simp [h, hc, hk, hm]
      | cons c cs =>
        simp only
        split
        · rename_i e _; simp [h, hc, hk, hm]
        · rename_i v _
          simp only [if_true]
          refine ⟨trivial, by simp [Dict.get_set], fun f hf => by simp [Dict.get_set, hf], trivial, trivial⟩

theorem loadTags_get {n₀ : Node J} {disk : Disk} {silent : Bool} {now : Int} (ts : List String) (hnd : (ts.map (n₀.filename E)).Nodup) :
    ∀ n : Node J, n.key = n₀.key → n.man = n₀.man → (∀ t ∈ ts, n.cache.get (n₀.filename E t) = n₀.cache.get (n₀.filename E t)) →
      (∀ t ∈ ts, ∃ x, (n₀.queryTag E disk t none silent true now).1 = .ok x) →
      (n.loadTags E disk silent now ts).1 = .ok () ∧ (n.loadTags E disk silent now ts).2.key = n₀.key ∧ (n.loadTags E disk silent now ts).2.man = n₀.man ∧
      (∀ t ∈ ts, (n.loadTags E disk silent now ts).2.cache.get (n₀.filename E t) = (n₀.queryTag E disk t none silent true now).2.cache.get (n₀.filename E t)) ∧
      (∀ f, f ∉ ts.map (n₀.filename E) → (n.loadTags E disk silent now ts).2.cache.get f = n.cache.get f) := by
  induction ts with
  | nil => intro n hk hm _ _; exact ⟨rfl, hk, hm, (fun t ht => absurd ht (by simp)), fun f _ => rfl⟩
  | cons t ts ih =>
    intro n hk hm hc hok
    simp only [List.map_cons, List.nodup_cons] at hnd
    obtain ⟨q1, q2, q3, q4, q5⟩ := queryTag_alike (E := E) (disk := disk) hk hm (hc t List.mem_cons_self) silent now
    obtain ⟨x, hx⟩ := hok t List.mem_cons_self
    have hne : ∀ u ∈ ts, n₀.filename E u ≠ n₀.filename E t := fun u hu e => hnd.1 (by rw [← e]; exact List.mem_map_of_mem hu)
    obtain ⟨i1, i2, i3, i4, i5⟩ := ih hnd.2 (n.queryTag E disk t none silent true now).2 (q4.trans hk) (q5.trans hm)
      (fun u hu => by rw [q3 _ (hne u hu)]; exact hc u (List.mem_cons_of_mem _ hu)) (fun u hu => hok u (List.mem_cons_of_mem _ hu))
    have e : n.loadTags E disk silent now (t :: ts) = (n.queryTag E disk t none silent true now).2.loadTags E disk silent now ts := by
      rw [Node.loadTags]
      generalize hq : n.queryTag E disk t none silent true now = q at q1
      obtain ⟨a, b⟩ := q
      simp only at q1
      rw [hx] at q1
      subst q1
      rfl
    rw [e]
    refine ⟨i1, i2, i3, ?_, ?_⟩
    · intro u hu
      rcases List.mem_cons.1 hu with rfl | hu
      · rw [i5 _ hnd.1, q2]
      · exact i4 u hu
    · intro f hf
      simp only [List.map_cons, List.mem_cons, not_or] at hf
      rw [i5 f hf.2, q3 f hf.1]

theorem loadTags_error {n₀ : Node J} {disk : Disk} {silent : Bool} {now : Int} (ts : List String) (hnd : (ts.map (n₀.filename E)).Nodup) :
    ∀ n : Node J, n.key = n₀.key → n.man = n₀.man → (∀ t ∈ ts, n.cache.get (n₀.filename E t) = n₀.cache.get (n₀.filename E t)) →
      ∀ t ∈ ts, ∀ e, (n₀.queryTag E disk t none silent true now).1 = .error e → ∃ e', (n.loadTags E disk silent now ts).1 = .error e' := by
  induction ts with
  | nil => intro n _ _ _ t ht; cases ht
  | cons t ts ih =>
    intro n hk hm hc u hu e he
    simp only [List.map_cons, List.nodup_cons] at hnd
    obtain ⟨q1, q2, q3, q4, q5⟩ := queryTag_alike (E := E) (disk := disk) hk hm (hc t List.mem_cons_self) silent now
    have hne : ∀ u ∈ ts, n₀.filename E u ≠ n₀.filename E t := fun u hu e => hnd.1 (by rw [← e]; exact List.mem_map_of_mem hu)
    have ih' := ih hnd.2 (n.queryTag E disk t none silent true now).2 (q4.trans hk) (q5.trans hm)
      (fun u hu => by rw [q3 _ (hne u hu)]; exact hc u (List.mem_cons_of_mem _ hu))
    rw [Node.loadTags]
    generalize hq : n.queryTag E disk t none silent true now = q at q1 ih'
    obtain ⟨a, b⟩ := q
    simp only at q1 ih'
    cases a with
    | error e' => exact ⟨e', rfl⟩
    | ok x =>
      rcases List.mem_cons.1 hu with rfl | hu
      · rw [he] at q1; cases q1
      · exact ih' u hu e he

/-- How far the loading of one tag is, and what is cached for it. -/
def LookAt (E : Env ρ J) (n : Node J) (disk : Disk) (silent : Bool) (now : Int) (tag : String) (cached : Option (Value J)) : Look J → Prop
  | .lookup => cached = n.cache.get (n.filename E tag)
  | .reading => n.cache.get (n.filename E tag) = none ∧ cached = none
  | .decrypting c => n.cache.get (n.filename E tag) = none ∧ cached = none ∧ c ≠ [] ∧ disk (n.filename E tag) = some c
  | .found x => x = (n.queryTag E disk tag none silent true now).1 ∧ cached = (n.queryTag E disk tag none silent true now).2.cache.get (n.filename E tag)

theorem LookAt.step {n₀ n : Node J} {disk : Disk} {silent : Bool} {now : Int} {tag : String} (hk : n.key = n₀.key) (hm : n.man = n₀.man) {l : Look J}
    (h : LookAt E n₀ disk silent now tag (n.cache.get (n₀.filename E tag)) l) :
    let y := l.step E n disk (n₀.filename E tag) none silent true now
    LookAt E n₀ disk silent now tag (y.2.cache.get (n₀.filename E tag)) y.1 ∧ (∀ f, f ≠ n₀.filename E tag → y.2.cache.get f = n.cache.get f) ∧
    y.2.key = n.key ∧ y.2.man = n.man := by
  intro y
  cases l with
  | lookup =>
    simp only [LookAt] at h
    cases hc : n₀.cache.get (n₀.filename E tag) with
    | some v =>
      have e : y = (.found (.ok (some v)), n) := by simp [y, Look.step, h, hc]
      rw [e]
      exact ⟨⟨by simp [Node.queryTag, hc], by simp [Node.queryTag, hc, h]⟩, fun _ _ => rfl, rfl, rfl⟩
    | none =>
      have e : y = (.reading, n) := by simp [y, Look.step, h, hc]
      rw [e]
      exact ⟨⟨hc, by rw [h, hc]⟩, fun _ _ => rfl, rfl, rfl⟩
  | reading =>
    obtain ⟨h1, h2⟩ := h
    cases hd : disk (n₀.filename E tag) with
    | none =>
      have e : y = (.found (if silent then .ok none else .error .key), n) := by simp [y, Look.step, hd]
      rw [e]
      exact ⟨⟨by simp [Node.queryTag, h1, hd], by simp [Node.queryTag, h1, hd, h2]⟩, fun _ _ => rfl, rfl, rfl⟩
    | some b =>
      cases b with
      | nil =>
        have e : y = (.found (.ok none), n) := by simp [y, Look.step, hd]
        rw [e]
        exact ⟨⟨by simp [Node.queryTag, h1, hd], by simp [Node.queryTag, h1, hd, h2]⟩, fun _ _ => rfl, rfl, rfl⟩
      | cons c cs =>
        have e : y = (.decrypting (c :: cs), n) := by simp [y, Look.step, hd]
        rw [e]
        exact ⟨⟨h1, h2, by simp, hd⟩, fun _ _ => rfl, rfl, rfl⟩
  | decrypting c =>
    obtain ⟨h1, h2, h3, h4⟩ := h
    obtain ⟨b, bs, rfl⟩ := List.exists_cons_of_ne_nil h3
    cases hx : (do let text ← E.decrypt (E.fileKey n₀.key n₀.man.salt (n₀.filename E tag)) now none (b :: bs); decodeValue E text : Except Err (Value J)) with
    | error e' =>
      have e : y = (.found (.error e'), n) := by simp only [y, Look.step, hk, hm, hx]
      rw [e]
      exact ⟨⟨by simp only [Node.queryTag, h1, h4, hx], by simp only [Node.queryTag, h1, h4, hx, h2]⟩, fun _ _ => rfl, rfl, rfl⟩
    | ok v =>
      have e : y = (.found (.ok (some v)), { n with cache := n.cache.set (n₀.filename E tag) v }) := by simp only [y, Look.step, hk, hm, hx, if_true]
      rw [e]
      refine ⟨⟨by simp only [Node.queryTag, h1, h4, hx], ?_⟩, fun f hf => by simp [Dict.get_set, hf], rfl, rfl⟩
      simp only [Node.queryTag, h1, h4, hx, if_true, Dict.get_set]
  | found x => exact ⟨h, fun _ _ => rfl, rfl, rfl⟩

/-- The parts of the `gather` of a load. -/
structure Loading (E : Env ρ J) (n₀ : Node J) (disk : Disk) (silent : Bool) (now : Int) (n : Node J) (parts : List (Part ρ J)) : Prop where
  key : n.key = n₀.key
  man : n.man = n₀.man
  length : parts.length = n₀.tags.length
  part : ∀ (i : Nat) (t : String), n₀.tags[i]? = some t → ∃ l : Look J, parts[i]? = some (.look t silent now l) ∧
    LookAt E n₀ disk silent now t (n.cache.get (n₀.filename E t)) l
  rest : ∀ f : String, f ∉ n₀.tags.map (n₀.filename E) → n.cache.get f = n₀.cache.get f

theorem Loading.mem {n₀ n : Node J} {disk : Disk} {silent : Bool} {now : Int} {parts : List (Part ρ J)} (h : Loading E n₀ disk silent now n parts) {q : Part ρ J}
    (hq : q ∈ parts) : ∃ t ∈ n₀.tags, ∃ l, q = .look t silent now l ∧ LookAt E n₀ disk silent now t (n.cache.get (n₀.filename E t)) l := by
  obtain ⟨i, hi, he⟩ := List.mem_iff_getElem.1 hq
  have hi' : i < n₀.tags.length := by rw [← h.length]; exact hi
  obtain ⟨s, hs, hat⟩ := h.part i n₀.tags[i] (List.getElem?_eq_getElem hi')
  rw [List.getElem?_eq_getElem hi, he] at hs
  cases hs
  exact ⟨_, List.getElem_mem hi', s, rfl, hat⟩

theorem Loading.step {n₀ n : Node J} {disk : Disk} {silent : Bool} {now : Int} {parts : List (Part ρ J)} (h : Loading E n₀ disk silent now n parts)
    (hnd : (n₀.tags.map (n₀.filename E)).Nodup) {i : Nat} {q : Part ρ J} (hq : parts[i]? = some q) :
    ∃ t l, q = .look t silent now l ∧ (let y := l.step E n disk (n.filename E t) none silent true now
      Loading E n₀ disk silent now y.2 (parts.set i (.look t silent now y.1)) ∧ (∀ x, l = .found x → y.1 = .found x)) := by
  have hi : i < n₀.tags.length := by
    rw [← h.length]
    exact (List.getElem?_eq_some_iff.1 hq).1
  have hc := List.getElem?_eq_getElem hi
  obtain ⟨l, hs, hat⟩ := h.part i _ hc
  rw [hq] at hs
  cases hs
  have hfn : ∀ t, n.filename E t = n₀.filename E t := fun t => by simp [Node.filename, h.key, h.man]
  obtain ⟨h1, h2, h3, h4⟩ := hat.step h.key h.man
  refine ⟨n₀.tags[i], l, rfl, ?_, ?_⟩
  · simp only [hfn]
    refine ⟨h3.trans h.key, h4.trans h.man, by rw [List.length_set]; exact h.length, ?_, ?_⟩
    · intro j t ht
      by_cases hj : i = j
      · subst hj
        rw [hc] at ht
        cases ht
        refine ⟨_, ?_, h1⟩
        rw [List.getElem?_set_self (by rw [h.length]; exact hi)]
      · obtain ⟨l', hl', hat'⟩ := h.part j t ht
        refine ⟨l', by rw [List.getElem?_set_ne hj]; exact hl', ?_⟩
        have hne : n₀.filename E t ≠ n₀.filename E n₀.tags[i] := by
          intro e
          obtain ⟨hjl, hpe⟩ := List.getElem?_eq_some_iff.1 ht
          have hl : i < (n₀.tags.map (n₀.filename E)).length := by simpa using hi
          have hl' : j < (n₀.tags.map (n₀.filename E)).length := by simpa using hjl
          exact hj (List.getElem_inj hnd (h₀ := hl) (h₁ := hl') |>.1 (by simp [hpe, e]))
        rw [h2 _ hne]
        exact hat'
    · intro f hf
      rw [h2 f (fun e => hf (by rw [e]; exact List.mem_map_of_mem (List.getElem_mem hi)))]
      exact h.rest f hf
  · intro x hx; subst hx; rfl

/-- What holds while the tags of an object are loaded that nobody else uses. -/
structure LoadInv (E : Env ρ J) (n : Node J) (disk : Disk) (silent : Bool) (now : Int) (k : Nat) (s : Sys ρ J) : Prop where
  same : s.disk = disk
  idle : ∀ j, j ≠ k → (s.threads j).todo = [] ∧ (s.threads j).call = none ∧ (s.threads j).parts = []
  state : let t := s.threads k
    (t = ⟨[.loadTags silent now], none, [], []⟩ ∧ s.node = n) ∨
    (t = ⟨[], some (.loadTags silent now, .start), [], []⟩ ∧ s.node = n) ∨
    (∃ parts, t = ⟨[], some (.loadTags silent now, .gathering), parts, []⟩ ∧ Loading E n disk silent now s.node parts) ∨
    (∃ parts, t = ⟨[], none, parts, [.ok none]⟩ ∧ Loading E n disk silent now s.node parts ∧ ∀ p ∈ parts, ∃ t a b x, p = .look t a b (.found (.ok x))) ∨
    (∃ parts e, t = ⟨[], none, parts, [.error e]⟩ ∧ Loading E n disk silent now s.node parts ∧ ∃ t a b, Part.look t a b (.found (.error e)) ∈ parts)

theorem loading_spawn (n : Node J) (disk : Disk) (silent : Bool) (now : Int) :
    Loading E n disk silent now n (n.tags.map (fun t => (.look t silent now .lookup : Part ρ J))) where
  key := rfl
  man := rfl
  length := by simp
  part i p hp := ⟨.lookup, by simp [hp], rfl⟩
  rest _ _ := rfl

theorem LoadInv.step {n : Node J} {disk : Disk} {silent : Bool} {now : Int} {k : Nat} {s : Sys ρ J} (hnd : (n.tags.map (n.filename E)).Nodup)
    (h : LoadInv E n disk silent now k s) (m : Move) : LoadInv E n disk silent now k (s.step E m) := by
  obtain ⟨hdisk, hidle, hst⟩ := h
  cases m with
  | main j =>
    by_cases hj : j = k
    · subst hj
      have hidle' : ∀ (t : Thread ρ J) (i : Nat), i ≠ j → (if i = j then t else s.threads i).todo = [] ∧
          (if i = j then t else s.threads i).call = none ∧ (if i = j then t else s.threads i).parts = [] := by
        intro t i hi; rw [if_neg hi]; exact hidle i hi
      simp only at hst
      rcases hst with ⟨ht, hd⟩ | ⟨ht, hd⟩ | ⟨parts, ht, hS⟩ | ⟨parts, ht, hS, hend⟩ | ⟨parts, e, ht, hS, hend⟩
      · simp only [Sys.step, Sys.main, ht]
        exact ⟨hdisk, hidle' _, .inr (.inl ⟨by simp, hd⟩)⟩
      · simp only [Sys.step, Sys.main, ht, isWide, if_true, wideStep]
        refine ⟨hdisk, hidle' _, .inr (.inr (.inl ⟨s.node.tags.map (fun t => .look t silent now .lookup), by simp, ?_⟩))⟩
        simp only [hd]
        exact loading_spawn _ _ _ _
      · simp only [Sys.step, Sys.main, ht, isWide, if_true, wideStep]
        cases hf : failure parts with
        | some e =>
          simp only
          refine ⟨hdisk, hidle' _, .inr (.inr (.inr (.inr ⟨parts, e, by simp, hS, ?_⟩)))⟩
          rcases mem_of_failure hf with ⟨f, r, h⟩ | h
          · obtain ⟨_, _, _, h, _⟩ := hS.mem h; cases h
          · exact h
        | none =>
          by_cases ha : allEnded parts = true
          · simp only [ha, if_true]
            refine ⟨hdisk, hidle' _, .inr (.inr (.inr (.inl ⟨parts, by simp, hS, ?_⟩)))⟩
            intro p hp
            rcases no_failure hf ha p hp with ⟨f, r, rfl⟩ | h
            · obtain ⟨_, _, _, h, _⟩ := hS.mem hp; cases h
            · exact h
          · simp only [ha]
            exact ⟨hdisk, hidle' _, .inr (.inr (.inl ⟨parts, by simp, hS⟩))⟩
      · have e : s.step E (.main j) = s := by simp [Sys.step, Sys.main, ht]
        rw [e]
        exact ⟨hdisk, hidle, .inr (.inr (.inr (.inl ⟨parts, ht, hS, hend⟩)))⟩
      · have e' : s.step E (.main j) = s := by simp [Sys.step, Sys.main, ht]
        rw [e']
        exact ⟨hdisk, hidle, .inr (.inr (.inr (.inr ⟨parts, e, ht, hS, hend⟩)))⟩
    · have e : s.step E (.main j) = s := by simp [Sys.step, Sys.main, (hidle j hj).1, (hidle j hj).2.1]
      rw [e]
      exact ⟨hdisk, hidle, hst⟩
  | part j i =>
    cases hq : (s.threads j).parts[i]? with
    | none =>
      have e : s.step E (.part j i) = s := by simp [Sys.step, Sys.part, hq]
      rw [e]
      exact ⟨hdisk, hidle, hst⟩
    | some q =>
      have hj : j = k := by
        refine Classical.byContradiction fun hj => ?_
        rw [(hidle j hj).2.2] at hq
        simp at hq
      subst hj
      have hidle' : ∀ (t : Thread ρ J) (i : Nat), i ≠ j → (if i = j then t else s.threads i).todo = [] ∧
          (if i = j then t else s.threads i).call = none ∧ (if i = j then t else s.threads i).parts = [] := by
        intro t i hi; rw [if_neg hi]; exact hidle i hi
      simp only at hst
      have none' : ∀ t : Thread ρ J, s.threads j = t → t.parts = [] → False := by
        intro t ht hp
        rw [ht, hp] at hq
        simp at hq
      rcases hst with ⟨ht, hd⟩ | ⟨ht, hd⟩ | ⟨parts, ht, hS⟩ | ⟨parts, ht, hS, hend⟩ | ⟨parts, e, ht, hS, hend⟩
      · exact absurd rfl (none' _ ht)
      · exact absurd rfl (none' _ ht)
      · have hq' : parts[i]? = some q := by rw [ht] at hq; exact hq
        obtain ⟨t, l, rfl, hS', _⟩ := hS.step hnd hq'
        simp only [Sys.step, Sys.part, hq, hdisk]
        exact ⟨rfl, hidle' _, .inr (.inr (.inl ⟨_, by simp [ht], hS'⟩))⟩
      · have hq' : parts[i]? = some q := by rw [ht] at hq; exact hq
        obtain ⟨t, l, rfl, hS', hfound⟩ := hS.step hnd hq'
        obtain ⟨_, _, _, x, hx⟩ := hend _ (List.mem_of_getElem? hq')
        cases hx
        simp only [Sys.step, Sys.part, hq, hdisk]
        refine ⟨rfl, hidle' _, .inr (.inr (.inr (.inl ⟨_, by simp [ht], hS', ?_⟩)))⟩
        intro p hp
        rcases List.mem_or_eq_of_mem_set hp with hp | rfl
        · exact hend p hp
        · exact ⟨t, silent, now, x, by rw [hfound _ rfl]⟩
      · have hq' : parts[i]? = some q := by rw [ht] at hq; exact hq
        obtain ⟨t, l, rfl, hS', hfound⟩ := hS.step hnd hq'
        simp only [Sys.step, Sys.part, hq, hdisk]
        refine ⟨rfl, hidle' _, .inr (.inr (.inr (.inr ⟨_, e, by simp [ht], hS', ?_⟩)))⟩
        obtain ⟨g, a, b, hg⟩ := hend
        obtain ⟨i', hi', he⟩ := List.mem_iff_getElem.1 hg
        refine ⟨g, a, b, ?_⟩
        by_cases hii : i = i'
        · subst hii
          rw [List.getElem?_eq_getElem hi', he] at hq'
          cases hq'
          rw [hfound _ rfl]
          exact List.mem_set hi' _
        · refine List.mem_of_getElem? (i := i') ?_
          rw [List.getElem?_set_ne hii, List.getElem?_eq_getElem hi', he]

theorem LoadInv.run {n : Node J} {disk : Disk} {silent : Bool} {now : Int} {k : Nat} (hnd : (n.tags.map (n.filename E)).Nodup) (moves : List Move) :
    ∀ {s : Sys ρ J}, LoadInv E n disk silent now k s → LoadInv E n disk silent now k (s.run E moves) := by
  induction moves with
  | nil => intro s h; exact h
  | cons m ms ih => intro s h; exact ih (h.step hnd m)

end Aiootp.AsyncDb
