import Verif.Lemmas.AsyncDbGather
import Verif.Props.Database

/-!
C71, C72: `AsyncDatabase`. The model is that of coroutines whose steps are interleaved (Model/AsyncDb.lean); a schedule is a list of moves. The
calls of the synchronous class (Model/Database.lean), about which C40-C45 speak, are what they are compared with.
-/

namespace Aiootp.AsyncDb

open Database

variable {ρ J : Type} {E : Env ρ J}

/-! ### C71: nobody else uses the object -/

/-- Coroutine `k` makes calls, the others make none. -/
def alone (k : Nat) (ops : List (Op ρ J)) : Nat → List (Op ρ J) := fun j => if j = k then ops else []

/-- C71: calls on tags, one after another, return what they return in the synchronous class, and leave the same object and the same files. They
end after at most six steps each. -/
theorem C71_calls (node : Node J) (disk : Disk) (k : Nat) (ops : List (Op ρ J)) (hops : ∀ op ∈ ops, ∃ t, op.tag? = some t) (moves : List Move) :
    let s := (Sys.start node disk (alone k ops)).run E moves
    let t := s.threads k
    t.results <+: results E ⟨node, disk⟩ ops ∧
    (6 * ops.length ≤ moves.count (.main k) → t.todo = [] ∧ t.call = none) ∧
    (t.todo = [] → t.call = none →
      t.results = results E ⟨node, disk⟩ ops ∧ (⟨s.node, s.disk⟩ : Database.Sys J) = Database.Sys.run E ⟨node, disk⟩ ops) := by
  intro s t
  have hk : ((Sys.start node disk (alone k ops)).threads k) = ⟨ops, none, [], []⟩ := by simp [Sys.start, alone]
  have := run_alone (E := E) (k := k) moves (s := Sys.start node disk (alone k ops)) (by rw [hk]; exact hops) (by rw [hk]; intro op pc h; cases h)
    (fun _ => rfl) (fun j hj => by simp [Sys.start, alone, hj])
  rw [hk] at this
  obtain ⟨h1, h2, h3⟩ := this
  obtain ⟨m1, m2, m3⟩ := (Mid.iter (E := E) (s₀ := ⟨node, disk⟩) hops (moves.count (.main k))).end
  have h3' : t = _ := h3
  rw [h3']
  refine ⟨m1, m2, fun a b => ?_⟩
  obtain ⟨r1, r2, r3⟩ := m3 a b
  refine ⟨r1, ?_⟩
  show (⟨((Sys.start node disk (alone k ops)).run E moves).node, ((Sys.start node disk (alone k ops)).run E moves).disk⟩ : Database.Sys J) = _
  rw [h1, h2]
  show (⟨(One.iter E _ ⟨node, disk, ⟨ops, none, [], []⟩⟩).node, (One.iter E _ ⟨node, disk, ⟨ops, none, [], []⟩⟩).disk⟩ : Database.Sys J) = _
  rw [r2, r3]

/-- C71: the cache is cleared as by the synchronous class. -/
theorem C71_clear (node : Node J) (disk : Disk) (k : Nat) (more : Nat) :
    let s := (Sys.start (ρ := ρ) node disk (alone k [.clearCache])).run E (List.replicate (more + 2) (.main k))
    (s.threads k).results = [.ok none] ∧ (⟨s.node, s.disk⟩ : Database.Sys J) = Database.Sys.step E ⟨node, disk⟩ (.clearCache : Op ρ J) := by
  have h : ∀ (m : Nat) (s : Sys ρ J), (s.threads k).call = none → (s.threads k).todo = [] → s.run E (List.replicate m (.main k)) = s := by
    intro m
    induction m with
    | zero => intro s _ _; rfl
    | succ m ih =>
      intro s hc ht
      have e : s.main E k = s := by simp [Sys.main, hc, ht]
      show (s.main E k).run E _ = s
      rw [e]; exact ih s hc ht
  intro s
  have : s = ((Sys.start (ρ := ρ) node disk (alone k [.clearCache])).main E k).main E k := by
    refine h more _ ?_ ?_ <;> simp [Sys.step, Sys.main, Sys.start, alone, isWide, wideStep]
  rw [this]
  simp [Sys.main, Sys.start, alone, isWide, wideStep, Database.Sys.step, Op.run, Disk.applyAll]

/-- C71: a database that is saved: whatever the order in which its files are written, when the call has returned, then the object is as before
and the files are those that the synchronous class writes; and it has raised an exception only if the synchronous class does. -/
theorem C71_save (node : Node J) (disk : Disk) (k : Nat) (rs : String → ρ) (hnames : (node.cache.map Prod.fst).Nodup) (moves : List Move) :
    let s := (Sys.start node disk (alone k [.save rs])).run E moves
    ((s.threads k).results = [.ok none] → (node.save E rs).1 = .ok () ∧ s.node = node ∧ s.disk = disk.applyAll (node.save E rs).2) ∧
    (∀ e, (s.threads k).results = [.error e] → ∃ e', (node.save E rs).1 = .error e') ∧
    ((s.threads k).results = [] ∨ ∃ x, (s.threads k).results = [x] ∧ ∀ v, x ≠ .ok (some v)) := by
  intro s
  have h0 : SaveInv E node disk rs k (Sys.start node disk (alone k [.save rs])) :=
    ⟨rfl, fun j hj => ⟨by simp [Sys.start, alone, hj], rfl, rfl⟩, .inl ⟨by simp [Sys.start, alone], rfl⟩⟩
  obtain ⟨hn, _, hst⟩ := h0.run hnames moves
  have hn' : s.node = node := hn
  have nope : (∃ pc ps todo, s.threads k = ⟨todo, pc, ps, []⟩) →
      ((s.threads k).results = [.ok none] → (node.save E rs).1 = .ok () ∧ s.node = node ∧ s.disk = disk.applyAll (node.save E rs).2) ∧
      (∀ e, (s.threads k).results = [.error e] → ∃ e', (node.save E rs).1 = .error e') ∧
      ((s.threads k).results = [] ∨ ∃ x, (s.threads k).results = [x] ∧ ∀ v, x ≠ .ok (some v)) := by
    rintro ⟨pc, ps, todo, h⟩
    rw [h]
    exact ⟨fun h => by simp at h, fun e h => by simp at h, .inl rfl⟩
  simp only at hst
  rcases hst with ⟨ht, hd⟩ | ⟨ht, hd⟩ | ⟨ht, hd⟩ | ⟨ht, hd⟩ | ⟨ht, hd⟩ | ⟨parts, ht, hS⟩ | ⟨parts, ht, hS, hend⟩ | ⟨parts, e, ht, hS, hend⟩
  · exact nope ⟨_, _, _, ht⟩
  · exact nope ⟨_, _, _, ht⟩
  · exact nope ⟨_, _, _, ht⟩
  · exact nope ⟨_, _, _, ht⟩
  · exact nope ⟨_, _, _, ht⟩
  · exact nope ⟨_, _, _, ht⟩
  · have ht' : s.threads k = _ := ht
    rw [ht']
    refine ⟨fun _ => ?_, fun e h => by simp at h, .inr ⟨_, rfl, fun v h => by cases h⟩⟩
    have := saveTags_writes (E := E) (n := node) (rs := rs) node.cache hnames _ s.disk (fun p hp => by
        obtain ⟨i, hi, he⟩ := List.mem_iff_getElem.1 hp
        obtain ⟨st, hst, hat⟩ := hS.part i p (by rw [List.getElem?_eq_getElem hi, he])
        obtain ⟨_, _, h⟩ := hend _ (List.mem_of_getElem? hst)
        cases h
        exact hat) hS.rest
    exact ⟨this.1, hn', this.2.symm⟩
  · have ht' : s.threads k = _ := ht
    rw [ht']
    refine ⟨fun h => by simp at h, fun e' h => ?_, .inr ⟨_, rfl, fun v h => by cases h⟩⟩
    obtain ⟨f, r, hm⟩ := hend
    obtain ⟨p, hp, st, hq, hat⟩ := hS.mem hm
    cases hq
    exact saveTags_error (E := E) node.cache hp hat

/-- C71: tags that are loaded: whatever the order in which their files are read, when the call has returned, then the directory and the manifest are
as before and for every file the same value is cached as by the synchronous class; and it has raised an exception only if the synchronous class
does. -/
theorem C71_load (node : Node J) (disk : Disk) (k : Nat) (silent : Bool) (now : Int) (hnames : (node.tags.map (node.filename E)).Nodup) (moves : List Move) :
    let s := (Sys.start (ρ := ρ) node disk (alone k [.loadTags silent now])).run E moves
    let sync := node.loadTags E disk silent now node.tags
    ((s.threads k).results = [.ok none] → sync.1 = .ok () ∧ s.disk = disk ∧ s.node.key = sync.2.key ∧ s.node.man = sync.2.man ∧
      ∀ f, s.node.cache.get f = sync.2.cache.get f) ∧
    (∀ e, (s.threads k).results = [.error e] → ∃ e', sync.1 = .error e') ∧
    ((s.threads k).results = [] ∨ ∃ x, (s.threads k).results = [x] ∧ ∀ v, x ≠ .ok (some v)) := by
  intro s sync
  have h0 : LoadInv E node disk silent now k (Sys.start (ρ := ρ) node disk (alone k [.loadTags silent now])) :=
    ⟨rfl, fun j hj => ⟨by simp [Sys.start, alone, hj], rfl, rfl⟩, .inl ⟨by simp [Sys.start, alone], rfl⟩⟩
  obtain ⟨hd, _, hst⟩ := h0.run hnames moves
  have hd' : s.disk = disk := hd
  simp only at hst
  rcases hst with ⟨ht, hd⟩ | ⟨ht, hd⟩ | ⟨parts, ht, hS⟩ | ⟨parts, ht, hS, hend⟩ | ⟨parts, e, ht, hS, hend⟩
  · have ht' : s.threads k = _ := ht
    rw [ht']
    exact ⟨fun h => by simp at h, fun e h => by simp at h, .inl rfl⟩
  · have ht' : s.threads k = _ := ht
    rw [ht']
    exact ⟨fun h => by simp at h, fun e h => by simp at h, .inl rfl⟩
  · have ht' : s.threads k = _ := ht
    rw [ht']
    exact ⟨fun h => by simp at h, fun e h => by simp at h, .inl rfl⟩
  · have ht' : s.threads k = _ := ht
    rw [ht']
    refine ⟨fun _ => ?_, fun e h => by simp at h, .inr ⟨_, rfl, fun v h => by cases h⟩⟩
    have hq : ∀ t ∈ node.tags, ∃ x, (node.queryTag E disk t none silent true now).1 = .ok x ∧
        s.node.cache.get (node.filename E t) = (node.queryTag E disk t none silent true now).2.cache.get (node.filename E t) := by
      intro t htags
      obtain ⟨i, hi, he⟩ := List.mem_iff_getElem.1 htags
      obtain ⟨l, hl, hat⟩ := hS.part i t (by rw [List.getElem?_eq_getElem hi, he])
      obtain ⟨_, _, _, x, h⟩ := hend _ (List.mem_of_getElem? hl)
      cases h
      exact ⟨x, hat.1.symm, hat.2⟩
    obtain ⟨l1, l2, l3, l4, l5⟩ := loadTags_get (E := E) (disk := disk) (silent := silent) (now := now) node.tags hnames node rfl rfl (fun _ _ => rfl)
      (fun t ht => (hq t ht).imp fun _ h => h.1)
    refine ⟨l1, hd', hS.key.trans l2.symm, hS.man.trans l3.symm, fun f => ?_⟩
    by_cases hf : f ∈ node.tags.map (node.filename E)
    · obtain ⟨t, ht, rfl⟩ := List.mem_map.1 hf
      obtain ⟨x, _, h⟩ := hq t ht
      exact h.trans (l4 t ht).symm
    · exact (hS.rest f hf).trans (l5 f hf).symm
  · have ht' : s.threads k = _ := ht
    rw [ht']
    refine ⟨fun h => by simp at h, fun e' h => ?_, .inr ⟨_, rfl, fun v h => by cases h⟩⟩
    obtain ⟨f, a, b, hm⟩ := hend
    obtain ⟨t, htags, l, hq, hat⟩ := hS.mem hm
    cases hq
    exact loadTags_error (E := E) node.tags hnames node rfl rfl (fun _ _ => rfl) _ htags _ hat.1.symm

/-! ### C72: coroutines that use one object -/

/-- C72, for coroutines that use different tags: at any point of any schedule, each coroutine has got from its calls what it would get from
the synchronous class with nobody else there; it ends after at most six steps for each call; and then its tags have the cached values, the records
and the files that its own calls leave. -/
theorem C72_own_tags_partial (node : Node J) (disk : Disk) (calls : Nat → List (Op ρ J)) (T : Nat → String → Prop)
    (hnames : ∀ k, Names (T k) (calls k))
    (hapart : ∀ j k t u, j ≠ k → T j t → T k u → node.filename E t ≠ node.filename E u) (moves : List Move) (k : Nat) :
    let s := (Sys.start node disk calls).run E moves
    let t := s.threads k
    let sync := Database.Sys.run E ⟨node, disk⟩ (calls k)
    t.results <+: results E ⟨node, disk⟩ (calls k) ∧
    (6 * (calls k).length ≤ moves.count (.main k) → t.todo = [] ∧ t.call = none) ∧
    (t.todo = [] → t.call = none → t.results = results E ⟨node, disk⟩ (calls k) ∧
      ∀ tag, T k tag → s.node.cache.get (node.filename E tag) = sync.node.cache.get (node.filename E tag) ∧
        s.node.man.files.get (node.filename E tag) = sync.node.man.files.get (node.filename E tag) ∧
        s.disk (node.filename E tag) = sync.disk (node.filename E tag)) := by
  intro s t sync
  have ha : Agree T node.key node.man.salt E k (Sys.start node disk calls) ⟨node, disk, ⟨calls k, none, [], []⟩⟩ :=
    ⟨rfl, fun _ _ => Same.refl _ _ _, rfl, rfl⟩
  have hr := agree_run (E := E) (fun j t u hj ht hu => hapart j k t u hj ht hu) moves (good_start (disk := disk) hnames) ha
  obtain ⟨m1, m2, m3⟩ := (Mid.iter (E := E) (s₀ := ⟨node, disk⟩) (calls := calls k) (fun op ho => by
    obtain ⟨t, _, ht⟩ := hnames k op ho; exact ⟨t, ht⟩) (moves.count (.main k))).end
  have ht : t = _ := hr.thread
  rw [ht]
  refine ⟨m1, m2, fun a b => ?_⟩
  obtain ⟨r1, r2, r3⟩ := m3 a b
  refine ⟨r1, fun tag hT => ?_⟩
  have hs := hr.same tag hT
  have e1 : sync.node = _ := r2.symm
  have e2 : sync.disk = _ := r3.symm
  rw [e1, e2]
  exact ⟨hs.cache, hs.files, hs.disk⟩

/-! ### C72: calls on the same tag -/

section
/-- A database in which `a` has the saved value `false` and no cached one. -/
def stored : Database.Sys Bool := Database.Sys.run sampleEnv ⟨⟨List.replicate 64 0, ⟨[9], [], []⟩, []⟩, fun _ => none⟩ [.set "a" (.json false) false ()]

/-- A database in which `a` has the saved value `false` and the cached value `true`. -/
def changed : Database.Sys Bool := Database.Sys.run sampleEnv stored [.set "a" (.json true) true ()]

/-- Two coroutines. -/
def two (a b : List (Op Unit Bool)) : Nat → List (Op Unit Bool) := fun k => if k = 0 then a else if k = 1 then b else []

/-- What can be seen when two coroutines have ended: what they got, what a query for `a` returns, and what is in its file. -/
abbrev Seen := List (Except Err (Option (Value Bool))) × List (Except Err (Option (Value Bool))) × Except Err (Option (Value Bool)) × Option Bytes

def look (x : Database.Sys Bool) : Except Err (Option (Value Bool)) × Option Bytes :=
  ((x.node.queryTag sampleEnv x.disk "a" none true false 0).1, x.disk (x.node.filename sampleEnv "a"))

/-- What is seen after a schedule. -/
def seen (s : Database.Sys Bool) (a b : List (Op Unit Bool)) (moves : List Move) : Seen :=
  let x := (Sys.start s.node s.disk (two a b)).run sampleEnv moves
  ((x.threads 0).results, (x.threads 1).results, look ⟨x.node, x.disk⟩)

/-- What can be seen if the synchronous class makes the calls one after another, in any order. -/
def seenInOrder (s : Database.Sys Bool) (a b : List (Op Unit Bool)) : List Seen :=
  (merges a b).map (fun l => let x := inOrder sampleEnv s l; (x.1, x.2.1, look x.2.2))

instance : DecidableEq (Except Err (Option (Value Bool)))
  | .ok a, .ok b => if h : a = b then .isTrue (by rw [h]) else .isFalse (by intro e; cases e; exact h rfl)
  | .error a, .error b => if h : a = b then .isTrue (by rw [h]) else .isFalse (by intro e; cases e; exact h rfl)
  | .ok _, .error _ => .isFalse (by intro e; cases e)
  | .error _, .ok _ => .isFalse (by intro e; cases e)

/-- Steps of the coroutines, without parts of a `gather`. -/
def mains (l : List Nat) : List Move := l.map .main

/-- C72 is false for coroutines that use the same tag. During a query with `cache=True` the tag is set: the new value is lost, and the old one is
current again. -/
theorem C72_set_lost :
    let a : List (Op Unit Bool) := [.query "a" none false true 0]
    let b : List (Op Unit Bool) := [.set "a" (.json true) true ()]
    let x := seen stored a b (mains [0, 0, 0, 1, 1, 0])
    x = ([.ok (some (.json false))], [.ok none], .ok (some (.json false)), some [7, 6]) ∧ x ∉ seenInOrder stored a b ∧
    ∀ y ∈ seenInOrder stored a b, y.2.2.1 = .ok (some (.json true)) := by
  decide +kernel

/-- C72 is false: while a tag is set with `cache=False`, another coroutine reads the new value, sets a newer one, and then reads the first one again:
its own value was dropped when the file had been written. -/
theorem C72_set_dropped :
    let a : List (Op Unit Bool) := [.set "a" (.json true) false ()]
    let b : List (Op Unit Bool) := [.query "a" none false false 0, .set "a" (.bytes [1]) true (), .query "a" none false false 0]
    let x := seen stored a b (mains [0, 0, 1, 1, 0, 1, 1, 0, 0, 0, 1, 1, 1, 1])
    x = ([.ok none], [.ok (some (.json true)), .ok none, .ok (some (.json true))], .ok (some (.json true)), some [7, 5]) ∧ x ∉ seenInOrder stored a b := by
  decide +kernel

/-- C72 is false: two coroutines set a tag with `cache=False`. The first one to be ready drops the value of both, and the other one raises a
`LookupError`; its value is neither cached nor saved. -/
theorem C72_set_raises :
    let a : List (Op Unit Bool) := [.set "a" (.bytes [1]) false ()]
    let b : List (Op Unit Bool) := [.set "a" (.json true) false ()]
    let x := seen stored b a (mains [0, 0, 0, 1, 1, 0, 0, 0, 1])
    x = ([.ok none], [.error .key], .ok (some (.json true)), some [7, 5]) ∧ x ∉ seenInOrder stored b a ∧
    ∀ y ∈ seenInOrder stored b a, y.1 = [.ok none] ∧ y.2.1 = [.ok none] := by
  decide +kernel

/-- C72 is false: a query while the file is written again returns `None`, although the tag had a saved value at every time. -/
theorem C72_query_none :
    let a : List (Op Unit Bool) := [.query "a" none false false 0]
    let b : List (Op Unit Bool) := [.set "a" (.json true) false ()]
    let x := seen stored a b (mains [0, 0, 1, 1, 1, 1, 0, 1, 1])
    x = ([.ok none], [.ok none], .ok (some (.json true)), some [7, 5]) ∧ x ∉ seenInOrder stored a b ∧
    ∀ y ∈ seenInOrder stored a b, y.1 = [.ok (some (.json false))] ∨ y.1 = [.ok (some (.json true))] := by
  decide +kernel

/-- C72 is false: two coroutines save values of different sizes; both calls succeed, and the file is a mixture that is not the ciphertext of
either. -/
theorem C72_torn_file :
    let a : List (Op Unit Bool) := [.set "a" (.bytes [9, 9, 9]) false ()]
    let b : List (Op Unit Bool) := [.set "a" (.json true) true (), .saveTag "a" false ()]
    let x := seen stored a b (mains [0, 0, 0, 1, 1, 1, 1, 0, 1, 0, 1, 0, 1])
    x = ([.ok none], [.ok none, .ok none], .error .value, some [7, 5, 2, 9, 9, 9]) ∧ x ∉ seenInOrder stored a b ∧
    ∀ y ∈ seenInOrder stored a b, y.2.2.2 = some [7, 1, 2, 9, 9, 9] ∨ y.2.2.2 = some [7, 5] := by
  decide +kernel

/-- C72 is false: `asave_database` has encrypted a value, another coroutine saves a newer one, and then the older one is written: the newer one is
neither cached nor saved. -/
theorem C72_save_stale :
    let a : List (Op Unit Bool) := [.save (fun _ => ())]
    let b : List (Op Unit Bool) := [.set "a" (.bytes [9]) false ()]
    let x := seen changed a b (mains [0, 0, 0, 0, 0] ++ [.part 0 0] ++ mains [1, 1, 1, 1, 1, 1] ++ [.part 0 0, .part 0 0, .main 0])
    x = ([.ok none], [.ok none], .ok (some (.json true)), some [7, 5]) ∧ x ∉ seenInOrder changed a b ∧
    ∀ y ∈ seenInOrder changed a b, y.2.2 = (.ok (some (.bytes [9])), some [7, 1, 2, 9]) := by
  decide +kernel

/-- C72 is false: `asave_database` raises an `AttributeError` if a value leaves the cache after the saving has begun. -/
theorem C72_save_raises :
    let a : List (Op Unit Bool) := [.save (fun _ => ())]
    let b : List (Op Unit Bool) := [.rollback "a" false 0]
    let x := seen changed a b (mains [0, 0, 0, 0, 0, 1, 1] ++ [.part 0 0, .main 0])
    x = ([.error .attribute], [.ok none], .ok (some (.json false)), some [7, 6]) ∧ x ∉ seenInOrder changed a b ∧
    ∀ y ∈ seenInOrder changed a b, y.1 = [.ok none] := by
  decide +kernel

/-! ### samples for C71 and for C72 with different tags -/

example : ∀ op ∈ ([.set "a" (.json true) true (), .query "a" none false true 0, .pop "a" false 0] : List (Op Unit Bool)), ∃ t, op.tag? = some t := by
  intro op h
  simp only [List.mem_cons, List.not_mem_nil, or_false] at h
  rcases h with rfl | rfl | rfl <;> exact ⟨"a", rfl⟩

example : (changed.node.cache.map Prod.fst).Nodup ∧
    (((Sys.start changed.node changed.disk (alone 0 [.save (fun _ => ())])).run sampleEnv
      (mains [0, 0, 0, 0, 0] ++ [.part 0 0, .part 0 0, .part 0 0, .main 0])).threads 0).results = [.ok none] := by
  decide +kernel

/-- A value that cannot be saved. -/
example : (((Sys.start (ρ := Unit) (J := Bool) ⟨[], ⟨[9], [], []⟩, [("x", .json true)]⟩ (fun _ => none) (alone 0 [.save (fun _ => ())])).run
      { sampleEnv with dumps := fun _ => .error .type } (mains [0, 0, 0, 0, 0] ++ [.part 0 0, .main 0])).threads 0).results = [.error .type] := by
  decide +kernel

example : (stored.node.tags.map (stored.node.filename sampleEnv)).Nodup ∧
    (((Sys.start (ρ := Unit) stored.node stored.disk (alone 0 [.loadTags false 0])).run sampleEnv
      (mains [0, 0] ++ [.part 0 0, .part 0 0, .part 0 0, .main 0])).threads 0).results = [.ok none] := by
  decide +kernel

example : (∀ k, Names (fun t => (k = 0 ∧ t = "a") ∨ (k = 1 ∧ t = "b"))
      (two [.set "a" (.json true) false (), .query "a" none false true 0] [.set "b" (.bytes [1]) true (), .saveTag "b" true ()] k)) ∧
    ∀ j k t u, j ≠ k → ((j = 0 ∧ t = "a") ∨ (j = 1 ∧ t = "b")) → ((k = 0 ∧ u = "a") ∨ (k = 1 ∧ u = "b")) →
      stored.node.filename sampleEnv t ≠ stored.node.filename sampleEnv u := by
  refine ⟨fun k op h => ?_, ?_⟩
  · simp only [two] at h
    split at h
    · rename_i hk
      subst hk
      simp only [List.mem_cons, List.not_mem_nil, or_false] at h
      rcases h with rfl | rfl <;> exact ⟨"a", .inl ⟨rfl, rfl⟩, rfl⟩
    · split at h
      · rename_i hk
        subst hk
        simp only [List.mem_cons, List.not_mem_nil, or_false] at h
        rcases h with rfl | rfl <;> exact ⟨"b", .inr ⟨rfl, rfl⟩, rfl⟩
      · cases h
  · rintro j k t u hjk (⟨rfl, rfl⟩ | ⟨rfl, rfl⟩) (⟨rfl, rfl⟩ | ⟨rfl, rfl⟩)
    · exact absurd rfl hjk
    · decide
    · decide
    · exact absurd rfl hjk

end

end Aiootp.AsyncDb
