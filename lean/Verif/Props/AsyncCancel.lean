import Verif.Lemmas.AsyncCancelOne
import Verif.Props.AsyncDb

/-!
C88: calls on an `AsyncDatabase` that are cancelled. A schedule is a list of steps of the coroutines, of cancellations, and of what helper threads
still do after a cancellation (Model/AsyncCancel.lean).
-/

namespace Aiootp.AsyncDb

open Database

section
variable {ρ J : Type} {E : Env ρ J} {good : ρ → Prop} {T : String → Prop} {key salt : Bytes}

/-! ### the other coroutines -/

/-- C88: whichever coroutines are cancelled, however often and wherever, and whatever their threads do later: a coroutine that is not
cancelled and has tags of its own gets from its calls what it would get from the synchronous class with nobody else there, it ends after at most six
steps for each call, and then its tags have the cached values, the records and the files that its own calls leave. -/
theorem C88_others (node : Node J) (disk : Disk) (calls : Nat → List (Op ρ J)) (T : Nat → String → Prop)
    (hnames : ∀ k, Names (T k) (calls k))
    (hapart : ∀ j k t u, j ≠ k → T j t → T k u → node.filename E t ≠ node.filename E u) (moves : List CMove) (k : Nat) (hk : CMove.cancel k ∉ moves) :
    let c := (CSys.start node disk calls).run E moves
    let t := c.sys.threads k
    let sync := Database.Sys.run E ⟨node, disk⟩ (calls k)
    t.results <+: results E ⟨node, disk⟩ (calls k) ∧
    (6 * (calls k).length ≤ moves.count (.step (.main k)) → t.todo = [] ∧ t.call = none) ∧
    (t.todo = [] → t.call = none → t.results = results E ⟨node, disk⟩ (calls k) ∧
      ∀ tag, T k tag → c.sys.node.cache.get (node.filename E tag) = sync.node.cache.get (node.filename E tag) ∧
        c.sys.node.man.files.get (node.filename E tag) = sync.node.man.files.get (node.filename E tag) ∧
        c.sys.disk (node.filename E tag) = sync.disk (node.filename E tag)) := by
  intro c t sync
  have ha : Agree T node.key node.man.salt E k (CSys.start node disk calls).sys ⟨node, disk, ⟨calls k, none, [], []⟩⟩ :=
    ⟨rfl, fun _ _ => Same.refl _ _ _, rfl, rfl⟩
  have hg : CGood E T node.key node.man.salt k (CSys.start node disk calls) := ⟨good_start hnames, fun _ h => by cases h⟩
  have hr := cagree_run (E := E) (fun j t u hj ht hu => hapart j k t u hj ht hu) moves hk hg ha
  obtain ⟨m1, m2, m3⟩ := (Mid.iter (E := E) (s₀ := ⟨node, disk⟩) (calls := calls k) (fun op ho => by
    obtain ⟨t, _, ht⟩ := hnames k op ho; exact ⟨t, ht⟩) (moves.count (.step (.main k)))).end
  have ht : t = _ := hr.thread
  rw [ht]
  refine ⟨m1, m2, fun a b => ?_⟩
  obtain ⟨r1, r2, r3⟩ := m3 a b
  refine ⟨r1, fun tag hT => ?_⟩
  have hs := hr.same tag hT
  have e1 : sync.node = _ := r2.symm
  have e2 : sync.disk = _ := r3.symm
  rw [e1, e2]
  exact ⟨hs.cache, hs.files, hs.disk⟩

/-! ### the values -/

/-- C88, for the calls that keep the values in the cache (`Keeps`), with nobody else there: a call is cancelled at any point, and threads do
any part of what they had begun, in any order. Then either all tags have the values they had before the call, or all have those that the call
gives them; a save of the database after that succeeds, and a database that is opened then has these values.

What is missing: `aset_tag(cache=False)`, `asave_tag(drop_cache=True)` and `apop_tag`, see `C88_set_lost` and `C88_pop_half`; threads that
go on during and after the later save, see `C88_late_thread`. -/
theorem C88_values_partial (law : E.Law good) (hap : Apart E T key salt) (hk : 64 ≤ key.length) {disk : Disk} (hroot : disk (E.rootName key) = none)
    (hfree : ∀ t, T t → disk (E.fileName key salt t) = none) {n : Node J} {now₀ : Int} (hn : openNode E disk key salt now₀ = .ok n)
    (ops : List (Op ρ J)) (hops : ∀ op ∈ ops, op.Allowed E good T) {op : Op ρ J} (hop : op.Allowed E good T) (hkeep : Keeps op)
    (k : Nat) (moves : List Move) (lates : List Nat) :
    let s := Database.Sys.run E ⟨n, disk⟩ ops
    let before := ops.foldl View.after View.empty
    let c := (CSys.start s.node s.disk (alone k [op])).run E (moves.map .step ++ [.cancel k] ++ lates.map .late)
    ∃ values, (values = before.current ∨ values = (before.after op).current) ∧
      (∀ t, T t → ∀ silent cache now, (c.sys.node.queryTag E c.sys.disk t none silent cache now).1 = answer silent (values t)) ∧
      ∀ rs : String → ρ, (∀ name, good (rs name)) →
        let saved := c.sys.disk.applyAll (c.sys.node.save E rs).2
        (c.sys.node.save E rs).1 = .ok () ∧
        ∀ salt' now₁, ∃ m : Node J, openNode E saved key salt' now₁ = .ok m ∧ m.tags = c.sys.node.tags ∧
          ∀ t, T t → ((values t).isSome = true → t ∈ m.tags) ∧ ∀ silent cache now, (m.queryTag E saved t none silent cache now).1 = answer silent (values t) := by
  rw [openNode_new hk hroot] at hn
  cases hn
  have h := (Rep.new (J := J) hap hfree).run law hops
  intro s before c
  have hl := left_cancel law (n := s.node) (disk := s.disk) h hop hkeep k moves
  have hl := (Left.late lates hl).2
  rw [← CSys.run_append] at hl
  have hl : Left E T key salt before (before.after op) ⟨c.sys.node, c.sys.disk⟩ c.jobs := hl
  have main : ∀ values, Live E T key salt ⟨c.sys.node, c.sys.disk⟩ values →
      (∀ t, T t → ∀ silent cache now, (c.sys.node.queryTag E c.sys.disk t none silent cache now).1 = answer silent (values t)) ∧
      ∀ rs : String → ρ, (∀ name, good (rs name)) →
        let saved := c.sys.disk.applyAll (c.sys.node.save E rs).2
        (c.sys.node.save E rs).1 = .ok () ∧
        ∀ salt' now₁, ∃ m : Node J, openNode E saved key salt' now₁ = .ok m ∧ m.tags = c.sys.node.tags ∧
          ∀ t, T t → ((values t).isSome = true → t ∈ m.tags) ∧ ∀ silent cache now, (m.queryTag E saved t none silent cache now).1 = answer silent (values t) := by
    intro values hlive
    refine ⟨fun t ht silent cache now => hlive.query ht silent cache now, ?_⟩
    intro rs hrs saved
    obtain ⟨hok, hrep⟩ := hlive.save law hrs
    refine ⟨hok, fun salt' now₁ => ?_⟩
    have hkn : c.sys.node.key = key := hlive.hkey
    have hroot' : saved (E.rootName key) = some (E.encrypt (E.manifestKey key) (rs (E.rootName key)) (E.dumpManifest c.sys.node.man)) := by
      have hd := saveTags_disk (E := E) (n := c.sys.node) (rs := rs) (fun f x hx => by
        obtain ⟨t, ht, rfl⟩ := hlive.cacheNames f x hx
        obtain ⟨text, he, _⟩ := (hlive.cached t ht x hx).2
        exact ⟨text, he⟩) c.sys.node.cache (fun p hp => Dict.get_of_mem (v := p.2) hp)
      have hn : E.rootName key ∉ Dict.names c.sys.node.cache := by
        intro hm
        obtain ⟨x, hx⟩ := Dict.mem_names.1 hm
        obtain ⟨t, ht, he⟩ := hlive.cacheNames _ x hx
        exact hlive.apart.root t ht he.symm
      simp only [saved, Node.save, Node.manifestWrite, hkn]
      refine ((hd.2 (c.sys.disk.apply (.put (E.rootName key) (E.encrypt (E.manifestKey key) (rs (E.rootName key)) (E.dumpManifest c.sys.node.man)))) _).1 hn).trans ?_
      simp [Disk.apply]
    have hopen := openManifest_put law hrep.sound (hrs _) hroot' salt' now₁
    refine ⟨⟨key, c.sys.node.man, []⟩, by simp [openNode, hopen, raiseIf, Nat.not_lt.2 hk, bind, Except.bind], rfl, ?_⟩
    intro t ht
    refine ⟨fun hx => ?_, fun silent cache now => query_stored law (n := ⟨key, c.sys.node.man, []⟩) (key := key) (salt := salt) rfl hlive.hsalt rfl (hrep.stored t ht) silent cache now⟩
    have := (Dict.mem_iff hlive.nodup).2 (hlive.listed t ht hx)
    exact List.mem_map.2 ⟨_, this, rfl⟩
  rcases hl.live with hlive | hlive
  · exact ⟨_, .inl rfl, main _ hlive⟩
  · exact ⟨_, .inr rfl, main _ hlive⟩

/-! ### what is lost -/

/-- C88 is false for `aset_tag(cache=False)`: it is cancelled while its file is opened, and the thread opens the file. Then the tag is listed,
but it has neither the new value nor the one it had before: its file is empty, nothing is cached, no thread will write the file, and queries
return `None`. -/
theorem C88_set_lost (node : Node J) (disk : Disk) (k : Nat) (tag : String) (data : Value J) (r : ρ) {text : Bytes} (henc : encodeValue E data = .ok text) :
    let c := (CSys.start node disk (alone k [.set tag data false r])).run E [.step (.main k), .step (.main k), .step (.main k), .cancel k, .late 0]
    tag ∈ c.sys.node.tags ∧ c.jobs = [] ∧ c.sys.disk (node.filename E tag) = some [] ∧
    ∀ ttl silent cache now, (c.sys.node.queryTag E c.sys.disk tag ttl silent cache now).1 = .ok none := by
  have hp : (CSys.start node disk (alone k [.set tag data false r])).run E [.step (.main k), .step (.main k), .step (.main k)] =
      ⟨⟨{ node with cache := node.cache.set (node.filename E tag) data, man := { node.man with files := node.man.files.set (node.filename E tag) tag } }, disk,
        fun j => if j = k then ⟨[], some (.set tag data false r, .saving (.opening (E.encrypt (E.fileKey node.key node.man.salt (node.filename E tag)) r text)) true), [], []⟩
          else ⟨[], none, [], []⟩⟩, []⟩ := by
    simp [CSys.run, CSys.step, CSys.start, Sys.step, Sys.main, Sys.start, alone, isWide, tagStep, saveStep, Save.step, Node.filename, Dict.get_set, henc]
    funext j
    split <;> simp [*]
  rw [show ([.step (.main k), .step (.main k), .step (.main k), .cancel k, .late 0] : List CMove) =
    [.step (.main k), .step (.main k), .step (.main k)] ++ [.cancel k, .late 0] from rfl, CSys.run_append, hp]
  have hfn : ∀ (m : Node J), m.key = node.key → m.man.salt = node.man.salt → m.filename E tag = node.filename E tag := by
    intro m h1 h2; simp [Node.filename, h1, h2]
  have hq : ∀ (m : Node J) (d : Disk), m.key = node.key → m.man.salt = node.man.salt → m.cache.get (node.filename E tag) = none → d (node.filename E tag) = some [] →
      ∀ ttl silent cache now, (m.queryTag E d tag ttl silent cache now).1 = .ok none := by
    intro m d h1 h2 h3 h4 ttl silent cache now
    simp [Node.queryTag, hfn m h1 h2, h3, h4]
  simp only [CSys.run, CSys.step, CSys.cancel, CSys.late, if_true, cancelCall, cancelSave, Save.jobs, List.nil_append, List.getElem?_cons_zero, List.eraseIdx_zero, List.tail_cons, Job.run]
  refine ⟨?_, trivial, ?_, ?_⟩
  · exact List.mem_map.2 ⟨_, Dict.mem_of_get ((Dict.get_set node.man.files (node.filename E tag) tag (node.filename E tag)).trans (if_pos rfl)), rfl⟩
  · simp [Disk.apply, Node.filename]
  · refine hq _ _ rfl rfl ?_ ?_
    · simp [Dict.get_del, Node.filename]
    · simp [Disk.apply, Node.filename]

/-- C88 is false for `apop_tag`: it is cancelled before a thread removes the file. Then the tag is no longer listed, but it is still there: the
value that was saved before the current one is now the current one. -/
theorem C88_pop_half (law : E.Law good) (hap : Apart E T key salt) (hk : 64 ≤ key.length) {disk : Disk} (hroot : disk (E.rootName key) = none)
    (hfree : ∀ t, T t → disk (E.fileName key salt t) = none) {n : Node J} {now₀ : Int} (hn : openNode E disk key salt now₀ = .ok n)
    (ops : List (Op ρ J)) (hops : ∀ op ∈ ops, op.Allowed E good T) {tag : String} (htag : T tag) {old new : Value J}
    (hold : (ops.foldl View.after View.empty).saved tag = some old) (hnew : (ops.foldl View.after View.empty).current tag = some new) (hne : new ≠ old)
    (k : Nat) (silent : Bool) (now : Int) :
    let s := Database.Sys.run E ⟨n, disk⟩ ops
    let c := (CSys.start s.node s.disk (alone k [.pop tag silent now])).run E [.step (.main k), .step (.main k), .cancel k]
    tag ∈ s.node.tags ∧ tag ∉ c.sys.node.tags ∧
    ∀ silent cache now, (s.node.queryTag E s.disk tag none silent cache now).1 = .ok (some new) ∧
      (c.sys.node.queryTag E c.sys.disk tag none silent cache now).1 = .ok (some old) := by
  rw [openNode_new hk hroot] at hn
  cases hn
  have h := (Rep.new (J := J) hap hfree).run law hops
  generalize List.foldl View.after View.empty ops = v at h hold hnew
  intro s c
  have h : Rep E T key salt s v := h
  have hf : s.node.filename E tag = E.fileName key salt tag := h.filename tag
  have hcached : s.node.cache.get (E.fileName key salt tag) = some new := by
    cases hc : s.node.cache.get (E.fileName key salt tag) with
    | none => rw [h.uncached tag htag hc, hold] at hnew; exact absurd (Option.some.inj hnew).symm hne
    | some x => rw [← hnew, (h.cached tag htag x hc).1]
  have hlisted := h.listed tag htag (.inl (by rw [hnew]; rfl))
  have hc : c.sys.node = { s.node with cache := s.node.cache.del (E.fileName key salt tag), man := { s.node.man with files := s.node.man.files.del (E.fileName key salt tag) } } ∧
      c.sys.disk = s.disk := by
    simp [c, CSys.run, CSys.step, CSys.start, CSys.cancel, Sys.step, Sys.main, Sys.start, alone, isWide, tagStep, popLook, Look.step, hf, hcached, cancelCall]
  refine ⟨List.mem_map.2 ⟨_, Dict.mem_of_get hlisted, rfl⟩, ?_, ?_⟩
  · rw [hc.1]
    intro hm
    simp only [Node.tags, List.mem_map] at hm
    obtain ⟨⟨f, u⟩, hm, hu⟩ := hm
    have hget := (Dict.mem_iff (Dict.nodup_del h.nodup _)).1 hm
    rw [Dict.get_del] at hget
    split at hget
    · cases hget
    · rename_i hne'
      simp only at hu
      rw [hu] at hget
      exact hne' (h.fileNames f tag hget).2
  · intro silent cache now
    refine ⟨?_, ?_⟩
    · rw [(query_result law h htag none silent cache now).2.2.1 rfl, hnew]
    · have hst := h.stored tag htag
      rw [hold] at hst
      obtain ⟨_, c', text, hd, hne', hdec, hback, _⟩ := hst
      cases c' with
      | nil => exact absurd rfl hne'
      | cons b bs =>
        have hk' : s.node.key = key := h.hkey
        have hs' : s.node.man.salt = salt := h.hsalt
        simp [hc.1, hc.2, Node.queryTag, Node.filename, hk', hs', Dict.get_del, hd, hback, hdec, bind, Except.bind]

/-- C88 is false for `asave_database`: it is cancelled while the file of the manifest is opened. The database is saved again, and that call returns.
Then the thread of the cancelled call opens the file, and the manifest is empty: a database opened then raises an exception. -/
theorem C88_late_thread (node : Node J) (disk : Disk) (k : Nat) (rs rs' : String → ρ) (moves : List Move)
    (hempty : ∀ key now ttl, ∃ e, E.decrypt key now ttl [] = .error e) :
    let c := (CSys.start node disk (alone k [.save rs, .save rs'])).run E ([.step (.main k), .step (.main k), .cancel k] ++ moves.map .step)
    let c' := c.run E [.late 0]
    (c'.sys.threads k).results = (c.sys.threads k).results ∧ c'.sys.node = c.sys.node ∧ c'.sys.disk (E.rootName node.key) = some [] ∧
    ∀ salt now, ∃ e, (openNode E c'.sys.disk node.key salt now : Except Err (Node J)) = .error e := by
  intro c c'
  have hjobs : c.jobs = [.empty (E.rootName node.key)] := by
    show (CSys.run E _ ([.step (.main k), .step (.main k), .cancel k] ++ moves.map .step)).jobs = _
    rw [CSys.run_append, CSys.run_steps]
    simp [CSys.run, CSys.step, CSys.start, CSys.cancel, Sys.step, Sys.main, Sys.start, alone, isWide, wideStep, cancelCall]
  have hc' : c' = ⟨{ c.sys with disk := c.sys.disk.apply (.put (E.rootName node.key) []) }, []⟩ := by
    show c.late 0 = _
    simp [CSys.late, hjobs, Job.run]
  have hroot : c'.sys.disk (E.rootName node.key) = some [] := by simp [hc', Disk.apply]
  refine ⟨by rw [hc'], by rw [hc'], hroot, fun salt now => ?_⟩
  obtain ⟨e, he⟩ := hempty (E.manifestKey node.key) now none
  by_cases hl : node.key.length < 64
  · exact ⟨.value, by simp [openNode, raiseIf, hl, bind, Except.bind]⟩
  · exact ⟨e, by simp [openNode, raiseIf, hl, bind, Except.bind, openManifest, hroot, he]⟩

end

/-! ### samples -/

/-- Steps of two coroutines, of which the first one is cancelled. -/
def cancelling : List CMove :=
  [.step (.main 0), .step (.main 0), .step (.main 1), .step (.main 0), .cancel 0, .step (.main 1), .late 0, .step (.main 1), .step (.main 1)]

/-- Steps of a save, until a file is open. -/
def saveOpen : List Move := mains [0, 0, 0, 0, 0] ++ [.part 0 0, .part 0 0]

/-- Two coroutines with tags of their own; the first one is cancelled while its file is opened. -/
example : let c := (CSys.start stored.node stored.disk (two [.set "a" (.json true) false ()] [.set "b" (.bytes [1]) true (), .query "b" none false true 0])).run sampleEnv cancelling
    (c.sys.threads 1).results = [.ok none, .ok (some (.bytes [1]))] ∧ c.jobs.length = 0 := by
  decide +kernel

/-- A save that is cancelled while the file of a tag is open: the file is empty, the value is cached, and a query returns it. -/
example : let op : Op Unit Bool := .save (fun _ => ())
    let c := (CSys.start changed.node changed.disk (alone 0 [op])).run sampleEnv (saveOpen.map .step ++ [.cancel 0])
    Keeps op ∧ c.sys.disk "file of a" = some [] ∧ c.jobs.length = 1 ∧ (c.sys.node.queryTag sampleEnv c.sys.disk "a" none false false 0).1 = .ok (some (.json true)) := by
  exact ⟨trivial, by decide +kernel⟩

example (lates : List Nat) : let s := Database.Sys.run sampleEnv ⟨⟨List.replicate 64 0, ⟨[9], [], []⟩, []⟩, fun _ => none⟩ sampleOps
    let c := (CSys.start s.node s.disk (alone 0 [(.save (fun _ => ()) : Op Unit Bool)])).run sampleEnv (saveOpen.map .step ++ [.cancel 0] ++ lates.map .late)
    ∃ values : String → Option (Value Bool), ∀ t silent cache now, (c.sys.node.queryTag sampleEnv c.sys.disk t none silent cache now).1 = answer silent (values t) :=
  let ⟨values, _, h, _⟩ := C88_values_partial (T := fun _ => True) sampleEnv_law (sampleEnv_apart _ _ _) (by simp) rfl (fun _ _ => rfl)
    (openNode_new (by simp) rfl 0) sampleOps sampleOps_allowed (op := .save (fun _ => ())) (fun _ => trivial) trivial 0 saveOpen lates
  ⟨values, fun t => h t trivial⟩

/-- `C88_set_lost` for a tag that had a saved value. -/
example : (stored.node.queryTag sampleEnv stored.disk "a" none false false 0).1 = .ok (some (.json false)) ∧
    ∃ text, encodeValue sampleEnv (.json true) = .ok text := ⟨by decide +kernel, _, rfl⟩

/-- `C88_pop_half` for a tag that was saved and set again. -/
example : let ops : List (Op Unit Bool) := [.set "a" (.json false) false (), .set "a" (.json true) true ()]
    (∀ op ∈ ops, op.Allowed sampleEnv (fun _ => True) (fun _ => True)) ∧ (ops.foldl View.after View.empty).saved "a" = some (.json false) ∧
    (ops.foldl View.after View.empty).current "a" = some (.json true) := by
  refine ⟨?_, by decide +kernel⟩
  intro op hop
  simp only [List.mem_cons, List.not_mem_nil, or_false] at hop
  rcases hop with rfl | rfl <;> exact ⟨trivial, sampleEnv_storable _, trivial⟩

/-- `C88_late_thread`: the second save has returned before the thread goes on. -/
example : (∀ key now ttl, ∃ e, sampleEnv.decrypt key now ttl [] = .error e) ∧
    let c := (CSys.start changed.node changed.disk (alone 0 [.save (fun _ => ()), .save (fun _ => ())])).run sampleEnv ([.step (.main 0), .step (.main 0), .cancel 0] ++
      (saveOpen ++ [Move.part 0 0, Move.main 0]).map .step)
    (c.sys.threads 0).results = [.ok none] :=
  ⟨fun _ _ _ => ⟨_, rfl⟩, by decide +kernel⟩

end Aiootp.AsyncDb
