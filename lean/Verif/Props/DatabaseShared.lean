import Verif.Lemmas.DatabaseShared
import Verif.Lemmas.AsyncCancel
import Verif.Props.AsyncDb

/-!
C89: several `Database` objects, in one process or in several, with the same key on the same directory (Model/DatabaseShared.lean). Every list of calls
`(k, op)`, where `k` is the object that makes the call, is considered, so all orders in which the calls can follow each other are.
-/

namespace Aiootp.Database

section
variable {ρ J : Type} {E : Env ρ J} {good : ρ → Prop} {T : String → Prop} {key salt : Bytes}

theorem Sys.run_snoc (ops : List (Op ρ J)) (op : Op ρ J) : ∀ s : Sys J, Sys.run E s (ops ++ [op]) = (Sys.run E s ops).step E op := by
  induction ops with
  | nil => intro s; rfl
  | cons o ops ih => intro s; exact ih _

/-- What all objects read that are opened on a directory after a save. -/
theorem opened_after_save (law : E.Law good) (hap : Apart E T key salt) (hk : 64 ≤ key.length) {disk : Disk} (hroot : disk (E.rootName key) = none)
    (hfree : ∀ t, T t → disk (E.fileName key salt t) = none) {n : Node J} {now₀ : Int} (hn : openNode E disk key salt now₀ = .ok n)
    {ops : List (Op ρ J)} (hops : ∀ op ∈ ops, op.Allowed E good T) {rs : String → ρ} (hrs : ∀ name, good (rs name)) :
    ∃ man : Manifest, let d := (Sys.run E ⟨n, disk⟩ (ops ++ [.save rs])).disk
      (∀ salt' now, openNode E d key salt' now = .ok (⟨key, man, []⟩ : Node J)) ∧ Written E good key salt d ∧
      Rep E T key salt ⟨⟨key, man, []⟩, d⟩ ⟨(ops.foldl View.after View.empty).current, (ops.foldl View.after View.empty).current⟩ := by
  rw [openNode_new hk hroot] at hn
  cases hn
  have h := (Rep.new (J := J) hap hfree).run law hops
  rw [Sys.run_snoc]
  generalize Sys.run E _ ops = s at h
  generalize List.foldl View.after View.empty ops = v at h
  have hs := h.step law (op := .save rs) hrs
  have hkn : s.node.key = key := h.hkey
  have hroot' : (s.step E (.save rs)).disk (E.rootName key) = some (E.encrypt (E.manifestKey key) (rs (E.rootName key)) (E.dumpManifest s.node.man)) := by
    have := save_root_file (E := E) (n := s.node) (rs := rs) s.disk (fun f x hx => by
      obtain ⟨t, ht, rfl⟩ := h.cacheNames f x hx
      rw [hkn]
      exact h.apart.root t ht)
    rw [hkn] at this
    exact this
  refine ⟨s.node.man, fun salt' now => ?_, ⟨_, _, h.sound, hrs _, h.hsalt, hroot'⟩, hs.reopened _ rfl⟩
  simp [openNode, openManifest_put law h.sound (hrs _) hroot', raiseIf, Nat.not_lt.2 hk, bind, Except.bind]

/-- Objects that have just been opened. -/
theorem Apiece.opened (own : Nat → String → Prop) {nodes : Nat → Node J} {man : Manifest} (hman : man.salt = salt) (hn : ∀ k, nodes k = ⟨key, man, []⟩) (disk : Disk) :
    Apiece E own key salt ⟨nodes, disk⟩ (fun k => ⟨nodes k, disk⟩) where
  node _ := rfl
  hkey k := by simp only [hn]
  hsalt k := by simp only [hn]; exact hman
  within k f x hx := by simp only [hn] at hx; cases hx
  disk _ _ _ := rfl

/-- **C89**, for objects that name different tags: a database was used by one object and saved; then any number of objects are opened, each
with its own tags, and they make calls on these tags, and saves, in any order. Each object gets from its calls what it would get with nobody
else there. Its tags have the values that its own calls give them; and an object that is opened afterwards has, for each tag, the value that was saved last by
the object whose tag it is.

What is missing: the names of the tags, see `C89_unlisted`; objects that were opened before the first save, see `C89_new_salts`; objects that name the same
tags, see `C89_reverted`. -/
theorem C89_own_tags_partial (law : E.Law good) (hap : Apart E T key salt) (hk : 64 ≤ key.length) {disk : Disk} (hroot : disk (E.rootName key) = none)
    (hfree : ∀ t, T t → disk (E.fileName key salt t) = none) {n : Node J} {now₀ : Int} (hn : openNode E disk key salt now₀ = .ok n)
    (ops : List (Op ρ J)) (hops : ∀ op ∈ ops, op.Allowed E good T) (rs : String → ρ) (hrs : ∀ name, good (rs name))
    (own : Nat → String → Prop) (hown : ∀ k t, own k t → T t) (hdis : ∀ j k t, j ≠ k → own j t → ¬ own k t)
    (nodes : Nat → Node J) (salts : Nat → Bytes) (times : Nat → Int)
    (hnodes : ∀ k, openNode E (Sys.run E ⟨n, disk⟩ (ops ++ [.save rs])).disk key (salts k) (times k) = .ok (nodes k))
    (calls : List (Nat × Op ρ J)) (hcalls : ∀ c ∈ calls, c.2.Own (own c.1) ∧ c.2.Allowed E good T) :
    let saved := (Sys.run E ⟨n, disk⟩ (ops ++ [.save rs])).disk
    let before := (ops.foldl View.after View.empty).current
    let w := Shared.run E ⟨nodes, saved⟩ calls
    let view := fun k => (callsOf k calls).foldl View.after ⟨before, before⟩
    (∀ k, Shared.results E ⟨nodes, saved⟩ k calls = AsyncDb.results E ⟨nodes k, saved⟩ (callsOf k calls)) ∧
    (∀ k t, own k t → ∀ silent cache now, ((w.nodes k).queryTag E w.disk t none silent cache now).1 = answer silent ((view k).current t)) ∧
    ∀ salt' now₁, ∃ m : Node J, openNode E w.disk key salt' now₁ = .ok m ∧
      ∀ k t, own k t → ∀ silent cache now, (m.queryTag E w.disk t none silent cache now).1 = answer silent ((view k).saved t) := by
  obtain ⟨man, hopen, hwr, hrep⟩ := opened_after_save law hap hk hroot hfree hn hops hrs
  have hnd : ∀ k, nodes k = ⟨key, man, []⟩ := fun k => by
    have := hnodes k
    rw [hopen] at this
    exact (Except.ok.inj this).symm
  intro saved before w view
  have hdis' : ∀ j k t u, j ≠ k → own j t → own k u → E.fileName key salt t ≠ E.fileName key salt u := fun j k t u hjk ht hu e =>
    hdis j k t hjk ht (by rw [hap.inj t u (hown j t ht) (hown k u hu) e]; exact hu)
  have h0 : Apiece E own key salt ⟨nodes, saved⟩ (fun k => ⟨nodes k, saved⟩) := .opened own hrep.hsalt hnd saved
  obtain ⟨r1, r2⟩ := Apiece.run hdis' (fun k t ht => hap.root t (hown k t ht)) calls (fun c hc => (hcalls c hc).1) h0
  obtain ⟨v1, v2⟩ := shared_values law (views := fun _ => ⟨before, before⟩) hdis' hown hap calls hcalls h0 (fun k => by rw [hnd]; exact hrep) hwr
  refine ⟨r2, fun k t ht silent cache now => ?_, fun salt' now₁ => ?_⟩
  · have hq := (AsyncDb.Live.of_rep (v1 k)).query (hown k t ht) silent cache now
    rw [← hq]
    have hnode : w.nodes k = _ := r1.node k
    rw [← hnode]
    have := r1.disk k t ht
    exact congrArg Prod.fst (query_alike (n := w.nodes k) (by
      have e1 := r1.hkey k
      have e2 := r1.hsalt k
      simp only [Node.filename, show (w.nodes k).key = key from e1, show (w.nodes k).man.salt = salt from e2]
      exact this) none silent cache now)
  · obtain ⟨man', r, hs, hg, hsalt, hd⟩ := v2
    refine ⟨⟨key, man', []⟩, by simp [openNode, openManifest_put law hs hg hd, raiseIf, Nat.not_lt.2 hk, bind, Except.bind, w], ?_⟩
    intro k t ht silent cache now
    exact query_stored law (n := ⟨key, man', []⟩) (key := key) (salt := salt) rfl hsalt rfl (((v1 k).stored t (hown k t ht)).congr (r1.disk k t ht)) silent cache now

/-! ### what is lost -/

/-- A description for fewer tags. -/
theorem Rep.without {s : Sys J} {v : View J} (h : Rep E T key salt s v) {t : String} (ht : t ∉ s.node.tags)
    (hc : s.node.cache = []) : Rep E (fun u => T u ∧ u ≠ t) key salt s v where
  apart := ⟨fun a b ha hb => h.apart.inj a b ha.1 hb.1, fun a ha => h.apart.root a ha.1, fun a ha => h.apart.plain a ha.1, h.apart.rootPlain⟩
  hkey := h.hkey
  hsalt := h.hsalt
  cached u hu := h.cached u hu.1
  uncached u hu := h.uncached u hu.1
  stored u hu := h.stored u hu.1
  cacheNames f x hx := by rw [hc] at hx; cases hx
  fileNames f u hu := by
    obtain ⟨h1, h2⟩ := h.fileNames f u hu
    refine ⟨⟨h1, fun e => ht ?_⟩, h2⟩
    subst e
    exact List.mem_map.2 ⟨_, Dict.mem_of_get hu, rfl⟩
  listed u hu := h.listed u hu.1
  nodup := h.nodup

theorem Shared.run_append (calls calls' : List (Nat × Op ρ J)) : ∀ w : Shared J, w.run E (calls ++ calls') = (w.run E calls).run E calls' := by
  induction calls with
  | nil => intro w; rfl
  | cons c calls ih => intro w; exact ih _

/-- C89 is false: the names of the tags are those of the object that saves last. The objects are those of `C89_own_tags_partial`, and the last call is a
save by object `k`. A tag of another object that was not in the database when the objects were opened is then not listed by objects that are opened
afterwards (nor is it loaded by `load_database`, or deleted by `delete_database`, that go through the listed tags), although its value
is in the directory. -/
theorem C89_unlisted (law : E.Law good) (hap : Apart E T key salt) (hk : 64 ≤ key.length) {disk : Disk} (hroot : disk (E.rootName key) = none)
    (hfree : ∀ t, T t → disk (E.fileName key salt t) = none) {n : Node J} {now₀ : Int} (hn : openNode E disk key salt now₀ = .ok n)
    (ops : List (Op ρ J)) (hops : ∀ op ∈ ops, op.Allowed E good T) (rs : String → ρ) (hrs : ∀ name, good (rs name))
    (own : Nat → String → Prop) (hown : ∀ k t, own k t → T t) (hdis : ∀ j k t, j ≠ k → own j t → ¬ own k t)
    (nodes : Nat → Node J) (salts : Nat → Bytes) (times : Nat → Int)
    (hnodes : ∀ k, openNode E (Sys.run E ⟨n, disk⟩ (ops ++ [.save rs])).disk key (salts k) (times k) = .ok (nodes k))
    (calls : List (Nat × Op ρ J)) (hcalls : ∀ c ∈ calls, c.2.Own (own c.1) ∧ c.2.Allowed E good T)
    {j k : Nat} (hjk : j ≠ k) {t : String} (ht : own j t) (hnew : t ∉ (nodes k).tags) {x : Value J}
    (hx : ((callsOf j calls).foldl View.after ⟨(ops.foldl View.after View.empty).current, (ops.foldl View.after View.empty).current⟩).saved t = some x)
    (rs' : String → ρ) (hrs' : ∀ name, good (rs' name)) :
    let saved := (Sys.run E ⟨n, disk⟩ (ops ++ [.save rs])).disk
    let w := Shared.run E ⟨nodes, saved⟩ (calls ++ [(k, .save rs')])
    ∀ salt' now₁, ∃ m : Node J, openNode E w.disk key salt' now₁ = .ok m ∧ m.tags = (w.nodes k).tags ∧ t ∉ m.tags ∧
      ∀ silent cache now, (m.queryTag E w.disk t none silent cache now).1 = .ok (some x) := by
  intro saved w salt' now₁
  have hcalls' : ∀ c ∈ calls ++ [(k, .save rs')], c.2.Own (own c.1) ∧ c.2.Allowed E good T := by
    intro c hc
    rcases List.mem_append.1 hc with hc | hc
    · exact hcalls c hc
    · rw [List.mem_singleton.1 hc]; exact ⟨trivial, hrs'⟩
  obtain ⟨_, _, h3⟩ := C89_own_tags_partial law hap hk hroot hfree hn ops hops rs hrs own hown hdis nodes salts times hnodes (calls ++ [(k, .save rs')]) hcalls'
  obtain ⟨m, hm, hval⟩ := h3 salt' now₁
  have hcj : callsOf j (calls ++ [(k, .save rs')]) = callsOf j calls := by
    have hkj : ¬ k = j := fun e => hjk e.symm
    simp [callsOf, List.filter_append, hkj]
  obtain ⟨man, hopen, hwr, hrep⟩ := opened_after_save law hap hk hroot hfree hn hops hrs
  have hnd : ∀ k, nodes k = ⟨key, man, []⟩ := fun k => by
    have := hnodes k
    rw [hopen] at this
    exact (Except.ok.inj this).symm
  have hdis' : ∀ j k t u, j ≠ k → own j t → own k u → E.fileName key salt t ≠ E.fileName key salt u := fun j k t u hjk ht hu e =>
    hdis j k t hjk ht (by rw [hap.inj t u (hown j t ht) (hown k u hu) e]; exact hu)
  have h0 : Apiece E own key salt ⟨nodes, saved⟩ (fun k => ⟨nodes k, saved⟩) := .opened own hrep.hsalt hnd saved
  obtain ⟨r1, _⟩ := Apiece.run hdis' (fun k t ht => hap.root t (hown k t ht)) calls (fun c hc => (hcalls c hc).1) h0
  have hk' : Rep E (fun u => T u ∧ u ≠ t) key salt ⟨nodes k, saved⟩
      ⟨(ops.foldl View.after View.empty).current, (ops.foldl View.after View.empty).current⟩ := by
    refine Rep.without ?_ hnew (by simp only [hnd])
    rw [hnd]
    exact hrep
  have hal : ∀ op ∈ callsOf k calls, op.Allowed E good (fun u => T u ∧ u ≠ t) := by
    intro op ho
    simp only [callsOf, List.mem_map, List.mem_filter, decide_eq_true_eq] at ho
    obtain ⟨⟨i, op'⟩, ⟨ho, rfl⟩, rfl⟩ := ho
    obtain ⟨c1, c2⟩ := hcalls _ ho
    simp only at c1 c2 ⊢
    have hne : ∀ u, own i u → u ≠ t := fun u hu e => hdis j i t hjk ht (e ▸ hu)
    cases op' with
    | loadTags => exact c1.elim
    | clearCache => trivial
    | save rs => exact c2
    | set u x c r => obtain ⟨u', hu', e⟩ := c1; cases e; exact ⟨⟨c2.1, hne _ hu'⟩, c2.2⟩
    | saveTag u d r => obtain ⟨u', hu', e⟩ := c1; cases e; exact ⟨⟨c2.1, hne _ hu'⟩, c2.2⟩
    | query u => obtain ⟨u', hu', e⟩ := c1; cases e; exact ⟨c2, hne _ hu'⟩
    | pop u => obtain ⟨u', hu', e⟩ := c1; cases e; exact ⟨c2, hne _ hu'⟩
    | delItem u => obtain ⟨u', hu', e⟩ := c1; cases e; exact ⟨c2, hne _ hu'⟩
    | rollback u => obtain ⟨u', hu', e⟩ := c1; cases e; exact ⟨c2, hne _ hu'⟩
  have hend := hk'.run law hal
  have hnode : (Shared.run E ⟨nodes, saved⟩ calls).nodes k = (Sys.run E ⟨nodes k, saved⟩ (callsOf k calls)).node := r1.node k
  have hw : w = (Shared.run E ⟨nodes, saved⟩ calls).step E (k, .save rs') := by
    simp only [w, Shared.run_append]; rfl
  have hwk : w.nodes k = (Shared.run E ⟨nodes, saved⟩ calls).nodes k := by
    rw [hw]; simp [Shared.step, Op.run]
  have hfile : w.disk (E.rootName key) = some (E.encrypt (E.manifestKey key) (rs' (E.rootName key)) (E.dumpManifest (w.nodes k).man)) := by
    have := save_root_file (E := E) (n := (Shared.run E ⟨nodes, saved⟩ calls).nodes k) (rs := rs') (Shared.run E ⟨nodes, saved⟩ calls).disk (fun f x hx => by
      obtain ⟨u, hu, rfl⟩ := r1.within k f x hx
      simp only [Node.filename, r1.hkey, r1.hsalt]
      exact hap.root u (hown k u hu))
    rw [r1.hkey] at this
    rw [hwk, hw]
    exact this
  have hopen' : openNode E w.disk key salt' now₁ = .ok (⟨key, (w.nodes k).man, []⟩ : Node J) := by
    simp [openNode, openManifest_put law (by rw [hwk, hnode]; exact hend.sound) (hrs' _) hfile, raiseIf, Nat.not_lt.2 hk, bind, Except.bind]
  have hm' : m = ⟨key, (w.nodes k).man, []⟩ := by
    have := hm.symm.trans hopen'
    exact Except.ok.inj this
  refine ⟨m, hm, by rw [hm']; rfl, ?_, fun silent cache now => ?_⟩
  · rw [hm', hwk, hnode]
    intro hmem
    obtain ⟨⟨f, u⟩, hp, hu⟩ := List.mem_map.1 hmem
    have := (hend.fileNames f u ((Dict.mem_iff hend.nodup).1 hp)).1.2
    exact this hu
  · have := hval j t ht silent cache now
    simp only [hcj] at this
    rw [hx] at this
    exact this

/-- C89 is false for objects that were opened before the first save: each has its own random salt. An object with salt `a` makes any calls, saves among
them, on tags of `T`. Then another, opened before these calls, saves. A database that is opened afterwards has the salt of the other object, it
lists no tag, and no tag of `T` has a value, whatever the first object had saved. -/
theorem C89_new_salts (law : E.Law good) {a b : Bytes} (hb : ∀ t, T t → E.fileName key b t ≠ E.rootName key)
    (hab : ∀ t u, T t → T u → E.fileName key a t ≠ E.fileName key b u)
    (hk : 64 ≤ key.length) {disk : Disk} (hroot : disk (E.rootName key) = none) (hfree : ∀ t, T t → disk (E.fileName key b t) = none)
    {first second : Node J} {now₀ now₁ : Int} (h0 : openNode E disk key a now₀ = .ok first) (h1 : openNode E disk key b now₁ = .ok second)
    (ops : List (Op ρ J)) (hops : ∀ op ∈ ops, op.Own T) (rs : String → ρ) (hrs : ∀ name, good (rs name)) :
    let w := Shared.run E ⟨fun k => if k = 0 then first else second, disk⟩ (ops.map (fun op => (0, op)) ++ [(1, .save rs)])
    ∀ salt' now₂, ∃ m : Node J, openNode E w.disk key salt' now₂ = .ok m ∧ m.man.salt = b ∧ m.tags = [] ∧
      ∀ t, T t → ∀ silent cache now, (m.queryTag E w.disk t none silent cache now).1 = answer silent none := by
  rw [openNode_new hk hroot] at h0 h1
  cases h0
  cases h1
  have inv : ∀ (ops : List (Op ρ J)) (hops : ∀ op ∈ ops, op.Own T) (w : Shared J), (w.nodes 0).key = key → (w.nodes 0).man.salt = a → Within E T (w.nodes 0) →
      w.nodes 1 = ⟨key, ⟨b, [], []⟩, []⟩ → (∀ t, T t → w.disk (E.fileName key b t) = none) →
      let w' := w.run E (ops.map (fun op => (0, op)))
      w'.nodes 1 = ⟨key, ⟨b, [], []⟩, []⟩ ∧ ∀ t, T t → w'.disk (E.fileName key b t) = none := by
    intro ops
    induction ops with
    | nil => intro _ w _ _ _ g1 g2; exact ⟨g1, g2⟩
    | cons op ops ih =>
      intro hops w k1 k2 k3 k4 k5
      have hop := hops op List.mem_cons_self
      obtain ⟨f1, f2, f3, f4⟩ := run_frame hop w.disk k3
      refine ih (fun o ho => hops o (List.mem_cons_of_mem _ ho)) (w.step E (0, op)) ?_ ?_ ?_ ?_ fun t ht => ?_
      · simp only [Shared.step, if_true]; rw [f1]; exact k1
      · simp only [Shared.step, if_true]; rw [f2]; exact k2
      · simp only [Shared.step, if_true]; exact f3
      · simp only [Shared.step]; exact k4
      · simp only [Shared.step]
        refine (run_disk hop _ _ k3 (fun u hu => ?_) ?_).trans (k5 t ht)
        · simp only [Node.filename, k1, k2]
          exact fun e => hab u t hu ht e.symm
        · rw [k1]; exact hb t ht
  obtain ⟨g1, g2⟩ := inv ops hops ⟨fun k => if k = 0 then ⟨key, ⟨a, [], []⟩, []⟩ else ⟨key, ⟨b, [], []⟩, []⟩, disk⟩ rfl rfl
    (fun f x hx => by cases hx) rfl hfree
  intro w salt' now₂
  have hw : w.disk = (Shared.run E ⟨fun k => if k = 0 then ⟨key, ⟨a, [], []⟩, []⟩ else ⟨key, ⟨b, [], []⟩, []⟩, disk⟩ (ops.map (fun op => (0, op)))).disk.apply
      (.put (E.rootName key) (E.encrypt (E.manifestKey key) (rs (E.rootName key)) (E.dumpManifest ⟨b, [], []⟩))) := by
    simp only [w, Shared.run_append, Shared.run, Shared.step, g1, Op.run, Node.save, Node.saveTags, Node.manifestWrite]
    rfl
  have hfile : w.disk (E.rootName key) = some (E.encrypt (E.manifestKey key) (rs (E.rootName key)) (E.dumpManifest ⟨b, [], []⟩)) := by
    rw [hw]; simp [Disk.apply]
  have hopen : openNode E w.disk key salt' now₂ = .ok (⟨key, ⟨b, [], []⟩, []⟩ : Node J) := by
    simp [openNode, openManifest_put law (Manifest.sound_nil b []) (hrs _) hfile, raiseIf, Nat.not_lt.2 hk, bind, Except.bind]
  refine ⟨_, hopen, rfl, rfl, fun t ht silent cache now => ?_⟩
  refine query_stored law (key := key) (salt := b) rfl rfl rfl ?_ silent cache now
  show w.disk _ = none
  rw [hw]
  simp only [Disk.apply, hb t ht, if_false]
  exact g2 t ht

/-- C89 is false for objects that name the same tag: one object reads the tag, another one sets it to a new value and saves it, and the first one
saves, although it has changed nothing. A database that is opened afterwards has the old value. -/
theorem C89_reverted (law : E.Law good) (hap : Apart E T key salt) (hk : 64 ≤ key.length) {disk : Disk} (hroot : disk (E.rootName key) = none)
    (hfree : ∀ t, T t → disk (E.fileName key salt t) = none) {n : Node J} {now₀ : Int} (hn : openNode E disk key salt now₀ = .ok n)
    (ops : List (Op ρ J)) (hops : ∀ op ∈ ops, op.Allowed E good T) (rs : String → ρ) (hrs : ∀ name, good (rs name))
    (nodes : Nat → Node J) (salts : Nat → Bytes) (times : Nat → Int)
    (hnodes : ∀ k, openNode E (Sys.run E ⟨n, disk⟩ (ops ++ [.save rs])).disk key (salts k) (times k) = .ok (nodes k))
    {t : String} (ht : T t) {old new : Value J} (hold : (ops.foldl View.after View.empty).current t = some old) (hnew : Storable E new) {r : ρ} (hr : good r)
    (silent₀ : Bool) (now₂ : Int) (rs' : String → ρ) (hrs' : ∀ name, good (rs' name)) :
    let saved := (Sys.run E ⟨n, disk⟩ (ops ++ [.save rs])).disk
    let w := Shared.run E ⟨nodes, saved⟩ [(0, .query t none silent₀ true now₂), (1, .set t new false r)]
    let w' := w.step E (0, .save rs')
    (∀ salt' now₁, ∃ m : Node J, openNode E w.disk key salt' now₁ = .ok m ∧
      ∀ silent cache now, (m.queryTag E w.disk t none silent cache now).1 = .ok (some new)) ∧
    (∀ salt' now₁, ∃ m : Node J, openNode E w'.disk key salt' now₁ = .ok m ∧
      ∀ silent cache now, (m.queryTag E w'.disk t none silent cache now).1 = .ok (some old)) := by
  obtain ⟨man, hopen, hwr, hrep⟩ := opened_after_save law hap hk hroot hfree hn hops hrs
  have hnd : ∀ k, nodes k = ⟨key, man, []⟩ := fun k => by
    have := hnodes k
    rw [hopen] at this
    exact (Except.ok.inj this).symm
  have hne : E.fileName key salt t ≠ E.rootName key := hap.root t ht
  generalize (Sys.run E ⟨n, disk⟩ (ops ++ [.save rs])).disk = saved at hnodes hopen hwr hrep ⊢
  have hsl : man.salt = salt := hrep.hsalt
  obtain ⟨text, hnt, hnt'⟩ := hnew
  have hst := hrep.stored t ht
  simp only at hst
  rw [hold] at hst
  obtain ⟨hso, c, text₀, hd, hc, hdec, hback, _⟩ := hst
  have hd0 : saved (E.fileName key salt t) = some c := hd
  have hq : (⟨key, man, []⟩ : Node J).queryTag E saved t none silent₀ true now₂ = (.ok (some old), ⟨key, man, [(E.fileName key salt t, old)]⟩) := by
    cases c with
    | nil => exact absurd rfl hc
    | cons b bs => simp [Node.queryTag, Node.filename, hsl, Dict.get, hd0, hback, hdec, bind, Except.bind, Dict.set]
  have hset : (⟨key, man, []⟩ : Node J).setTag E t new false r = (.ok (), ⟨key, { man with files := man.files.set (E.fileName key salt t) t }, []⟩,
      [.put (E.fileName key salt t) (E.encrypt (E.fileKey key salt (E.fileName key salt t)) r text)]) := by
    simp [Node.setTag, Node.saveTag, Node.saveFile, Node.filename, hsl, Dict.get, Dict.set, Dict.del, hnt, bind, Except.bind]
  intro saved' w w'
  have hq : (⟨key, man, []⟩ : Node J).queryTag E saved' t none silent₀ true now₂ = _ := hq
  have hw0 : w.nodes 0 = ⟨key, man, [(E.fileName key salt t, old)]⟩ := by
    simp only [w, Shared.run, Shared.step, Op.run, hnd]
    simp only [show (0 : Nat) ≠ 1 from by decide, if_false, if_true, hq]
  have hwd : w.disk = saved.apply (.put (E.fileName key salt t) (E.encrypt (E.fileKey key salt (E.fileName key salt t)) r text)) := by
    simp only [w, Shared.run, Shared.step, Op.run, hnd]
    simp only [show (1 : Nat) ≠ 0 from by decide, if_false, hset]
    rfl
  refine ⟨fun salt' now₁ => ?_, fun salt' now₁ => ?_⟩
  · obtain ⟨man', r', s1, s2, s3, s4⟩ := hwr
    have : w.disk (E.rootName key) = some (E.encrypt (E.manifestKey key) r' (E.dumpManifest man')) := by
      rw [hwd, ← s4]
      simp [Disk.apply, Ne.symm hne]
    refine ⟨⟨key, man', []⟩, by simp [openNode, openManifest_put law s1 s2 this, raiseIf, Nat.not_lt.2 hk, bind, Except.bind], fun silent cache now => ?_⟩
    refine query_stored law (key := key) (salt := salt) (o := some new) rfl s3 rfl ?_ silent cache now
    rw [hwd]
    exact stored_put law hr hnt ⟨text, hnt, hnt'⟩ saved _
  · have hstep : Rep E T key salt (Sys.step E ⟨⟨key, man, []⟩, saved⟩ (.query t none silent₀ true now₂)) ⟨_, _⟩ := hrep.step law (op := .query t none silent₀ true now₂) ht
    have hlive := AsyncDb.Live.of_rep hstep
    have hnode : (Sys.step E ⟨⟨key, man, []⟩, saved⟩ (.query t none silent₀ true now₂)).node = w.nodes 0 := by
      rw [hw0]
      exact congrArg Prod.snd hq
    have hlive' : AsyncDb.Live E T key salt ⟨w.nodes 0, w.disk⟩ (ops.foldl View.after View.empty).current := by
      have := hlive.files (disk := w.disk) (fun f => by
        by_cases hf : f = E.fileName key salt t
        · refine .inr (.inl ⟨old, ?_⟩)
          rw [hnode, hw0, hf]
          simp [Dict.get]
        · refine .inl ?_
          rw [hwd]
          simp only [Disk.apply, hf, if_false]
          rfl)
      rw [hnode] at this
      exact this
    obtain ⟨_, hsave⟩ := hlive'.save law hrs'
    have hfile : w'.disk (E.rootName key) = some (E.encrypt (E.manifestKey key) (rs' (E.rootName key)) (E.dumpManifest (w.nodes 0).man)) := by
      have := save_root_file (E := E) (n := w.nodes 0) (rs := rs') w.disk (fun f x hx => by
        obtain ⟨u, hu, rfl⟩ := hlive'.cacheNames f x hx
        rw [show (w.nodes 0).key = key from hlive'.hkey]
        exact hap.root u hu)
      rw [show (w.nodes 0).key = key from hlive'.hkey] at this
      exact this
    refine ⟨⟨key, (w.nodes 0).man, []⟩, by simp [openNode, openManifest_put law hsave.sound (hrs' _) hfile, raiseIf, Nat.not_lt.2 hk, bind, Except.bind], fun silent cache now => ?_⟩
    have := query_stored law (n := ⟨key, (w.nodes 0).man, []⟩) (key := key) (salt := salt) rfl hlive'.hsalt rfl (hsave.stored t ht) silent cache now
    rw [show (⟨(ops.foldl View.after View.empty).current, (ops.foldl View.after View.empty).current⟩ : View J).saved t = some old from hold] at this
    exact this

end

/-! ### samples -/

/-- A key, and a directory with the saved tag `a`. -/
def sharedKey : Bytes := List.replicate 64 0

def sharedOps : List (Op Unit Bool) := [.set "a" (.json false) true ()]

def sharedDisk : Disk := (Sys.run sampleEnv ⟨⟨sharedKey, ⟨[9], [], []⟩, []⟩, fun _ => none⟩ (sharedOps ++ [.save (fun _ => ())])).disk

theorem sharedOps_allowed : ∀ op ∈ sharedOps, op.Allowed sampleEnv (fun _ => True) (fun _ => True) := by
  intro op hop
  rw [List.mem_singleton.1 hop]
  exact ⟨trivial, sampleEnv_storable _, trivial⟩

/-- What an object reads when it is opened on that directory. -/
theorem shared_open : ∃ node : Node Bool, (∀ salt now, openNode sampleEnv sharedDisk sharedKey salt now = .ok node) ∧ ∀ t ∈ node.tags, t = "a" := by
  obtain ⟨man, h1, _, h3⟩ := opened_after_save (T := fun t => t = "a") (good := fun _ => True) sampleEnv_law (sampleEnv_apart _ sharedKey [9]) (by simp [sharedKey])
    (disk := fun _ => none) rfl (fun _ _ => rfl) (openNode_new (by simp [sharedKey]) rfl 0) (ops := sharedOps)
    (by intro op hop; rw [List.mem_singleton.1 hop]; exact ⟨rfl, sampleEnv_storable _, trivial⟩) (rs := fun _ => ()) (fun _ => trivial)
  refine ⟨⟨sharedKey, man, []⟩, h1, fun t ht => ?_⟩
  obtain ⟨⟨f, u⟩, hp, rfl⟩ := List.mem_map.1 ht
  exact (h3.fileNames f u ((Dict.mem_iff h3.nodup).1 hp)).1

/-- Two objects: the first has the tags `a` and `b`, the second `c`. -/
def sharedOwn : Nat → String → Prop := fun k t => k = 0 ∧ (t = "a" ∨ t = "b") ∨ k = 1 ∧ t = "c"

def sharedCalls : List (Nat × Op Unit Bool) :=
  [(0, .set "b" (.bytes [1]) true ()), (1, .set "c" (.json true) false ()), (0, .save (fun _ => ())), (1, .query "c" none false true 0), (0, .set "a" (.json true) true ()),
    (1, .save (fun _ => ()))]

theorem sharedCalls_own : ∀ c ∈ sharedCalls, c.2.Own (sharedOwn c.1) ∧ c.2.Allowed sampleEnv (fun _ => True) (fun _ => True) := by
  intro c hc
  simp only [sharedCalls, List.mem_cons, List.not_mem_nil, or_false] at hc
  rcases hc with rfl | rfl | rfl | rfl | rfl | rfl <;> simp [Op.Own, Op.tag?, sharedOwn, Op.Allowed, sampleEnv_storable]

/-- The calls of the two objects: all values that were saved are there. -/
example (silent cache : Bool) (now : Int) : ∃ node, let w := Shared.run sampleEnv ⟨fun _ => node, sharedDisk⟩ sharedCalls
    ∃ m, openNode sampleEnv w.disk sharedKey [7] 5 = .ok m ∧ (m.queryTag sampleEnv w.disk "a" none silent cache now).1 = .ok (some (.json false)) ∧
      (m.queryTag sampleEnv w.disk "b" none silent cache now).1 = .ok (some (.bytes [1])) ∧ (m.queryTag sampleEnv w.disk "c" none silent cache now).1 = .ok (some (.json true)) := by
  obtain ⟨node, hnode, _⟩ := shared_open
  obtain ⟨_, _, h⟩ := C89_own_tags_partial (T := fun _ => True) sampleEnv_law (sampleEnv_apart _ sharedKey [9]) (by simp [sharedKey]) (disk := fun _ => none) rfl
    (fun _ _ => rfl) (openNode_new (by simp [sharedKey]) rfl 0) sharedOps sharedOps_allowed (fun _ => ()) (fun _ => trivial) sharedOwn (fun _ _ _ => trivial)
    (by rintro j k t hjk (⟨rfl, ht⟩ | ⟨rfl, ht⟩) (⟨rfl, ht'⟩ | ⟨rfl, ht'⟩) <;> simp_all) (fun _ => node) (fun _ => []) (fun _ => 0)
    (fun _ => hnode [] 0) sharedCalls sharedCalls_own
  obtain ⟨m, hm, hv⟩ := h [7] 5
  exact ⟨node, m, hm, hv 0 "a" (.inl ⟨rfl, .inl rfl⟩) silent cache now, hv 0 "b" (.inl ⟨rfl, .inr rfl⟩) silent cache now, hv 1 "c" (.inr ⟨rfl, rfl⟩) silent cache now⟩

/-- `b`, which the first object has saved, is not listed after the save of the second one. -/
example : ∃ node, let w := Shared.run sampleEnv ⟨fun _ => node, sharedDisk⟩ (sharedCalls ++ [(1, .save (fun _ => ()))])
    ∃ m, openNode sampleEnv w.disk sharedKey [7] 5 = .ok m ∧ "b" ∉ m.tags ∧ (m.queryTag sampleEnv w.disk "b" none false false 0).1 = .ok (some (.bytes [1])) := by
  obtain ⟨node, hnode, htags⟩ := shared_open
  obtain ⟨m, h1, _, h3, h4⟩ := C89_unlisted (T := fun _ => True) sampleEnv_law (sampleEnv_apart _ sharedKey [9]) (by simp [sharedKey]) (disk := fun _ => none) rfl
    (fun _ _ => rfl) (openNode_new (by simp [sharedKey]) rfl 0) sharedOps sharedOps_allowed (fun _ => ()) (fun _ => trivial) sharedOwn (fun _ _ _ => trivial)
    (by rintro j k t hjk (⟨rfl, ht⟩ | ⟨rfl, ht⟩) (⟨rfl, ht'⟩ | ⟨rfl, ht'⟩) <;> simp_all) (fun _ => node) (fun _ => []) (fun _ => 0)
    (fun _ => hnode [] 0) sharedCalls sharedCalls_own (j := 0) (k := 1) (by decide) (t := "b") (.inl ⟨rfl, .inr rfl⟩) (fun h => absurd (htags _ h) (by decide)) (x := .bytes [1]) (by rfl)
    (fun _ => ()) (fun _ => trivial) [7] 5
  exact ⟨node, m, h1, h3, h4 false false 0⟩

/-- Names of files that depend on the salt. -/
def twoSaltsEnv : Env Unit Bool := { sampleEnv with fileName := fun _ salt t => (if salt = [1] then "a file of " else "b file of ") ++ t }

theorem twoSaltsEnv_law : twoSaltsEnv.Law (fun _ => True) :=
  ⟨sampleEnv_law.back, sampleEnv_law.same, sampleEnv_law.nonempty, sampleEnv_law.fileKey, sampleEnv_law.manifestKey, sampleEnv_law.metaKey, sampleEnv_law.manifest⟩

def saltedOps : List (Op Unit Bool) := [.set "t" (.json true) false (), .save (fun _ => ())]

/-- The first object has set and saved `t`; after the save of the second one, which was opened before that, it has no value. -/
example :
    let w := Shared.run twoSaltsEnv ⟨fun k => if k = 0 then ⟨sharedKey, ⟨[1], [], []⟩, []⟩ else ⟨sharedKey, ⟨[2], [], []⟩, []⟩, fun _ => none⟩
      (saltedOps.map (fun op => (0, op)) ++ [(1, Op.save (fun _ => ()))])
    ∃ m, openNode twoSaltsEnv w.disk sharedKey [7] 5 = .ok m ∧ m.man.salt = [2] ∧ m.tags = [] ∧ (m.queryTag twoSaltsEnv w.disk "t" none false false 0).1 = .error .key := by
  obtain ⟨m, h1, h2, h3, h4⟩ := C89_new_salts (E := twoSaltsEnv) (T := fun t => t = "t") twoSaltsEnv_law (a := [1]) (b := [2]) (key := sharedKey)
    (fun t ht => by subst ht; decide) (fun t u ht hu => by subst ht; subst hu; decide)
    (by simp [sharedKey]) (disk := fun _ => none) rfl (fun _ _ => rfl) (openNode_new (by simp [sharedKey]) rfl 0) (openNode_new (by simp [sharedKey]) rfl 0)
    saltedOps
    (by intro op hop; simp only [saltedOps, List.mem_cons, List.not_mem_nil, or_false] at hop; rcases hop with rfl | rfl <;> simp [Op.Own, Op.tag?])
    (fun _ => ()) (fun _ => trivial) [7] 5
  exact ⟨m, h1, h2, h3, h4 "t" rfl false false 0⟩

/-- The first object reads `a`, the second one sets it to `true`, and the first one saves: it is `false` again. -/
example : ∃ node, let w := Shared.run sampleEnv ⟨fun _ => node, sharedDisk⟩ [(0, .query "a" none false true 0), (1, .set "a" (.json true) false ())]
    let w' := w.step sampleEnv (0, .save (fun _ => ()))
    ∃ m, openNode sampleEnv w'.disk sharedKey [7] 5 = .ok m ∧ (m.queryTag sampleEnv w'.disk "a" none false false 0).1 = .ok (some (.json false)) := by
  obtain ⟨node, hnode, _⟩ := shared_open
  obtain ⟨_, h⟩ := C89_reverted (T := fun _ => True) sampleEnv_law (sampleEnv_apart _ sharedKey [9]) (by simp [sharedKey]) (disk := fun _ => none) rfl
    (fun _ _ => rfl) (openNode_new (by simp [sharedKey]) rfl 0) sharedOps sharedOps_allowed (fun _ => ()) (fun _ => trivial) (fun _ => node) (fun _ => []) (fun _ => 0)
    (fun _ => hnode [] 0) (t := "a") trivial (old := .json false) (new := .json true) (by rfl) (sampleEnv_storable _) (r := ()) trivial false 0 (fun _ => ()) (fun _ => trivial)
  obtain ⟨m, h1, h2⟩ := h [7] 5
  exact ⟨node, m, h1, h2 false false 0⟩

end Aiootp.Database
