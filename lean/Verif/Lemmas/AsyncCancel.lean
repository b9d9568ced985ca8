import Verif.Model.AsyncCancel
import Verif.Spec.AsyncCancel
import Verif.Lemmas.AsyncDbThreads
import Verif.Lemmas.DatabaseMap

namespace Aiootp.AsyncDb

open Database

variable {ρ J : Type} {E : Env ρ J}

/-! ### other coroutines -/

/-- The file that a thread works on. -/
def Job.name : Job → String
  | .empty name => name
  | .write name _ => name
  | .remove name => name

theorem Job.run_other (disk : Disk) (job : Job) {f : String} (h : f ≠ job.name) : job.run disk f = disk f := by
  cases job <;> simp only [Job.name] at h <;> simp [Job.run, Disk.apply, overwrite, h]

theorem Save.jobs_name {filename : String} {s : Save} {job : Job} (h : job ∈ s.jobs filename) : job.name = filename := by
  cases s <;> simp only [Save.jobs, List.mem_singleton, List.not_mem_nil] at h <;> subst h <;> rfl

theorem cancelSave_frame (filename : String) (drop : Bool) (n : Node J) (s : Save) (disk : Disk) :
    (cancelSave filename drop n s).1.key = n.key ∧ (cancelSave filename drop n s).1.man = n.man ∧
    (∀ f, f ≠ filename → (cancelSave filename drop n s).1.cache.get f = n.cache.get f) ∧
    ∀ job ∈ (cancelSave filename drop n s).2, job.name = filename := by
  have fin : ∀ jobs : List Job, (∀ job ∈ jobs, job.name = filename) →
      let x : Node J × List Job := (if drop then { n with cache := n.cache.del filename } else n, jobs)
      x.1.key = n.key ∧ x.1.man = n.man ∧ (∀ f, f ≠ filename → x.1.cache.get f = n.cache.get f) ∧ ∀ job ∈ x.2, job.name = filename := by
    intro jobs hj
    cases drop
    · exact ⟨rfl, rfl, fun _ _ => rfl, hj⟩
    · exact ⟨rfl, rfl, fun f hf => by simp [Dict.get_del, hf], hj⟩
  cases s with
  | begin => exact ⟨rfl, rfl, fun _ _ => rfl, fun _ h => by cases h⟩
  | opening d => exact fin _ (fun _ h => Save.jobs_name h)
  | writing d => exact fin _ (fun _ h => Save.jobs_name h)
  | ended x => exact fin _ (fun _ h => Save.jobs_name h)

/-- What the cancellation of a call on a tag does not touch. -/
theorem cancelCall_frame {op : Op ρ J} {t : String} (ht : op.tag? = some t) (n : Node J) (pc : Pc J) :
    let x := cancelCall E n ([] : List (Part ρ J)) op pc
    x.1.key = n.key ∧ x.1.man = n.man ∧ (∀ f, f ≠ n.filename E t → x.1.cache.get f = n.cache.get f) ∧ ∀ job ∈ x.2, job.name = n.filename E t := by
  have keep : let x : Node J × List Job := (n, [])
      x.1.key = n.key ∧ x.1.man = n.man ∧ (∀ f, f ≠ n.filename E t → x.1.cache.get f = n.cache.get f) ∧ ∀ job ∈ x.2, job.name = n.filename E t :=
    ⟨rfl, rfl, fun _ _ => rfl, fun _ h => by cases h⟩
  cases op with
  | clearCache => cases ht
  | save rs => cases ht
  | loadTags a b => cases ht
  | set tag data cache r => cases ht; cases pc with
    | saving s drop => exact cancelSave_frame _ _ _ _ (fun _ => none)
    | _ => exact keep
  | saveTag tag drop r => cases ht; cases pc with
    | saving s drop => exact cancelSave_frame _ _ _ _ (fun _ => none)
    | _ => exact keep
  | pop tag silent now => cases ht; cases pc with
    | removing v f => exact ⟨rfl, rfl, fun _ _ => rfl, fun job h => by simp only [cancelCall, List.mem_singleton] at h; subst h; rfl⟩
    | _ => exact keep
  | query tag ttl silent cache now => cases ht; cases pc <;> exact keep
  | delItem tag => cases ht; cases pc <;> exact keep
  | rollback tag cache now => cases ht; cases pc <;> exact keep

/-- What holds of coroutines with tags of their own, of which `k` is not cancelled. -/
structure CGood (E : Env ρ J) (T : Nat → String → Prop) (key salt : Bytes) (k : Nat) (c : CSys ρ J) : Prop where
  good : Good T key salt c.sys
  jobs : ∀ job ∈ c.jobs, ∃ j t, j ≠ k ∧ T j t ∧ job.name = E.fileName key salt t

theorem CGood.cancel {T : Nat → String → Prop} {key salt : Bytes} {k : Nat} {c : CSys ρ J} (h : CGood E T key salt k c) {j : Nat} (hj : j ≠ k)
    (hdis : ∀ j t u, j ≠ k → T j t → T k u → E.fileName key salt t ≠ E.fileName key salt u) {o : One ρ J}
    (ha : Agree T key salt E k c.sys o) : CGood E T key salt k (c.cancel E j) ∧ Agree T key salt E k (c.cancel E j).sys o := by
  cases hc : (c.sys.threads j).call with
  | none =>
    have e : c.cancel E j = c := by simp only [CSys.cancel, hc]
    rw [e]; exact ⟨h, ha⟩
  | some x =>
    obtain ⟨op, pc⟩ := x
    obtain ⟨⟨t, hT, ht⟩, _⟩ := h.good.call j op pc hc
    obtain ⟨h1, h2, h3, h4⟩ := cancelCall_frame (E := E) ht c.sys.node pc
    have hp := h.good.parts j
    simp only [CSys.cancel, hc, hp]
    have hfn : c.sys.node.filename E t = E.fileName key salt t := by simp [Node.filename, h.good.key, h.good.salt]
    have hparts : (match pc with
      | .gathering => ([] : List (Part ρ J))
      | _ => []) = [] := by cases pc <;> rfl
    refine ⟨⟨⟨h1.trans h.good.key, by simp only [h2]; exact h.good.salt, ?_, ?_, ?_⟩, ?_⟩, ?_, ?_, ha.key, ha.salt⟩
    · intro i; simp only; split
      · exact hparts
      · exact h.good.parts i
    · intro i; simp only; split
      · rename_i e; rw [e]; exact h.good.todo j
      · exact h.good.todo i
    · intro i op' pc' hi; simp only at hi
      split at hi
      · cases hi
      · exact h.good.call i op' pc' hi
    · intro job hjob
      rcases List.mem_append.1 hjob with hjob | hjob
      · exact h.jobs job hjob
      · exact ⟨j, t, hj, hT, by rw [h4 job hjob, hfn]⟩
    · simp only [if_neg (fun e => hj e.symm : ¬ k = j)]
      exact ha.thread
    · intro u hU
      refine Same.trans ⟨?_, by simp only [h2], rfl⟩ (ha.same u hU)
      exact h3 _ (by rw [hfn]; exact fun e => hdis j t u hj hT hU e.symm)

theorem CGood.late {T : Nat → String → Prop} {key salt : Bytes} {k : Nat} {c : CSys ρ J} (h : CGood E T key salt k c)
    (hdis : ∀ j t u, j ≠ k → T j t → T k u → E.fileName key salt t ≠ E.fileName key salt u) {o : One ρ J}
    (ha : Agree T key salt E k c.sys o) (i : Nat) : CGood E T key salt k (c.late i) ∧ Agree T key salt E k (c.late i).sys o := by
  unfold CSys.late
  cases hc : c.jobs[i]? with
  | none => exact ⟨h, ha⟩
  | some job =>
    obtain ⟨j, t, hj, hT, hn⟩ := h.jobs job (List.mem_of_getElem? hc)
    refine ⟨⟨⟨h.good.key, h.good.salt, h.good.parts, h.good.todo, h.good.call⟩, fun job' hm => h.jobs job' (List.mem_of_mem_eraseIdx hm)⟩,
      ha.thread, ?_, ha.key, ha.salt⟩
    intro u hU
    refine Same.trans ⟨rfl, rfl, ?_⟩ (ha.same u hU)
    exact Job.run_other _ _ (by rw [hn]; exact fun e => hdis j t u hj hT hU e.symm)

theorem cagree_run {T : Nat → String → Prop} {key salt : Bytes} {k : Nat}
    (hdis : ∀ j t u, j ≠ k → T j t → T k u → E.fileName key salt t ≠ E.fileName key salt u) (moves : List CMove) (hk : CMove.cancel k ∉ moves) :
    ∀ {c : CSys ρ J} {o : One ρ J}, CGood E T key salt k c → Agree T key salt E k c.sys o →
      Agree T key salt E k (c.run E moves).sys (One.iter E (moves.count (.step (.main k))) o) := by
  induction moves with
  | nil => intro c o _ ha; exact ha
  | cons m ms ih =>
    intro c o hg ha
    have ih : ∀ {c : CSys ρ J} {o : One ρ J}, CGood E T key salt k c → Agree T key salt E k c.sys o →
      Agree T key salt E k (c.run E ms).sys (One.iter E (ms.count (.step (.main k))) o) := ih (fun h => hk (List.mem_cons_of_mem _ h))
    show Agree T key salt E k ((c.step E m).run E ms).sys _
    cases m with
    | step m =>
      have hg' : CGood E T key salt k (c.step E (.step m)) := ⟨hg.good.step m, hg.jobs⟩
      cases m with
      | part j i =>
        have e : c.sys.step E (.part j i) = c.sys := by simp [Sys.step, Sys.part, hg.good.parts j]
        rw [List.count_cons_of_ne (by simp)]
        exact ih hg' (by show Agree T key salt E k (c.sys.step E (.part j i)) o; rw [e]; exact ha)
      | main j =>
        by_cases hj : j = k
        · subst hj
          rw [List.count_cons_self, One.iter_shift]
          exact ih hg' (ha.own hg.good)
        · rw [List.count_cons_of_ne (by simpa using hj)]
          exact ih hg' (ha.other hg.good hdis hj)
    | cancel j =>
      have hj : j ≠ k := by rintro rfl; exact hk List.mem_cons_self
      rw [List.count_cons_of_ne (by simp)]
      obtain ⟨h1, h2⟩ := hg.cancel hj hdis ha
      exact ih h1 h2
    | late i =>
      rw [List.count_cons_of_ne (by simp)]
      obtain ⟨h1, h2⟩ := hg.late hdis ha i
      exact ih h1 h2

/-! ### the values of the tags -/

/-- The object and the directory show these values; what is in the files of cached tags does not matter. -/
structure Live (E : Env ρ J) (T : String → Prop) (key salt : Bytes) (s : Database.Sys J) (cur : String → Option (Value J)) : Prop where
  apart : Apart E T key salt
  hkey : s.node.key = key
  hsalt : s.node.man.salt = salt
  cached : ∀ t, T t → ∀ x, s.node.cache.get (E.fileName key salt t) = some x → cur t = some x ∧ Storable E x
  uncached : ∀ t, T t → s.node.cache.get (E.fileName key salt t) = none → Stored E key salt s.disk (E.fileName key salt t) (cur t)
  cacheNames : ∀ f x, s.node.cache.get f = some x → ∃ t, T t ∧ f = E.fileName key salt t
  fileNames : ∀ f t, s.node.man.files.get f = some t → T t ∧ f = E.fileName key salt t
  listed : ∀ t, T t → (cur t).isSome = true → s.node.man.files.get (E.fileName key salt t) = some t
  nodup : s.node.man.files.names.Nodup

section
variable {good : ρ → Prop} {T : String → Prop} {key salt : Bytes} {s : Database.Sys J} {v : View J} {cur : String → Option (Value J)}

theorem Live.of_rep (h : Rep E T key salt s v) : Live E T key salt s v.current where
  apart := h.apart
  hkey := h.hkey
  hsalt := h.hsalt
  cached := h.cached
  uncached t ht hc := by rw [h.uncached t ht hc]; exact h.stored t ht
  cacheNames := h.cacheNames
  fileNames := h.fileNames
  listed t ht hx := h.listed t ht (.inl hx)
  nodup := h.nodup

/-- The files of cached tags and that of the manifest change. -/
theorem Live.files (h : Live E T key salt s cur) {disk : Disk}
    (hd : ∀ f, disk f = s.disk f ∨ (∃ x, s.node.cache.get f = some x) ∨ f = E.rootName key) : Live E T key salt ⟨s.node, disk⟩ cur where
  apart := h.apart
  hkey := h.hkey
  hsalt := h.hsalt
  cached := h.cached
  uncached t ht hc := by
    rcases hd (E.fileName key salt t) with hd | ⟨x, hx⟩ | hr
    · exact (h.uncached t ht hc).congr hd
    · rw [show s.node.cache.get (E.fileName key salt t) = none from hc] at hx; cases hx
    · exact absurd hr (h.apart.root t ht)
  cacheNames := h.cacheNames
  fileNames := h.fileNames
  listed := h.listed
  nodup := h.nodup

theorem Live.query (h : Live E T key salt s cur) {t : String} (ht : T t) (silent cache : Bool) (now : Int) :
    (s.node.queryTag E s.disk t none silent cache now).1 = answer silent (cur t) := by
  have hf : s.node.filename E t = E.fileName key salt t := by simp [Node.filename, h.hkey, h.hsalt]
  simp only [Node.queryTag, hf]
  cases hc : s.node.cache.get (E.fileName key salt t) with
  | some x => simp [(h.cached t ht x hc).1, answer]
  | none =>
    have hs := h.uncached t ht hc
    cases hv : cur t with
    | none =>
      rw [hv] at hs
      simp only [Stored] at hs
      simp [hs, answer]
    | some x =>
      rw [hv] at hs
      obtain ⟨_, c, text, hd, hne, hdec, hback, _⟩ := hs
      cases c with
      | nil => exact absurd rfl hne
      | cons b bs => simp [hd, h.hkey, h.hsalt, hback, hdec, bind, Except.bind, answer]

/-- What the files hold after a save. -/
theorem saveTags_disk {n : Node J} {rs : String → ρ} (henc : ∀ f x, n.cache.get f = some x → ∃ text, encodeValue E x = .ok text) (d : Dict (Value J))
    (hd : ∀ p ∈ d, ∃ x, n.cache.get p.1 = some x) :
    (n.saveTags E rs d).1 = .ok () ∧ ∀ (disk : Disk) f,
      (f ∉ Dict.names d → disk.applyAll (n.saveTags E rs d).2 f = disk f) ∧
      (f ∈ Dict.names d → ∃ x text, n.cache.get f = some x ∧ encodeValue E x = .ok text ∧
        disk.applyAll (n.saveTags E rs d).2 f = some (E.encrypt (E.fileKey n.key n.man.salt f) (rs f) text)) := by
  induction d with
  | nil => exact ⟨rfl, fun disk f => ⟨fun _ => rfl, fun h => by cases h⟩⟩
  | cons p d ih =>
    obtain ⟨g, y⟩ := p
    obtain ⟨x, hx⟩ := hd (g, y) List.mem_cons_self
    obtain ⟨text, ht⟩ := henc g x hx
    obtain ⟨i1, i2⟩ := ih (fun p hp => hd p (List.mem_cons_of_mem _ hp))
    have hsf : n.saveFile E g (rs g) = .ok (.put g (E.encrypt (E.fileKey n.key n.man.salt g) (rs g) text)) := by
      simp only at hx
      simp only [Node.saveFile, hx, ht]; rfl
    simp only [Node.saveTags, hsf]
    refine ⟨i1, fun disk f => ?_⟩
    obtain ⟨j1, j2⟩ := i2 (disk.apply (.put g (E.encrypt (E.fileKey n.key n.man.salt g) (rs g) text))) f
    have names : Dict.names ((g, y) :: d) = g :: Dict.names d := rfl
    rw [names]
    refine ⟨fun hf => ?_, fun hf => ?_⟩
    · simp only [List.mem_cons, not_or] at hf
      show (disk.apply _).applyAll _ f = _
      rw [j1 hf.2]
      simp [Disk.apply, hf.1]
    · by_cases hm : f ∈ Dict.names d
      · exact j2 hm
      · have hfg : f = g := by simpa [hm] using hf
        subst hfg
        refine ⟨x, text, hx, ht, ?_⟩
        show (disk.apply _).applyAll _ f = _
        rw [j1 hm]
        simp [Disk.apply]

/-- A complete save makes the values the saved ones. -/
theorem Live.save (law : E.Law good) (h : Live E T key salt s cur) {rs : String → ρ} (hrs : ∀ name, good (rs name)) :
    (s.node.save E rs).1 = .ok () ∧ Rep E T key salt ⟨s.node, s.disk.applyAll (s.node.save E rs).2⟩ ⟨cur, cur⟩ := by
  have hk := h.hkey
  have hsl := h.hsalt
  subst hk
  subst hsl
  have henc : ∀ f x, s.node.cache.get f = some x → ∃ text, encodeValue E x = .ok text := by
    intro f x hx
    obtain ⟨t, ht, rfl⟩ := h.cacheNames f x hx
    obtain ⟨text, he, _⟩ := (h.cached t ht x hx).2
    exact ⟨text, he⟩
  obtain ⟨h1, h2⟩ := saveTags_disk (E := E) (rs := rs) henc s.node.cache (fun p hp => Dict.get_of_mem hp)
  refine ⟨h1, h.apart, rfl, rfl, h.cached, fun _ _ _ => rfl, ?_, h.cacheNames, h.fileNames, fun t ht hx => h.listed t ht (by rcases hx with hx | hx <;> exact hx), h.nodup⟩
  intro t ht
  simp only [Node.save, Node.manifestWrite]
  obtain ⟨j1, j2⟩ := h2 (s.disk.apply (.put (E.rootName s.node.key) (E.encrypt (E.manifestKey s.node.key) (rs (E.rootName s.node.key)) (E.dumpManifest s.node.man))))
    (E.fileName s.node.key s.node.man.salt t)
  cases hc : s.node.cache.get (E.fileName s.node.key s.node.man.salt t) with
  | none =>
    refine (h.uncached t ht hc).congr ?_
    have hn : E.fileName s.node.key s.node.man.salt t ∉ s.node.cache.names := by
      intro hm
      obtain ⟨x, hx⟩ := Dict.mem_names.1 hm
      rw [hc] at hx; cases hx
    refine (j1 hn).trans ?_
    simp [Disk.apply, h.apart.root t ht]
  | some x =>
    obtain ⟨x', text, hx', he, hd⟩ := j2 (Dict.mem_names.2 ⟨x, hc⟩)
    rw [hc] at hx'
    cases hx'
    obtain ⟨hcur, hst⟩ := h.cached t ht x hc
    rw [hcur]
    exact (stored_put law (hrs _) he hst (fun _ => none) _).congr (by simp only [Disk.apply, if_true]; exact hd)

end

end Aiootp.AsyncDb
