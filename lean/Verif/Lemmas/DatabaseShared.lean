import Verif.Model.DatabaseShared
import Verif.Spec.DatabaseShared
import Verif.Lemmas.DatabaseSave
import Verif.Lemmas.AsyncCancel

namespace Aiootp.Database

variable {ρ J : Type} {E : Env ρ J}

theorem query_alike {n : Node J} {disk disk' : Disk} {tag : String} (h : disk (n.filename E tag) = disk' (n.filename E tag)) (ttl : Option Int)
    (silent cache : Bool) (now : Int) : n.queryTag E disk tag ttl silent cache now = n.queryTag E disk' tag ttl silent cache now := by
  simp only [Node.queryTag, h]

theorem rollback_alike {n : Node J} {disk disk' : Disk} {tag : String} (h : disk (n.filename E tag) = disk' (n.filename E tag))
    (cache : Bool) (now : Int) : n.rollbackTag E disk tag cache now = n.rollbackTag E disk' tag cache now := by
  simp only [Node.rollbackTag, h]
  rw [query_alike (E := E) (disk := disk) (disk' := disk')]
  exact h

/-- A call sees nothing of the directory but its own files. -/
theorem run_alike {T : String → Prop} {op : Op ρ J} (hop : op.Own T) {n : Node J} {disk disk' : Disk}
    (h : ∀ t, T t → disk (n.filename E t) = disk' (n.filename E t)) : op.run E n disk = op.run E n disk' := by
  cases op with
  | loadTags a b => exact hop.elim
  | clearCache => rfl
  | save rs => rfl
  | set t x c r => rfl
  | delItem t => rfl
  | saveTag t d r => rfl
  | query t ttl silent cache now =>
    obtain ⟨u, hu, e⟩ := hop
    cases e
    simp only [Op.run, query_alike (h t hu)]
  | pop t silent now =>
    obtain ⟨u, hu, e⟩ := hop
    cases e
    simp only [Op.run, Node.popTag, query_alike (h t hu), h t hu]
  | rollback t cache now =>
    obtain ⟨u, hu, e⟩ := hop
    cases e
    simp only [Op.run, rollback_alike (h t hu)]

theorem saveFile_name {n : Node J} {f : String} {r : ρ} {w : Write} (h : n.saveFile E f r = .ok w) : w.name = f := by
  simp only [Node.saveFile] at h
  cases hc : n.cache.get f with
  | none => rw [hc] at h; cases h
  | some v =>
    cases he : encodeValue E v with
    | error e => simp only [hc, he] at h; cases h
    | ok text => simp only [hc, he] at h; cases h; rfl

theorem saveTag_node {n : Node J} {t : String} {drop : Bool} {r : ρ} :
    (n.saveTag E t drop r).2.1 = if drop then { n with cache := n.cache.del (n.filename E t) } else n := by
  simp only [Node.saveTag]
  split <;> rfl

theorem saveTag_names {n : Node J} {t : String} {drop : Bool} {r : ρ} : ∀ w ∈ (n.saveTag E t drop r).2.2, w.name = n.filename E t := by
  intro w hw
  simp only [Node.saveTag] at hw
  split at hw
  · rename_i w' h
    rw [List.mem_singleton.1 hw]
    exact saveFile_name h
  · cases hw
  · cases hw

theorem saveTags_names {n : Node J} {rs : String → ρ} : ∀ (d : Dict (Value J)), ∀ w ∈ (n.saveTags E rs d).2, w.name ∈ Dict.names d := by
  intro d
  induction d with
  | nil => intro w hw; cases hw
  | cons p d ih =>
    obtain ⟨f, x⟩ := p
    intro w hw
    simp only [Node.saveTags] at hw
    show w.name ∈ f :: Dict.names d
    cases hs : n.saveFile E f (rs f) with
    | error e => rw [hs] at hw; cases hw
    | ok w' =>
      rw [hs] at hw
      rcases List.mem_cons.1 hw with rfl | hw
      · rw [saveFile_name hs]; exact List.mem_cons_self
      · exact List.mem_cons_of_mem _ (ih w hw)

/-- The cached values belong to tags of the set. -/
def Within (E : Env ρ J) (T : String → Prop) (n : Node J) : Prop := ∀ f x, n.cache.get f = some x → ∃ t, T t ∧ f = n.filename E t

/-- What a call does not touch. -/
theorem run_frame {T : String → Prop} {op : Op ρ J} (hop : op.Own T) {n : Node J} (disk : Disk) (hn : Within E T n) :
    (op.run E n disk).2.1.key = n.key ∧ (op.run E n disk).2.1.man.salt = n.man.salt ∧ Within E T (op.run E n disk).2.1 ∧
    ∀ w ∈ (op.run E n disk).2.2, (∃ t, T t ∧ w.name = n.filename E t) ∨ ((∃ rs, op = .save rs) ∧ w.name = E.rootName n.key) := by
  have del : ∀ (t : String) (files : Dict String), Within E T { n with cache := n.cache.del (n.filename E t), man := { n.man with files := files } } := by
    intro t files f x hx
    simp only [Dict.get_del] at hx
    split at hx
    · cases hx
    · exact hn f x hx
  have put : ∀ (t : String) (x : Value J) (files : Dict String), T t →
      Within E T { n with cache := n.cache.set (n.filename E t) x, man := { n.man with files := files } } := by
    intro t x files ht f y hy
    simp only [Dict.get_set] at hy
    split at hy
    · rename_i e; exact ⟨t, ht, e⟩
    · exact hn f y hy
  have none' : ∀ w ∈ ([] : List Write), (∃ t, T t ∧ w.name = n.filename E t) ∨ ((∃ rs, op = .save rs) ∧ w.name = E.rootName n.key) := fun _ h => by cases h
  have query : ∀ (m : Node J) (t : String) ttl silent cache now, T t → Within E T m →
      (m.queryTag E disk t ttl silent cache now).2.key = m.key ∧ (m.queryTag E disk t ttl silent cache now).2.man = m.man ∧
      Within E T (m.queryTag E disk t ttl silent cache now).2 := by
    intro m t ttl silent cache now ht hm
    simp only [Node.queryTag]
    split
    · exact ⟨rfl, rfl, hm⟩
    · split
      · exact ⟨rfl, rfl, hm⟩
      · exact ⟨rfl, rfl, hm⟩
      · split
        · exact ⟨rfl, rfl, hm⟩
        · cases cache
          · exact ⟨rfl, rfl, hm⟩
          · refine ⟨rfl, rfl, ?_⟩
            intro f y hy
            simp only [if_true, Dict.get_set] at hy
            split at hy
            · rename_i e; exact ⟨t, ht, e⟩
            · exact hm f y hy
  cases op with
  | loadTags a b => exact hop.elim
  | clearCache => exact ⟨rfl, rfl, (fun f x hx => by cases hx), none'⟩
  | save rs =>
    refine ⟨rfl, rfl, hn, fun w hw => ?_⟩
    rcases List.mem_cons.1 hw with rfl | hw
    · exact .inr ⟨⟨rs, rfl⟩, rfl⟩
    · obtain ⟨x, hx⟩ := Dict.mem_names.1 (saveTags_names _ w hw)
      exact .inl (hn _ x hx)
  | set t x c r =>
    obtain ⟨u, hu, e⟩ := hop
    cases e
    cases c with
    | true => exact ⟨rfl, rfl, put t x _ hu, none'⟩
    | false =>
      refine ⟨?_, ?_, ?_, fun w hw => .inl ⟨t, hu, ?_⟩⟩
      · simp [Op.run, Node.setTag, saveTag_node]
      · simp [Op.run, Node.setTag, saveTag_node]
      · have : Within E T { n with cache := (n.cache.set (n.filename E t) x).del (n.filename E t), man := { n.man with files := n.man.files.set (n.filename E t) t } } := by
          intro f y hy
          simp only [Dict.get_del, Dict.get_set] at hy
          split at hy
          · cases hy
          · exact hn f y hy
        simp only [Op.run, Node.setTag, Bool.false_eq_true, if_false, saveTag_node]
        exact this
      · simp only [Op.run, Node.setTag, Bool.false_eq_true, if_false] at hw
        have := saveTag_names w hw
        exact this
  | delItem t =>
    obtain ⟨u, hu, e⟩ := hop
    cases e
    exact ⟨rfl, rfl, del t _, fun w hw => .inl ⟨t, hu, by rw [List.mem_singleton.1 hw]; rfl⟩⟩
  | saveTag t d r =>
    obtain ⟨u, hu, e⟩ := hop
    cases e
    have : Within E T (if d then { n with cache := n.cache.del (n.filename E t) } else n) := by
      cases d
      · exact hn
      · exact del t n.man.files
    refine ⟨?_, ?_, ?_, fun w hw => .inl ⟨t, hu, saveTag_names w hw⟩⟩
    · simp only [Op.run, saveTag_node]; cases d <;> rfl
    · simp only [Op.run, saveTag_node]; cases d <;> rfl
    · simp only [Op.run, saveTag_node]; exact this
  | query t ttl silent cache now =>
    obtain ⟨u, hu, e⟩ := hop
    cases e
    obtain ⟨h1, h2, h3⟩ := query n t ttl silent cache now hu hn
    exact ⟨h1, by simp only [Op.run, h2], h3, none'⟩
  | pop t silent now =>
    obtain ⟨u, hu, e⟩ := hop
    cases e
    simp only [Op.run, Node.popTag]
    split
    · exact ⟨rfl, rfl, hn, none'⟩
    · exact ⟨rfl, rfl, del t _, fun w hw => .inl ⟨t, hu, by rw [List.mem_singleton.1 hw]; rfl⟩⟩
  | rollback t cache now =>
    obtain ⟨u, hu, e⟩ := hop
    cases e
    simp only [Op.run, Node.rollbackTag]
    cases cache with
    | false => exact ⟨rfl, rfl, del t _, none'⟩
    | true =>
      have hd := del t (if (disk (n.filename E t)).isNone then n.man.files.del (n.filename E t) else n.man.files)
      obtain ⟨h1, h2, h3⟩ := query _ t none false true now hu hd
      simp only [if_true]
      split <;> (
        rename_i hq
        rw [hq] at h1 h2 h3
        have h4 := congrArg Manifest.salt h2
        exact ⟨h1, h4, h3, none'⟩)

/-- The writes of a call. -/
theorem run_disk {T : String → Prop} {op : Op ρ J} (hop : op.Own T) {n : Node J} (disk disk' : Disk) (hn : Within E T n) {f : String}
    (hf : ∀ t, T t → f ≠ n.filename E t) (hr : f ≠ E.rootName n.key) : disk'.applyAll (op.run E n disk).2.2 f = disk' f := by
  refine applyAll_other _ _ fun w hw => ?_
  rcases (run_frame hop disk hn).2.2.2 w hw with ⟨t, ht, e⟩ | ⟨_, e⟩
  · rw [e]; exact hf t ht
  · rw [e]; exact hr

theorem applyAll_alike (ws : List Write) {f : String} : ∀ {disk disk' : Disk}, disk f = disk' f → disk.applyAll ws f = disk'.applyAll ws f := by
  induction ws with
  | nil => intro d d' h; exact h
  | cons w ws ih =>
    intro d d' h
    refine ih (disk := d.apply w) (disk' := d'.apply w) ?_
    cases w <;> simp only [Disk.apply, h]

/-- Every object is as if it were alone, as far as its own tags are concerned. -/
structure Apiece (E : Env ρ J) (own : Nat → String → Prop) (key salt : Bytes) (w : Shared J) (alone : Nat → Sys J) : Prop where
  node : ∀ k, w.nodes k = (alone k).node
  hkey : ∀ k, (w.nodes k).key = key
  hsalt : ∀ k, (w.nodes k).man.salt = salt
  within : ∀ k, Within E (own k) (w.nodes k)
  disk : ∀ k t, own k t → w.disk (E.fileName key salt t) = (alone k).disk (E.fileName key salt t)

section
variable {own : Nat → String → Prop} {key salt : Bytes} {w : Shared J} {alone : Nat → Sys J}

/-- A call of one object. -/
def stepOne (E : Env ρ J) (alone : Nat → Sys J) (call : Nat × Op ρ J) : Nat → Sys J :=
  fun j => if j = call.1 then (alone j).step E call.2 else alone j

theorem Apiece.result (h : Apiece E own key salt w alone) {call : Nat × Op ρ J} (hop : call.2.Own (own call.1)) :
    call.2.run E (w.nodes call.1) w.disk = call.2.run E (alone call.1).node (alone call.1).disk := by
  rw [← h.node call.1]
  refine run_alike hop fun t ht => ?_
  simp only [Node.filename, h.hkey, h.hsalt]
  exact h.disk _ t ht

theorem Apiece.step (h : Apiece E own key salt w alone) (hdis : ∀ j k t u, j ≠ k → own j t → own k u → E.fileName key salt t ≠ E.fileName key salt u)
    (hroot : ∀ k t, own k t → E.fileName key salt t ≠ E.rootName key) {call : Nat × Op ρ J} (hop : call.2.Own (own call.1)) :
    Apiece E own key salt (w.step E call) (stepOne E alone call) := by
  have hrun := h.result hop
  obtain ⟨f1, f2, f3, f4⟩ := run_frame hop w.disk (h.within call.1)
  have hfn : ∀ t, (w.nodes call.1).filename E t = E.fileName key salt t := fun t => by simp [Node.filename, h.hkey, h.hsalt]
  refine ⟨fun k => ?_, fun k => ?_, fun k => ?_, fun k => ?_, fun k t ht => ?_⟩
  · simp only [Shared.step, stepOne]
    split
    · rename_i e; subst e; simp only [Sys.step, hrun]
    · exact h.node k
  · simp only [Shared.step]
    split
    · rw [f1]; exact h.hkey _
    · exact h.hkey k
  · simp only [Shared.step]
    split
    · rw [f2]; exact h.hsalt _
    · exact h.hsalt k
  · simp only [Shared.step]
    split
    · rename_i e; rw [e]; exact f3
    · exact h.within k
  · simp only [Shared.step, stepOne]
    split
    · rename_i e
      subst e
      simp only [Sys.step, ← hrun]
      exact applyAll_alike _ (h.disk _ t ht)
    · rename_i e
      rw [← h.disk k t ht]
      refine run_disk hop _ _ (h.within _) (fun u hu => ?_) ?_
      · rw [hfn]; exact hdis k call.1 t u e ht hu
      · rw [h.hkey]; exact hroot k t ht

theorem callsOf_cons (k : Nat) (call : Nat × Op ρ J) (calls : List (Nat × Op ρ J)) :
    callsOf k (call :: calls) = if call.1 = k then call.2 :: callsOf k calls else callsOf k calls := by
  by_cases hc : call.1 = k <;> simp [callsOf, hc]

theorem Apiece.run (hdis : ∀ j k t u, j ≠ k → own j t → own k u → E.fileName key salt t ≠ E.fileName key salt u)
    (hroot : ∀ k t, own k t → E.fileName key salt t ≠ E.rootName key) (calls : List (Nat × Op ρ J)) (hcalls : ∀ c ∈ calls, c.2.Own (own c.1)) :
    ∀ {w : Shared J} {alone : Nat → Sys J}, Apiece E own key salt w alone →
      Apiece E own key salt (w.run E calls) (fun k => (alone k).run E (callsOf k calls)) ∧
      ∀ k, w.results E k calls = AsyncDb.results E (alone k) (callsOf k calls) := by
  induction calls with
  | nil => intro w alone h; exact ⟨h, fun k => rfl⟩
  | cons call calls ih =>
    intro w alone h
    obtain ⟨i1, i2⟩ := ih (fun c hc => hcalls c (List.mem_cons_of_mem _ hc)) (h.step hdis hroot (hcalls call List.mem_cons_self))
    have hrun := h.result (hcalls call List.mem_cons_self)
    have e : (fun k => (alone k).run E (callsOf k (call :: calls))) = (fun k => (stepOne E alone call k).run E (callsOf k calls)) := by
      funext k
      simp only [callsOf_cons, stepOne]
      by_cases hk : call.1 = k
      · simp only [hk, if_true]; rfl
      · rw [if_neg hk, if_neg (fun e => hk e.symm)]
    refine ⟨by rw [e]; exact i1, fun k => ?_⟩
    simp only [Shared.results, i2, callsOf_cons, stepOne]
    by_cases hk : call.1 = k
    · subst hk
      simp only [if_true, AsyncDb.results, hrun]
    · rw [if_neg hk, if_neg hk, if_neg (fun e => hk e.symm)]

/-- The manifest is one that some object has written. -/
def Written (E : Env ρ J) (good : ρ → Prop) (key salt : Bytes) (disk : Disk) : Prop :=
  ∃ man r, Manifest.Sound man ∧ good r ∧ man.salt = salt ∧ disk (E.rootName key) = some (E.encrypt (E.manifestKey key) r (E.dumpManifest man))

/-- What the file of the manifest holds after a save. -/
theorem save_root_file {n : Node J} {rs : String → ρ} (disk : Disk) (hn : ∀ f x, n.cache.get f = some x → f ≠ E.rootName n.key) :
    disk.applyAll (n.save E rs).2 (E.rootName n.key) = some (E.encrypt (E.manifestKey n.key) (rs (E.rootName n.key)) (E.dumpManifest n.man)) := by
  show (disk.apply (n.manifestWrite E (rs (E.rootName n.key)))).applyAll (n.saveTags E rs n.cache).2 (E.rootName n.key) = _
  rw [applyAll_other _ _ (fun w hw => ?_)]
  · simp [Node.manifestWrite, Disk.apply]
  · obtain ⟨x, hx⟩ := Dict.mem_names.1 (saveTags_names _ w hw)
    exact fun e => hn _ x hx e.symm

variable {good : ρ → Prop} {T : String → Prop}

/-- Every object and the directory are described by the calls of the object, as far as its own tags are concerned. -/
theorem shared_values (law : E.Law good) {views : Nat → View J} (hdis : ∀ j k t u, j ≠ k → own j t → own k u → E.fileName key salt t ≠ E.fileName key salt u)
    (hown : ∀ k t, own k t → T t) (hap : Apart E T key salt)
    (calls : List (Nat × Op ρ J)) (hcalls : ∀ c ∈ calls, c.2.Own (own c.1) ∧ c.2.Allowed E good T) :
    ∀ {w : Shared J} {alone : Nat → Sys J}, Apiece E own key salt w alone → (∀ k, Rep E T key salt (alone k) (views k)) → Written E good key salt w.disk →
      (∀ k, Rep E T key salt ((alone k).run E (callsOf k calls)) ((callsOf k calls).foldl View.after (views k))) ∧
      Written E good key salt (w.run E calls).disk := by
  induction calls generalizing views with
  | nil => intro w alone _ hr hw; exact ⟨hr, hw⟩
  | cons call calls ih =>
    intro w alone h hr hw
    obtain ⟨hop, hal⟩ := hcalls call List.mem_cons_self
    have hroot : ∀ k t, own k t → E.fileName key salt t ≠ E.rootName key := fun k t ht => hap.root t (hown k t ht)
    have hr' : ∀ k, Rep E T key salt (stepOne E alone call k) (if k = call.1 then (views k).after call.2 else views k) := by
      intro k
      simp only [stepOne]
      split
      · rename_i e; subst e; exact (hr _).step law hal
      · exact hr k
    have hw' : Written E good key salt (w.step E call).disk := by
      have hsave : (∃ rs, call.2 = .save rs) ∨ ∀ rs, call.2 ≠ .save rs := by
        cases call.2 <;> first | exact .inl ⟨_, rfl⟩ | exact .inr (fun _ e => by cases e)
      rcases hsave with ⟨rs, e⟩ | hne
      · have hg : ∀ name, good (rs name) := by rw [e] at hal; exact hal
        refine ⟨(w.nodes call.1).man, rs (E.rootName key), ?_, hg _, h.hsalt _, ?_⟩
        · rw [h.node]; exact (hr _).sound
        · have := save_root_file (E := E) (n := w.nodes call.1) (rs := rs) w.disk (fun f x hx => by
            obtain ⟨t, ht, rfl⟩ := h.within _ f x hx
            simp only [Node.filename, h.hkey, h.hsalt]
            exact hroot _ t ht)
          rw [h.hkey] at this
          simp only [Shared.step, e, Op.run]
          exact this
      · obtain ⟨man, r, h1, h2, h3, h4⟩ := hw
        refine ⟨man, r, h1, h2, h3, ?_⟩
        rw [← h4]
        refine applyAll_other _ _ fun w' hw' => ?_
        rcases (run_frame hop w.disk (h.within call.1)).2.2.2 w' hw' with ⟨t, ht, e⟩ | ⟨⟨rs, e⟩, _⟩
        · rw [e]
          simp only [Node.filename, h.hkey, h.hsalt]
          exact fun e' => hroot _ t ht e'.symm
        · exact absurd e (hne rs)
    obtain ⟨i1, i2⟩ := ih (fun c hc => hcalls c (List.mem_cons_of_mem _ hc)) (h.step hdis hroot hop) hr' hw'
    refine ⟨fun k => ?_, i2⟩
    have := i1 k
    simp only [stepOne] at this
    rw [callsOf_cons]
    by_cases hk : call.1 = k
    · subst hk
      simp only [if_true] at this ⊢
      exact this
    · rw [if_neg (fun e => hk e.symm), if_neg (fun e => hk e.symm)] at this
      rw [if_neg hk]
      exact this

end

end Aiootp.Database
