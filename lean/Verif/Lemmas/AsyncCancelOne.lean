import Verif.Lemmas.AsyncCancel
import Verif.Lemmas.DatabaseSave

/-! One call that is cancelled, with nobody else there. -/

namespace Aiootp.AsyncDb

open Database

variable {ρ J : Type} {E : Env ρ J} {good : ρ → Prop} {T : String → Prop} {key salt : Bytes} {v : View J}

/-- Where a call can be that is under way. -/
def Under (E : Env ρ J) (n : Node J) (disk : Disk) : Op ρ J → Local J → Prop
  | .set .., l => l.pc = .start ∧ l.node = n ∧ l.disk = disk
  | .delItem _, l => l.pc = .start ∧ l.node = n ∧ l.disk = disk
  | .query .., l => (l.pc = .start ∨ ∃ x, l.pc = .looking x) ∧ l.node = n ∧ l.disk = disk
  | .rollback tag _ now, l => (l.pc = .start ∧ l.node = n ∧ l.disk = disk) ∨
      (∃ x, l.pc = .looking x) ∧ l.node = (n.rollbackTag E disk tag false now).2 ∧ l.disk = disk
  | .saveTag tag _ _, l => (l.pc = .start ∧ l.node = n ∧ l.disk = disk) ∨
      (∃ s, l.pc = .saving s false) ∧ l.node = n ∧ (∃ x, n.cache.get (n.filename E tag) = some x) ∧ ∀ f, f ≠ n.filename E tag → l.disk f = disk f
  | _, _ => False

theorem Under.iter {op : Op ρ J} {t : String} (ht : op.tag? = some t) (hkeep : Keeps op) (n : Node J) (disk : Disk) (j : Nat) :
    (∃ x, (Local.iter E op j ⟨n, disk, .start⟩).pc = .ended x) ∨ Under E n disk op (Local.iter E op j ⟨n, disk, .start⟩) := by
  induction j with
  | zero =>
    right
    cases op with
    | clearCache => cases ht
    | save rs => cases ht
    | loadTags a b => cases ht
    | pop tag silent now => exact hkeep.elim
    | set tag data cache r => exact ⟨rfl, rfl, rfl⟩
    | delItem tag => exact ⟨rfl, rfl, rfl⟩
    | query tag ttl silent cache now => exact ⟨.inl rfl, rfl, rfl⟩
    | rollback tag cache now => exact .inl ⟨rfl, rfl, rfl⟩
    | saveTag tag drop r => exact .inl ⟨rfl, rfl, rfl⟩
  | succ j ih =>
    rcases ih with ⟨x, hx⟩ | h
    · left
      refine ⟨x, ?_⟩
      show (Local.next E op (Local.iter E op j ⟨n, disk, .start⟩)).pc = _
      simp only [Local.next, hx]
    · show (∃ x, (Local.next E op (Local.iter E op j ⟨n, disk, .start⟩)).pc = .ended x) ∨ Under E n disk op (Local.next E op (Local.iter E op j ⟨n, disk, .start⟩))
      generalize Local.iter E op j ⟨n, disk, .start⟩ = l at h
      obtain ⟨m, d, pc⟩ := l
      cases op with
      | clearCache => cases ht
      | save rs => cases ht
      | loadTags a b => cases ht
      | pop tag silent now => exact hkeep.elim
      | set tag data cache r =>
        obtain ⟨rfl, rfl, rfl⟩ := h
        simp only [Keeps] at hkeep
        subst hkeep
        exact .inl ⟨_, rfl⟩
      | delItem tag =>
        obtain ⟨rfl, rfl, rfl⟩ := h
        exact .inl ⟨_, rfl⟩
      | query tag ttl silent cache now =>
        obtain ⟨hpc, rfl, rfl⟩ := h
        have step : ∀ l : Look J, (∃ x, (queryLook E (m.filename E tag) m d ttl silent cache now l).pc = .ended x) ∨
            Under E m d (.query tag ttl silent cache now : Op ρ J) (queryLook E (m.filename E tag) m d ttl silent cache now l) := by
          intro l
          cases l with
          | lookup =>
            simp only [queryLook, Look.step]
            cases m.cache.get (m.filename E tag) with
            | some v => exact .inl ⟨_, rfl⟩
            | none => exact .inr ⟨.inr ⟨_, rfl⟩, rfl, rfl⟩
          | reading =>
            simp only [queryLook, Look.step]
            match d (m.filename E tag) with
            | none => exact .inl ⟨_, rfl⟩
            | some [] => exact .inl ⟨_, rfl⟩
            | some (c :: cs) => exact .inr ⟨.inr ⟨_, rfl⟩, rfl, rfl⟩
          | decrypting c =>
            simp only [queryLook, Look.step]
            cases (do let text ← E.decrypt (E.fileKey m.key m.man.salt (m.filename E tag)) now ttl c; decodeValue E text) with
            | error e => exact .inl ⟨_, rfl⟩
            | ok v => exact .inl ⟨_, rfl⟩
          | found x => exact .inl ⟨_, rfl⟩
        rcases hpc with rfl | ⟨x, rfl⟩
        · exact step .lookup
        · exact step x
      | rollback tag cache now =>
        rcases h with ⟨rfl, rfl, rfl⟩ | ⟨⟨x, rfl⟩, hm, hd⟩
        · simp only [Local.next, tagStep]
          cases cache with
          | false => exact .inl ⟨_, rfl⟩
          | true => exact .inr (.inr ⟨⟨_, rfl⟩, by simp [Node.rollbackTag], rfl⟩)
        · simp only at hm hd
          subst hd
          subst hm
          have hfn : (n.rollbackTag E d tag false now).2.filename E tag = n.filename E tag := rfl
          simp only [Local.next, tagStep, hfn]
          cases x with
          | lookup =>
            simp only [Look.step]
            cases (n.rollbackTag E d tag false now).2.cache.get (n.filename E tag) with
            | some v => exact .inl ⟨_, rfl⟩
            | none => exact .inr (.inr ⟨⟨_, rfl⟩, rfl, rfl⟩)
          | reading =>
            simp only [Look.step]
            match d (n.filename E tag) with
            | none => exact .inl ⟨_, rfl⟩
            | some [] => exact .inl ⟨_, rfl⟩
            | some (c :: cs) => exact .inr (.inr ⟨⟨_, rfl⟩, rfl, rfl⟩)
          | decrypting c =>
            simp only [Look.step]
            cases (do let text ← E.decrypt (E.fileKey (n.rollbackTag E d tag false now).2.key (n.rollbackTag E d tag false now).2.man.salt (n.filename E tag)) now none c; decodeValue E text) with
            | error e => cases e <;> exact .inl ⟨_, rfl⟩
            | ok v => exact .inl ⟨_, rfl⟩
          | found x =>
            simp only [Look.step]
            cases x with
            | error e => cases e <;> exact .inl ⟨_, rfl⟩
            | ok v => exact .inl ⟨_, rfl⟩
      | saveTag tag drop r =>
        simp only [Keeps] at hkeep
        subst hkeep
        rcases h with ⟨rfl, rfl, rfl⟩ | ⟨⟨s, rfl⟩, rfl, hc, hd⟩
        · simp only [Local.next, tagStep, saveStep, Save.step]
          cases hc : m.cache.get (m.filename E tag) with
          | none => exact .inl ⟨_, rfl⟩
          | some v =>
            simp only
            cases encodeValue E v with
            | error e => exact .inl ⟨_, rfl⟩
            | ok text => exact .inr (.inr ⟨⟨_, rfl⟩, rfl, ⟨v, hc⟩, fun _ _ => rfl⟩)
        · simp only [Local.next, tagStep, saveStep]
          obtain ⟨v, hv⟩ := hc
          cases s with
          | begin =>
            simp only [Save.step, hv]
            cases encodeValue E v with
            | error e => exact .inl ⟨_, rfl⟩
            | ok text => exact .inr (.inr ⟨⟨_, rfl⟩, rfl, ⟨v, hv⟩, hd⟩)
          | opening data => exact .inr (.inr ⟨⟨_, rfl⟩, rfl, ⟨v, hv⟩, fun f hf => by simp [Save.step, Disk.apply, hf]; exact hd f hf⟩)
          | writing data => exact .inr (.inr ⟨⟨_, rfl⟩, rfl, ⟨v, hv⟩, fun f hf => by simp [Save.step, overwrite, hf]; exact hd f hf⟩)
          | ended x => exact .inl ⟨_, rfl⟩

/-- What is left of a cancelled call: the values are those before it or those after it, and threads are late only for files of cached tags. -/
structure Left (E : Env ρ J) (T : String → Prop) (key salt : Bytes) (v w : View J) (s : Database.Sys J) (jobs : List Job) : Prop where
  live : Live E T key salt s v.current ∨ Live E T key salt s w.current
  jobs : ∀ job ∈ jobs, (∃ x, s.node.cache.get job.name = some x) ∨ job.name = E.rootName key

theorem Under.cancel (law : E.Law good) {n : Node J} {disk : Disk} (h : Rep E T key salt ⟨n, disk⟩ v) {op : Op ρ J} (hop : op.Allowed E good T)
    {m : Node J} {d : Disk} {pc : Pc J} (hu : Under E n disk op ⟨m, d, pc⟩) :
    let x := cancelCall E m ([] : List (Part ρ J)) op pc
    Left E T key salt v (v.after op) ⟨x.1, d⟩ x.2 := by
  have same : Left E T key salt v (v.after op) ⟨n, disk⟩ [] := ⟨.inl (Live.of_rep h), fun _ hj => by cases hj⟩
  cases op with
  | clearCache => exact hu.elim
  | save rs => exact hu.elim
  | loadTags a b => exact hu.elim
  | pop tag silent now => exact hu.elim
  | set tag data cache r => obtain ⟨rfl, rfl, rfl⟩ := hu; exact same
  | delItem tag => obtain ⟨rfl, rfl, rfl⟩ := hu; exact same
  | query tag ttl silent cache now =>
    obtain ⟨hpc, rfl, rfl⟩ := hu
    rcases hpc with rfl | ⟨x, rfl⟩ <;> exact same
  | rollback tag cache now =>
    rcases hu with ⟨rfl, rfl, rfl⟩ | ⟨⟨x, rfl⟩, hm, hd⟩
    · exact same
    · simp only at hm hd
      subst hd
      subst hm
      exact ⟨.inr (Live.of_rep (h.rollback law hop false now)), fun _ hj => by cases hj⟩
  | saveTag tag drop r =>
    rcases hu with ⟨rfl, rfl, rfl⟩ | ⟨⟨s, rfl⟩, rfl, hc, hd⟩
    · exact same
    · have e : cancelCall E m ([] : List (Part ρ J)) (.saveTag tag drop r) (.saving s false) = (m, s.jobs (m.filename E tag)) := by
        cases s <;> rfl
      rw [e]
      refine ⟨.inl ((Live.of_rep h).files fun f => ?_), fun job hj => .inl ?_⟩
      · by_cases hf : f = m.filename E tag
        · exact .inr (.inl (by rw [hf]; exact hc))
        · exact .inl (hd f hf)
      · rw [Save.jobs_name hj]; exact hc

/-- The files that are changed by threads that are late. -/
theorem Left.late {w : View J} : ∀ (is : List Nat) {c : CSys ρ J}, Left E T key salt v w ⟨c.sys.node, c.sys.disk⟩ c.jobs →
    let c' := c.run E (is.map .late)
    c'.sys.node = c.sys.node ∧ Left E T key salt v w ⟨c'.sys.node, c'.sys.disk⟩ c'.jobs := by
  intro is
  induction is with
  | nil => intro c h; exact ⟨rfl, h⟩
  | cons i is ih =>
    intro c h
    show ((c.late i).run E (is.map .late)).sys.node = _ ∧ _
    have hl : (c.late i).sys.node = c.sys.node ∧ Left E T key salt v w ⟨(c.late i).sys.node, (c.late i).sys.disk⟩ (c.late i).jobs := by
      cases hj : c.jobs[i]? with
      | none =>
        have e : c.late i = c := by simp only [CSys.late, hj]
        rw [e]; exact ⟨rfl, h⟩
      | some job =>
        have hm := List.mem_of_getElem? hj
        simp only [CSys.late, hj]
        have hd : ∀ f, job.run c.sys.disk f = c.sys.disk f ∨ (∃ x, c.sys.node.cache.get f = some x) ∨ f = E.rootName key := by
          intro f
          by_cases hf : f = job.name
          · rcases h.jobs job hm with hx | hr
            · exact .inr (.inl (by rw [hf]; exact hx))
            · exact .inr (.inr (by rw [hf]; exact hr))
          · exact .inl (Job.run_other _ _ hf)
        refine ⟨trivial, ?_, fun job' hm' => h.jobs job' (List.mem_of_mem_eraseIdx hm')⟩
        rcases h.live with hl | hl
        · exact .inl (hl.files hd)
        · exact .inr (hl.files hd)
    obtain ⟨i1, i2⟩ := ih hl.2
    exact ⟨i1.trans hl.1, i2⟩

/-! ### calls on all tags -/

/-- A coroutine and its parts while it saves. -/
structure Saves (E : Env ρ J) (n : Node J) (disk : Disk) (rs : String → ρ) (k : Nat) (s : Sys ρ J) : Prop where
  node : s.node = n
  idle : ∀ j, j ≠ k → (s.threads j).todo = [] ∧ (s.threads j).call = none ∧ (s.threads j).parts = []
  files : ∀ f, s.disk f = disk f ∨ (∃ x, n.cache.get f = some x) ∨ f = E.rootName n.key
  parts : ∀ p ∈ (s.threads k).parts, ∃ f r st, p = .save f r st ∧ ∃ x, n.cache.get f = some x
  call : ((s.threads k).call = none ∧ ((s.threads k).todo = [.save rs] ∧ (s.threads k).parts = [] ∨ (s.threads k).todo = [])) ∨
    ((s.threads k).todo = [] ∧ ∃ pc, (s.threads k).call = some (.save rs, pc) ∧ ∀ x, pc ≠ .ended x)

theorem Saves.step {n : Node J} {disk : Disk} {rs : String → ρ} {k : Nat} {s : Sys ρ J} (h : Saves E n disk rs k s) (m : Move) :
    Saves E n disk rs k (s.step E m) := by
  obtain ⟨hnode, hidle, hfiles, hparts, hcall⟩ := h
  cases m with
  | main j =>
    by_cases hj : j = k
    · subst hj
      have hidle' : ∀ (t : Thread ρ J) (i : Nat), i ≠ j → (if i = j then t else s.threads i).todo = [] ∧
          (if i = j then t else s.threads i).call = none ∧ (if i = j then t else s.threads i).parts = [] := by
        intro t i hi; rw [if_neg hi]; exact hidle i hi
      rcases hcall with ⟨hc, ht⟩ | ⟨ht, pc, hc, hpc⟩
      · rcases ht with ⟨ht, hp⟩ | ht
        · simp only [Sys.step, Sys.main, hc, ht]
          exact ⟨hnode, hidle' _, hfiles, by simpa [hp] using hparts, .inr ⟨by simp, .start, by simp, fun x e => by cases e⟩⟩
        · have e : s.step E (.main j) = s := by simp [Sys.step, Sys.main, hc, ht]
          rw [e]
          exact ⟨hnode, hidle, hfiles, hparts, .inl ⟨hc, .inr ht⟩⟩
      · simp only [Sys.step, Sys.main, hc, isWide, if_true]
        have hroot : ∀ (d : Disk), (∀ f, f ≠ E.rootName n.key → d f = s.disk f) → ∀ f, d f = disk f ∨ (∃ x, n.cache.get f = some x) ∨ f = E.rootName n.key := by
          intro d hd f
          by_cases hf : f = E.rootName n.key
          · exact .inr (.inr hf)
          · rw [hd f hf]; exact hfiles f
        cases pc with
        | start => exact ⟨hnode, hidle' _, hfiles, by simpa [wideStep] using hparts, .inr ⟨by simp [wideStep, ht], _, by simp [wideStep]; rfl, fun x e => by cases e⟩⟩
        | manifestOpen data =>
          exact ⟨hnode, hidle' _, hroot _ (fun f hf => by simp [wideStep, Disk.apply, hnode, hf]), by simpa [wideStep] using hparts,
            .inr ⟨by simp [wideStep, ht], _, by simp [wideStep]; rfl, fun x e => by cases e⟩⟩
        | manifestWrite data =>
          exact ⟨hnode, hidle' _, hroot _ (fun f hf => by simp [wideStep, overwrite, hnode, hf]), by simpa [wideStep] using hparts,
            .inr ⟨by simp [wideStep, ht], _, by simp [wideStep]; rfl, fun x e => by cases e⟩⟩
        | spawning =>
          refine ⟨hnode, hidle' _, hfiles, ?_, .inr ⟨by simp [wideStep, ht], _, by simp [wideStep]; rfl, fun x e => by cases e⟩⟩
          intro p hp
          simp only [wideStep, if_true, List.mem_map] at hp
          obtain ⟨q, hq, rfl⟩ := hp
          rw [hnode] at hq
          exact ⟨q.1, rs q.1, .begin, rfl, Dict.get_of_mem hq⟩
        | gathering =>
          simp only [wideStep]
          cases hf : failure (s.threads j).parts with
          | some e => exact ⟨hnode, hidle' _, hfiles, by simpa using hparts, .inl ⟨by simp, .inr (by simp [ht])⟩⟩
          | none =>
            by_cases ha : allEnded (s.threads j).parts = true
            · simp only [ha, if_true]
              exact ⟨hnode, hidle' _, hfiles, by simpa using hparts, .inl ⟨by simp, .inr (by simp [ht])⟩⟩
            · simp only [ha]
              exact ⟨hnode, hidle' _, hfiles, by simpa using hparts, .inr ⟨by simp [ht], .gathering, by simp, fun x e => by cases e⟩⟩
        | ended x => exact absurd rfl (hpc x)
        | saving st drop => exact ⟨hnode, hidle' _, hfiles, by simpa [wideStep] using hparts, .inr ⟨by simp [wideStep, ht], .saving st drop, by simp [wideStep], fun x e => by cases e⟩⟩
        | looking l => exact ⟨hnode, hidle' _, hfiles, by simpa [wideStep] using hparts, .inr ⟨by simp [wideStep, ht], .looking l, by simp [wideStep], fun x e => by cases e⟩⟩
        | removing a b => exact ⟨hnode, hidle' _, hfiles, by simpa [wideStep] using hparts, .inr ⟨by simp [wideStep, ht], .removing a b, by simp [wideStep], fun x e => by cases e⟩⟩
    · have e : s.step E (.main j) = s := by simp [Sys.step, Sys.main, (hidle j hj).1, (hidle j hj).2.1]
      rw [e]
      exact ⟨hnode, hidle, hfiles, hparts, hcall⟩
  | part j i =>
    cases hq : (s.threads j).parts[i]? with
    | none =>
      have e : s.step E (.part j i) = s := by simp [Sys.step, Sys.part, hq]
      rw [e]
      exact ⟨hnode, hidle, hfiles, hparts, hcall⟩
    | some q =>
      have hj : j = k := by
        refine Classical.byContradiction fun hj => ?_
        rw [(hidle j hj).2.2] at hq
        simp at hq
      subst hj
      obtain ⟨f, r, st, rfl, hc⟩ := hparts q (List.mem_of_getElem? hq)
      simp only [Sys.step, Sys.part, hq]
      refine ⟨hnode, fun i hi => by simp only [if_neg hi]; exact hidle i hi, ?_, ?_, ?_⟩
      · intro g
        by_cases hg : g = f
        · exact .inr (.inl (by rw [hg]; exact hc))
        · have := save_frame (E := E) s.node s.disk f r st g hg
          simp only [this]; exact hfiles g
      · intro p hp
        simp only [if_true] at hp
        rcases List.mem_or_eq_of_mem_set hp with hp | rfl
        · exact hparts p hp
        · exact ⟨f, r, _, rfl, hc⟩
      · simp only [if_true]
        rcases hcall with ⟨hc', ht⟩ | h
        · rcases ht with ⟨_, hp⟩ | ht
          · rw [hp] at hq; simp at hq
          · exact .inl ⟨hc', .inr ht⟩
        · exact .inr h

theorem Saves.run {n : Node J} {disk : Disk} {rs : String → ρ} {k : Nat} (moves : List Move) :
    ∀ {s : Sys ρ J}, Saves E n disk rs k s → Saves E n disk rs k (s.run E moves) := by
  induction moves with
  | nil => intro s h; exact h
  | cons m ms ih => intro s h; exact ih (h.step m)

/-- How far the loading of one tag is. -/
def Reads (E : Env ρ J) (key salt : Bytes) (v : View J) (files : Disk) (t : String) : Look J → Prop
  | .reading => v.current t = v.saved t
  | .decrypting c => v.current t = v.saved t ∧ c ≠ [] ∧ files (E.fileName key salt t) = some c
  | _ => True

/-- A coroutine and its parts while it loads tags. -/
structure Loads (E : Env ρ J) (T : String → Prop) (key salt : Bytes) (v : View J) (files : Disk) (k : Nat) (op : Op ρ J) (s : Sys ρ J) : Prop where
  rep : Rep E T key salt ⟨s.node, files⟩ v
  disk : s.disk = files
  idle : ∀ j, j ≠ k → (s.threads j).todo = [] ∧ (s.threads j).call = none ∧ (s.threads j).parts = []
  parts : ∀ p ∈ (s.threads k).parts, ∃ t silent now l, p = .look t silent now l ∧ T t ∧ Reads E key salt v files t l
  call : ((s.threads k).call = none ∧ ((s.threads k).todo = [op] ∧ (s.threads k).parts = [] ∨ (s.threads k).todo = [])) ∨
    ((s.threads k).todo = [] ∧ ∃ pc, (s.threads k).call = some (op, pc) ∧ ∀ x, pc ≠ .ended x)

/-- A value that was read is the current one. -/
theorem Reads.step {n : Node J} {disk : Disk} (h : Rep E T key salt ⟨n, disk⟩ v) {t : String} (ht : T t) (silent : Bool) (now : Int) {l : Look J}
    (hl : Reads E key salt v disk t l) :
    let y := l.step E n disk (n.filename E t) none silent true now
    Rep E T key salt ⟨y.2, disk⟩ v ∧ Reads E key salt v disk t y.1 := by
  have hf : n.filename E t = E.fileName key salt t := h.filename t
  cases l with
  | lookup =>
    simp only [Look.step, hf]
    cases hc : n.cache.get (E.fileName key salt t) with
    | some x => exact ⟨h, trivial⟩
    | none => exact ⟨h, h.uncached t ht hc⟩
  | reading =>
    simp only [Look.step, hf]
    match hd : disk (E.fileName key salt t) with
    | none => exact ⟨h, trivial⟩
    | some [] => exact ⟨h, trivial⟩
    | some (c :: cs) => exact ⟨h, hl, by simp, hd⟩
  | decrypting c =>
    obtain ⟨he, hne, hd⟩ := hl
    have hs := h.stored t ht
    cases hv : v.saved t with
    | none => rw [hv] at hs; rw [show disk (E.fileName key salt t) = none from hs] at hd; cases hd
    | some x =>
      rw [hv] at hs
      obtain ⟨hst, c', text, hd', _, hdec, hback, _⟩ := hs
      rw [show disk (E.fileName key salt t) = some c' from hd'] at hd
      cases hd
      have hk : n.key = key := h.hkey
      have hsl : n.man.salt = salt := h.hsalt
      simp only [Look.step, hf, hk, hsl, hback, bind, Except.bind, hdec]
      have hfill := h.fill ht (he.trans hv) hst
      simp only [hk] at hfill
      rw [if_pos trivial]
      exact ⟨hfill, trivial⟩
  | found x => exact ⟨h, trivial⟩

theorem Loads.step {files : Disk} {k : Nat} {silent : Bool} {now : Int} {s : Sys ρ J} (h : Loads E T key salt v files k (.loadTags silent now) s) (m : Move) :
    Loads E T key salt v files k (.loadTags silent now) (s.step E m) := by
  obtain ⟨hrep, hdisk, hidle, hparts, hcall⟩ := h
  cases m with
  | main j =>
    by_cases hj : j = k
    · subst hj
      have hidle' : ∀ (t : Thread ρ J) (i : Nat), i ≠ j → (if i = j then t else s.threads i).todo = [] ∧
          (if i = j then t else s.threads i).call = none ∧ (if i = j then t else s.threads i).parts = [] := by
        intro t i hi; rw [if_neg hi]; exact hidle i hi
      rcases hcall with ⟨hc, ht⟩ | ⟨ht, pc, hc, hpc⟩
      · rcases ht with ⟨ht, hp⟩ | ht
        · simp only [Sys.step, Sys.main, hc, ht]
          exact ⟨hrep, hdisk, hidle' _, by simpa [hp] using hparts, .inr ⟨by simp, .start, by simp, fun x e => by cases e⟩⟩
        · have e : s.step E (.main j) = s := by simp [Sys.step, Sys.main, hc, ht]
          rw [e]
          exact ⟨hrep, hdisk, hidle, hparts, .inl ⟨hc, .inr ht⟩⟩
      · simp only [Sys.step, Sys.main, hc, isWide, if_true]
        have keep : ∀ pc' : Pc J, (∀ x, pc' ≠ .ended x) → ∀ rs, Loads E T key salt v files j (.loadTags silent now)
            (⟨s.node, s.disk, fun i => if i = j then ⟨(s.threads j).todo, some (.loadTags silent now, pc'), (s.threads j).parts, rs⟩ else s.threads i⟩ : Sys ρ J) :=
          fun pc' hpc' rs => ⟨hrep, hdisk, hidle' _, by simpa using hparts, .inr ⟨by simp [ht], pc', by simp, hpc'⟩⟩
        cases pc with
        | start =>
          refine ⟨hrep, hdisk, hidle' _, ?_, .inr ⟨by simp [wideStep, ht], .gathering, by simp [wideStep], fun x e => by cases e⟩⟩
          intro p hp
          simp only [wideStep, if_true, List.mem_map] at hp
          obtain ⟨t, hq, rfl⟩ := hp
          exact ⟨t, silent, now, .lookup, rfl, hrep.tags t hq, trivial⟩
        | gathering =>
          simp only [wideStep]
          cases hf : failure (s.threads j).parts with
          | some e => exact ⟨hrep, hdisk, hidle' _, by simpa using hparts, .inl ⟨by simp, .inr (by simp [ht])⟩⟩
          | none =>
            by_cases ha : allEnded (s.threads j).parts = true
            · simp only [ha, if_true]
              exact ⟨hrep, hdisk, hidle' _, by simpa using hparts, .inl ⟨by simp, .inr (by simp [ht])⟩⟩
            · simp only [ha]
              exact keep _ (fun x e => by cases e) _
        | ended x => exact absurd rfl (hpc x)
        | manifestOpen data => exact keep _ (fun x e => by cases e) _
        | manifestWrite data => exact keep _ (fun x e => by cases e) _
        | spawning => exact keep _ (fun x e => by cases e) _
        | saving st drop => exact keep _ (fun x e => by cases e) _
        | looking l => exact keep _ (fun x e => by cases e) _
        | removing a b => exact keep _ (fun x e => by cases e) _
    · have e : s.step E (.main j) = s := by simp [Sys.step, Sys.main, (hidle j hj).1, (hidle j hj).2.1]
      rw [e]
      exact ⟨hrep, hdisk, hidle, hparts, hcall⟩
  | part j i =>
    cases hq : (s.threads j).parts[i]? with
    | none =>
      have e : s.step E (.part j i) = s := by simp [Sys.step, Sys.part, hq]
      rw [e]
      exact ⟨hrep, hdisk, hidle, hparts, hcall⟩
    | some q =>
      have hj : j = k := by
        refine Classical.byContradiction fun hj => ?_
        rw [(hidle j hj).2.2] at hq
        simp at hq
      subst hj
      obtain ⟨t, sil, nw, l, rfl, hT, hr⟩ := hparts q (List.mem_of_getElem? hq)
      simp only [Sys.step, Sys.part, hq]
      subst hdisk
      obtain ⟨h1, h2⟩ := hr.step hrep hT sil nw
      refine ⟨h1, rfl, fun i hi => by simp only [if_neg hi]; exact hidle i hi, ?_, ?_⟩
      · intro p hp
        simp only [if_true] at hp
        rcases List.mem_or_eq_of_mem_set hp with hp | rfl
        · exact hparts p hp
        · exact ⟨t, sil, nw, _, rfl, hT, h2⟩
      · simp only [if_true]
        rcases hcall with ⟨hc', ht⟩ | h
        · rcases ht with ⟨_, hp⟩ | ht
          · rw [hp] at hq; simp at hq
          · exact .inl ⟨hc', .inr ht⟩
        · exact .inr h

theorem Loads.run {files : Disk} {k : Nat} {silent : Bool} {now : Int} (moves : List Move) :
    ∀ {s : Sys ρ J}, Loads E T key salt v files k (.loadTags silent now) s → Loads E T key salt v files k (.loadTags silent now) (s.run E moves) := by
  induction moves with
  | nil => intro s h; exact h
  | cons m ms ih => intro s h; exact ih (h.step m)

/-! ### every call -/

theorem CSys.run_append (c : CSys ρ J) (a b : List CMove) : c.run E (a ++ b) = (c.run E a).run E b := by
  induction a generalizing c with
  | nil => rfl
  | cons m a ih => exact ih _

theorem CSys.run_steps (moves : List Move) : ∀ c : CSys ρ J, c.run E (moves.map .step) = ⟨c.sys.run E moves, c.jobs⟩ := by
  induction moves with
  | nil => intro c; rfl
  | cons m ms ih => intro c; exact ih _

/-- A coroutine makes one call, is cancelled at any time, and nobody else is there. -/
theorem left_cancel (law : E.Law good) {n : Node J} {disk : Disk} (h : Rep E T key salt ⟨n, disk⟩ v) {op : Op ρ J} (hop : op.Allowed E good T)
    (hkeep : Keeps op) (k : Nat) (moves : List Move) :
    let c := (CSys.start n disk (fun j => if j = k then [op] else [])).run E (moves.map .step ++ [.cancel k])
    Left E T key salt v (v.after op) ⟨c.sys.node, c.sys.disk⟩ c.jobs := by
  rw [CSys.run_append, CSys.run_steps]
  have hrun : ∀ c : CSys ρ J, c.run E [.cancel k] = c.cancel E k := fun _ => rfl
  rw [hrun]
  simp only [CSys.start]
  have hk0 : (Sys.start n disk (fun j => if j = k then [op] else [])).threads k = ⟨[op], none, [], []⟩ := by simp [Sys.start]
  have idle0 : ∀ j, j ≠ k → ((Sys.start n disk (fun j => if j = k then [op] else [])).threads j).todo = [] ∧
      ((Sys.start n disk (fun j => if j = k then [op] else [])).threads j).call = none ∧
      ((Sys.start n disk (fun j => if j = k then [op] else [])).threads j).parts = [] := fun j hj => ⟨by simp [Sys.start, hj], rfl, rfl⟩
  have hstep := h.step law hop
  cases hw : op.tag? with
  | some t =>
    have hops : ∀ o ∈ [op], ∃ t, o.tag? = some t := fun o ho => ⟨t, by rw [List.mem_singleton.1 ho]; exact hw⟩
    have hal := run_alone (E := E) (k := k) moves (s := Sys.start n disk (fun j => if j = k then [op] else [])) (by rw [hk0]; exact hops)
      (by rw [hk0]; intro op pc h; cases h) (fun _ => rfl) (fun j hj => ⟨(idle0 j hj).1, (idle0 j hj).2.1⟩)
    rw [hk0] at hal
    obtain ⟨h1, h2, h3⟩ := hal
    obtain ⟨done, rest, hsplit, _, hm⟩ := Mid.iter (E := E) (s₀ := ⟨n, disk⟩) hops (moves.count (.main k))
    generalize (Sys.start n disk (fun j => if j = k then [op] else [])).run E moves = s at h1 h2 h3
    simp only [Sys.start] at h1 h2 h3
    generalize One.iter E (moves.count (.main k)) ⟨n, disk, ⟨[op], none, [], []⟩⟩ = o at h1 h2 h3 hm
    rcases hm with ⟨hc, _, hn, hd, _⟩ | ⟨op', pc, j, hc, ht, hpc, _, hit, _⟩
    · have e : (⟨s, []⟩ : CSys ρ J).cancel E k = ⟨s, []⟩ := by simp only [CSys.cancel, h3, hc]
      rw [e]
      simp only [h1, h2, hn, hd]
      refine ⟨?_, fun _ hj => by cases hj⟩
      cases done with
      | nil => exact .inl (Live.of_rep h)
      | cons a done =>
        simp only [List.cons_append, List.cons.injEq] at hsplit
        obtain ⟨rfl, hsplit⟩ := hsplit
        obtain ⟨rfl, rfl⟩ := List.append_eq_nil_iff.1 hsplit.symm
        exact .inr (Live.of_rep hstep)
    · have hd : done = [] ∧ op' = op := by
        rw [ht] at hsplit
        cases done with
        | nil => simp at hsplit; exact ⟨rfl, hsplit.1.symm⟩
        | cons a done => simp at hsplit
      obtain ⟨rfl, rfl⟩ := hd
      have hit' : Local.iter E op' j ⟨n, disk, .start⟩ = ⟨o.node, o.disk, pc⟩ := hit
      have hu := Under.iter (E := E) hw hkeep n disk j
      rw [hit'] at hu
      have hu : Under E n disk op' ⟨o.node, o.disk, pc⟩ := by
        rcases hu with ⟨x, hx⟩ | hu
        · exact absurd hx (hpc x)
        · exact hu
      have hl := hu.cancel law h hop
      have hcan : cancelCall E o.node (s.threads k).parts op' pc = cancelCall E o.node [] op' pc := by
        cases pc with
        | gathering =>
          exfalso
          cases op' <;> simp [Under] at hu
        | _ => cases op' <;> rfl
      simp only [CSys.cancel, h3, hc]
      rw [h3] at hcan
      rw [h1, hcan, h2]
      simpa using hl
  | none =>
    cases op with
    | set t x c r => cases hw
    | query t a b c d => cases hw
    | pop t a b => cases hw
    | delItem t => cases hw
    | rollback t a b => cases hw
    | saveTag t a b => cases hw
    | save rs =>
      have hs0 : Saves E n disk rs k (Sys.start n disk (fun j => if j = k then [.save rs] else [])) :=
        ⟨rfl, idle0, fun f => .inl rfl, (by rw [hk0]; intro p hp; cases hp), .inl (by rw [hk0]; exact ⟨rfl, .inl ⟨rfl, rfl⟩⟩)⟩
      obtain ⟨hnode, _, hfiles, hparts, hcall⟩ := hs0.run moves
      generalize (Sys.start n disk (fun j => if j = k then [Op.save rs] else [])).run E moves = s at hnode hfiles hparts hcall
      have hkey : n.key = key := h.hkey
      rw [hkey] at hfiles
      have live : Live E T key salt ⟨s.node, s.disk⟩ v.current := by rw [hnode]; exact (Live.of_rep h).files hfiles
      rcases hcall with ⟨hc, _⟩ | ⟨_, pc, hc, hpc⟩
      · have e : (⟨s, []⟩ : CSys ρ J).cancel E k = ⟨s, []⟩ := by simp only [CSys.cancel, hc]
        rw [e]
        exact ⟨.inl live, fun _ hj => by cases hj⟩
      · simp only [CSys.cancel, hc, List.nil_append]
        have hx : (cancelCall E s.node (s.threads k).parts (.save rs) pc).1 = s.node := by cases pc <;> rfl
        rw [hx]
        refine ⟨.inl live, fun job hj => ?_⟩
        cases pc with
        | manifestOpen data => simp only [cancelCall, List.mem_singleton] at hj; subst hj; exact .inr (by rw [← hkey, ← hnode]; rfl)
        | manifestWrite data => simp only [cancelCall, List.mem_singleton] at hj; subst hj; exact .inr (by rw [← hkey, ← hnode]; rfl)
        | gathering =>
          simp only [cancelCall, List.mem_flatMap] at hj
          obtain ⟨p, hp, hj⟩ := hj
          obtain ⟨f, r, st, rfl, hx⟩ := hparts p hp
          rw [Save.jobs_name hj]
          exact .inl (by rw [hnode]; exact hx)
        | _ => cases hj
    | loadTags silent now =>
      have hs0 : Loads E T key salt v disk k (.loadTags silent now) (Sys.start n disk (fun j => if j = k then [(.loadTags silent now : Op ρ J)] else [])) :=
        ⟨h, rfl, idle0, (by rw [hk0]; intro p hp; cases hp), .inl (by rw [hk0]; exact ⟨rfl, .inl ⟨rfl, rfl⟩⟩)⟩
      obtain ⟨hrep, hdisk, _, hparts, hcall⟩ := hs0.run moves
      generalize (Sys.start n disk (fun j => if j = k then [(Op.loadTags silent now : Op ρ J)] else [])).run E moves = s at hrep hdisk hparts hcall
      rw [← hdisk] at hrep
      rcases hcall with ⟨hc, _⟩ | ⟨_, pc, hc, hpc⟩
      · have e : (⟨s, []⟩ : CSys ρ J).cancel E k = ⟨s, []⟩ := by simp only [CSys.cancel, hc]
        rw [e]
        exact ⟨.inl (Live.of_rep hrep), fun _ hj => by cases hj⟩
      · simp only [CSys.cancel, hc, List.nil_append]
        have hx : (cancelCall E s.node (s.threads k).parts (.loadTags silent now) pc).1 = s.node := by cases pc <;> rfl
        rw [hx]
        refine ⟨.inl (Live.of_rep hrep), fun job hj => ?_⟩
        cases pc with
        | gathering =>
          simp only [cancelCall, List.mem_flatMap] at hj
          obtain ⟨p, hp, hj⟩ := hj
          obtain ⟨t, sil, nw, l, rfl, _⟩ := hparts p hp
          cases hj
        | _ => cases hj
    | clearCache =>
      have inv : ∀ (ms : List Move) (s : Sys ρ J), (∀ j, j ≠ k → (s.threads j).todo = [] ∧ (s.threads j).call = none) → (∀ j, (s.threads j).parts = []) →
          ((s.threads k).todo = [.clearCache] ∧ (s.threads k).call = none ∧ s.node = n ∧ s.disk = disk ∨
           (s.threads k).todo = [] ∧ (s.threads k).call = some (.clearCache, .start) ∧ s.node = n ∧ s.disk = disk ∨
           (s.threads k).todo = [] ∧ (s.threads k).call = none ∧ s.node = n.clearCache ∧ s.disk = disk) →
          let s' := s.run E ms
          ((s'.threads k).call = none ∨ (s'.threads k).call = some (.clearCache, .start)) ∧ (s'.node = n ∨ s'.node = n.clearCache) ∧ s'.disk = disk := by
        intro ms
        induction ms with
        | nil =>
          intro s _ _ hs
          rcases hs with ⟨_, h2, h3, h4⟩ | ⟨_, h2, h3, h4⟩ | ⟨_, h2, h3, h4⟩
          · exact ⟨.inl h2, .inl h3, h4⟩
          · exact ⟨.inr h2, .inl h3, h4⟩
          · exact ⟨.inl h2, .inr h3, h4⟩
        | cons m ms ih =>
          intro s hi hp hs
          have hr : s.run E (m :: ms) = (s.step E m).run E ms := rfl
          rw [hr]
          cases m with
          | part j i =>
            have e : s.step E (.part j i) = s := by simp [Sys.step, Sys.part, hp j]
            rw [e]; exact ih s hi hp hs
          | main j =>
            by_cases hj : j = k
            · subst hj
              rcases hs with ⟨h1, h2, h3, h4⟩ | ⟨h1, h2, h3, h4⟩ | ⟨h1, h2, h3, h4⟩
              · refine ih _ ?_ ?_ ?_
                · intro i hj; simp only [Sys.step, Sys.main, h2, h1, if_neg hj]; exact hi i hj
                · intro i; simp only [Sys.step, Sys.main, h2, h1]; split
                  · exact hp j
                  · exact hp i
                · exact .inr (.inl (by simp [Sys.step, Sys.main, h2, h1, h3, h4]))
              · refine ih _ ?_ ?_ ?_
                · intro i hj; simp only [Sys.step, Sys.main, h2, isWide, if_true, wideStep, if_neg hj]; exact hi i hj
                · intro i; simp only [Sys.step, Sys.main, h2, isWide, if_true, wideStep]; split
                  · exact hp j
                  · exact hp i
                · exact .inr (.inr (by simp [Sys.step, Sys.main, h2, isWide, wideStep, h1, h3, h4]))
              · have e : s.step E (.main j) = s := by simp [Sys.step, Sys.main, h1, h2]
                rw [e]; exact ih s hi hp (.inr (.inr ⟨h1, h2, h3, h4⟩))
            · have e : s.step E (.main j) = s := by simp [Sys.step, Sys.main, hi j hj]
              rw [e]; exact ih s hi hp hs
      have hfin := inv moves (Sys.start n disk (fun j => if j = k then [.clearCache] else [])) (fun j hj => ⟨(idle0 j hj).1, (idle0 j hj).2.1⟩) (fun _ => rfl)
        (.inl (by rw [hk0]; exact ⟨rfl, rfl, rfl, rfl⟩))
      generalize (Sys.start n disk (fun j => if j = k then [(Op.clearCache : Op ρ J)] else [])).run E moves = s at hfin
      obtain ⟨hc, hn, hd⟩ := hfin
      have live : Live E T key salt ⟨s.node, s.disk⟩ v.current ∨ Live E T key salt ⟨s.node, s.disk⟩ (v.after (.clearCache : Op ρ J)).current := by
        rw [hd]
        rcases hn with hn | hn
        · exact .inl (by rw [hn]; exact Live.of_rep h)
        · exact .inr (by rw [hn]; exact Live.of_rep hstep)
      rcases hc with hc | hc
      · have e : (⟨s, []⟩ : CSys ρ J).cancel E k = ⟨s, []⟩ := by simp only [CSys.cancel, hc]
        rw [e]; exact ⟨live, fun _ hj => by cases hj⟩
      · simp only [CSys.cancel, hc, List.nil_append]
        exact ⟨live, fun _ hj => by cases hj⟩

end Aiootp.AsyncDb
