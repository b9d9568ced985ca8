import Verif.Lemmas.Database
import Verif.Spec.Database

/-! What the operations on tags do to the cache, the manifest and the files. -/

namespace Aiootp.Database

variable {ρ J : Type} {E : Env ρ J}

theorem setAt_same {β : Type} (f : String → β) (t : String) (b : β) : setAt f t b t = b := by simp [setAt]
theorem setAt_other {β : Type} (f : String → β) {t u : String} (b : β) (h : u ≠ t) : setAt f t b u = f u := by simp [setAt, h]

/-- The file `name` holds the value, or there is no file. -/
def Stored (E : Env ρ J) (key salt : Bytes) (disk : Disk) (name : String) : Option (Value J) → Prop
  | none => disk name = none
  | some v => Storable E v ∧ ∃ c text, disk name = some c ∧ c ≠ [] ∧ decodeValue E text = .ok v ∧
      (∀ now, E.decrypt (E.fileKey key salt name) now none c = .ok text) ∧
      ∀ now ttl x, E.decrypt (E.fileKey key salt name) now ttl c = .ok x → x = text

/-- The object and the directory have the values of the view. -/
structure Rep (E : Env ρ J) (T : String → Prop) (key salt : Bytes) (s : Sys J) (v : View J) : Prop where
  apart : Apart E T key salt
  hkey : s.node.key = key
  hsalt : s.node.man.salt = salt
  cached : ∀ t, T t → ∀ x, s.node.cache.get (E.fileName key salt t) = some x → v.current t = some x ∧ Storable E x
  uncached : ∀ t, T t → s.node.cache.get (E.fileName key salt t) = none → v.current t = v.saved t
  stored : ∀ t, T t → Stored E key salt s.disk (E.fileName key salt t) (v.saved t)
  cacheNames : ∀ f x, s.node.cache.get f = some x → ∃ t, T t ∧ f = E.fileName key salt t
  fileNames : ∀ f t, s.node.man.files.get f = some t → T t ∧ f = E.fileName key salt t
  listed : ∀ t, T t → (v.current t).isSome = true ∨ (v.saved t).isSome = true → s.node.man.files.get (E.fileName key salt t) = some t
  nodup : s.node.man.files.names.Nodup

section
variable {good : ρ → Prop} {T : String → Prop} {key salt : Bytes} {s : Sys J} {v : View J}

theorem Stored.congr {disk disk' : Disk} {name : String} {o : Option (Value J)} (h : Stored E key salt disk name o) (hd : disk' name = disk name) :
    Stored E key salt disk' name o := by
  cases o with
  | none => simp only [Stored] at h ⊢; rw [hd, h]
  | some v =>
    obtain ⟨hs, c, text, h1, h2⟩ := h
    exact ⟨hs, c, text, by rw [hd, h1], h2⟩

theorem Rep.filename (h : Rep E T key salt s v) (t : String) : s.node.filename E t = E.fileName key salt t := by
  simp [Node.filename, h.hkey, h.hsalt]

/-- A file that was just written. -/
theorem stored_put (law : E.Law good) {x : Value J} {text : Bytes} {r : ρ} (hr : good r) (ht : encodeValue E x = .ok text) (hx : Storable E x)
    (disk : Disk) (name : String) :
    Stored E key salt (disk.apply (.put name (E.encrypt (E.fileKey key salt name) r text))) name (some x) := by
  have hk := law.fileKey key salt name
  refine ⟨hx, E.encrypt (E.fileKey key salt name) r text, text, by simp [Disk.apply], law.nonempty _ _ _ hk hr, ?_, law.back _ _ _ hk hr, law.same _ _ _ hk hr⟩
  obtain ⟨text', h1, h2⟩ := hx
  rw [ht] at h1
  cases h1
  exact h2

/-- What a query gives. -/
theorem query_result (law : E.Law good) (h : Rep E T key salt s v) {t : String} (ht : T t) (ttl : Option Int) (silent cache : Bool) (now : Int) :
    let r := s.node.queryTag E s.disk t ttl silent cache now
    (∀ x, r.1 = .ok (some x) → v.current t = some x) ∧
    (r.1 = .ok none → v.current t = none ∧ silent = true) ∧
    (ttl = none → r.1 = match v.current t with | some x => .ok (some x) | none => if silent then .ok none else .error .key) ∧
    (r.2 = s.node ∨ ∃ x, r.2 = { s.node with cache := s.node.cache.set (E.fileName key salt t) x } ∧ v.current t = some x ∧ Storable E x) := by
  simp only [Node.queryTag, h.filename]
  cases hc : s.node.cache.get (E.fileName key salt t) with
  | some x =>
    have := (h.cached t ht x hc).1
    refine ⟨?_, ?_, ?_, .inl rfl⟩
    · intro y hy; simp at hy; rw [this, hy]
    · intro hy; simp at hy
    · intro _; simp [this]
  | none =>
    have hu := h.uncached t ht hc
    have hs := h.stored t ht
    cases hv : v.saved t with
    | none =>
      rw [hv] at hs hu
      simp only [Stored] at hs
      simp only [hs, hu]
      refine ⟨?_, ?_, fun _ => by simp, .inl (by simp)⟩
      · intro y hy; cases silent <;> simp at hy
      · intro hy; cases silent <;> simp at hy ⊢
    | some x =>
      rw [hv] at hs hu
      obtain ⟨hst, c, text, hd, hne, hdec, hback, hsame⟩ := hs
      simp only [hd, h.hkey, h.hsalt, hu]
      cases c with
      | nil => exact absurd rfl hne
      | cons b bs =>
        cases hx : E.decrypt (E.fileKey key salt (E.fileName key salt t)) now ttl (b :: bs) with
        | error e =>
          refine ⟨?_, ?_, ?_, .inl (by simp [hx, bind, Except.bind])⟩
          · intro y hy; simp [hx, bind, Except.bind] at hy
          · intro hy; simp [hx, bind, Except.bind] at hy
          · intro htt; subst htt; rw [hback] at hx; cases hx
        | ok txt =>
          have := hsame _ _ _ hx
          subst this
          simp only [hx, hdec, bind, Except.bind]
          refine ⟨?_, ?_, ?_, ?_⟩
          · intro y hy; simp at hy; rw [hy]
          · intro hy; simp at hy
          · intro _; simp
          · cases cache with
            | false => exact .inl rfl
            | true => exact .inr ⟨x, rfl, rfl, hst⟩

/-- The cache is filled with the current value. -/
theorem Rep.fill (h : Rep E T key salt s v) {t : String} (ht : T t) {x : Value J} (hx : v.current t = some x) (hst : Storable E x) :
    Rep E T key salt ⟨{ s.node with cache := s.node.cache.set (E.fileName key salt t) x }, s.disk⟩ v where
  apart := h.apart
  hkey := h.hkey
  hsalt := h.hsalt
  stored := h.stored
  fileNames := h.fileNames
  listed := h.listed
  nodup := h.nodup
  cached := by
    intro u hu y hy
    simp only [Dict.get_set] at hy
    split at hy
    · rename_i he
      cases hy
      exact ⟨by rw [h.apart.inj u t hu ht he]; exact hx, hst⟩
    · exact h.cached u hu y hy
  uncached := by
    intro u hu hy
    simp only [Dict.get_set] at hy
    split at hy
    · cases hy
    · exact h.uncached u hu hy
  cacheNames := by
    intro f y hy
    simp only [Dict.get_set] at hy
    split at hy
    · rename_i he; exact ⟨t, ht, he⟩
    · exact h.cacheNames f y hy

theorem Rep.congr {w : View J} (h : Rep E T key salt s v) (hc : ∀ t, T t → w.current t = v.current t) (hs : ∀ t, T t → w.saved t = v.saved t) :
    Rep E T key salt s w where
  apart := h.apart
  hkey := h.hkey
  hsalt := h.hsalt
  cached := by intro t ht x hx; rw [hc t ht]; exact h.cached t ht x hx
  uncached := by intro t ht hx; rw [hc t ht, hs t ht]; exact h.uncached t ht hx
  stored := by intro t ht; rw [hs t ht]; exact h.stored t ht
  cacheNames := h.cacheNames
  fileNames := h.fileNames
  listed := by intro t ht; rw [hc t ht, hs t ht]; exact h.listed t ht
  nodup := h.nodup

/-- `set_tag`, the part that does not save. -/
theorem Rep.put (h : Rep E T key salt s v) {t : String} (ht : T t) {x : Value J} (hst : Storable E x) :
    Rep E T key salt ⟨{ s.node with cache := s.node.cache.set (E.fileName key salt t) x,
                                    man := { s.node.man with files := s.node.man.files.set (E.fileName key salt t) t } }, s.disk⟩
      { v with current := setAt v.current t (some x) } where
  apart := h.apart
  hkey := h.hkey
  hsalt := h.hsalt
  stored := h.stored
  nodup := Dict.nodup_set h.nodup _ _
  cached := by
    intro u hu y hy
    simp only [Dict.get_set] at hy
    split at hy
    · rename_i he
      cases hy
      have := h.apart.inj u t hu ht he
      subst this
      exact ⟨setAt_same _ _ _, hst⟩
    · rename_i he
      have hut : u ≠ t := by rintro rfl; exact he rfl
      simp only [setAt_other _ _ hut]
      exact h.cached u hu y hy
  uncached := by
    intro u hu hy
    simp only [Dict.get_set] at hy
    split at hy
    · cases hy
    · rename_i he
      have hut : u ≠ t := by rintro rfl; exact he rfl
      simp only [setAt_other _ _ hut]
      exact h.uncached u hu hy
  cacheNames := by
    intro f y hy
    simp only [Dict.get_set] at hy
    split at hy
    · rename_i he; exact ⟨t, ht, he⟩
    · exact h.cacheNames f y hy
  fileNames := by
    intro f u hf
    simp only [Dict.get_set] at hf
    split at hf
    · rename_i he; cases hf; exact ⟨ht, he⟩
    · exact h.fileNames f u hf
  listed := by
    intro u hu hy
    simp only [Dict.get_set]
    by_cases hut : u = t
    · subst hut; simp
    · simp only [setAt_other _ _ hut] at hy
      have : E.fileName key salt u ≠ E.fileName key salt t := fun he => hut (h.apart.inj u t hu ht he)
      simp only [this, if_false]
      exact h.listed u hu hy

/-- The file of a tag is written. -/
theorem Rep.wrote (law : E.Law good) (h : Rep E T key salt s v) {t : String} (ht : T t) {x : Value J} {text : Bytes} {r : ρ} (hr : good r)
    (hx : v.current t = some x) (hst : Storable E x) (htext : encodeValue E x = .ok text) :
    Rep E T key salt ⟨s.node, s.disk.apply (.put (E.fileName key salt t) (E.encrypt (E.fileKey key salt (E.fileName key salt t)) r text))⟩
      { v with saved := setAt v.saved t (some x) } where
  apart := h.apart
  hkey := h.hkey
  hsalt := h.hsalt
  nodup := h.nodup
  cached := h.cached
  uncached := by
    intro u hu hy
    by_cases hut : u = t
    · subst hut; simp only [setAt_same]; exact hx
    · simp only [setAt_other _ _ hut]; exact h.uncached u hu hy
  cacheNames := h.cacheNames
  fileNames := h.fileNames
  listed := by
    intro u hu hy
    by_cases hut : u = t
    · subst hut; exact h.listed u hu (.inl (by rw [hx]; rfl))
    · simp only [setAt_other _ _ hut] at hy; exact h.listed u hu hy
  stored := by
    intro u hu
    by_cases hut : u = t
    · subst hut; simp only [setAt_same]; exact stored_put law hr htext hst _ _
    · simp only [setAt_other _ _ hut]
      exact (h.stored u hu).congr (apply_other _ _ (by
        simp only [Write.name]; exact fun he => hut (h.apart.inj u t hu ht he)))

/-- Dropping the saved value of a tag from the cache. -/
theorem Rep.drop (h : Rep E T key salt s v) {t : String} (ht : T t) (hx : v.current t = v.saved t) :
    Rep E T key salt ⟨{ s.node with cache := s.node.cache.del (E.fileName key salt t) }, s.disk⟩ v where
  apart := h.apart
  hkey := h.hkey
  hsalt := h.hsalt
  nodup := h.nodup
  stored := h.stored
  fileNames := h.fileNames
  listed := h.listed
  cached := by
    intro u hu y hy
    simp only [Dict.get_del] at hy
    split at hy
    · cases hy
    · exact h.cached u hu y hy
  uncached := by
    intro u hu hy
    by_cases hut : u = t
    · subst hut; exact hx
    · simp only [Dict.get_del] at hy
      split at hy
      · rename_i he; exact absurd (h.apart.inj u t hu ht he) hut
      · exact h.uncached u hu hy
  cacheNames := by
    intro f y hy
    simp only [Dict.get_del] at hy
    split at hy
    · cases hy
    · exact h.cacheNames f y hy

theorem Rep.saveTag (law : E.Law good) (h : Rep E T key salt s v) {t : String} (ht : T t) (drop : Bool) {r : ρ} (hr : good r) :
    let x := s.node.saveTag E t drop r
    Rep E T key salt ⟨x.2.1, s.disk.applyAll x.2.2⟩ { v with saved := setAt v.saved t (v.current t) } ∧
    x.1 = (if (s.node.cache.get (E.fileName key salt t)).isSome then .ok () else .error .key) := by
  have hk := h.hkey
  have hs := h.hsalt
  subst hk
  subst hs
  simp only [Node.saveTag, Node.saveFile, h.filename]
  cases hc : s.node.cache.get (E.fileName s.node.key s.node.man.salt t) with
  | none =>
    have hu := h.uncached t ht hc
    have hv : Rep E T s.node.key s.node.man.salt s { v with saved := setAt v.saved t (v.current t) } := by
      refine h.congr (fun _ _ => rfl) (fun u _ => ?_)
      by_cases hut : u = t
      · subst hut; simp only [setAt_same]; exact hu
      · simp only [setAt_other _ _ hut]
    refine ⟨?_, by simp⟩
    cases drop with
    | false => exact hv
    | true => exact hv.drop ht (by simp [setAt_same])
  | some x =>
    obtain ⟨hcur, hst⟩ := h.cached t ht x hc
    obtain ⟨text, htext, hdec⟩ := hst
    have hw := h.wrote law ht hr hcur ⟨text, htext, hdec⟩ htext
    rw [← hcur] at hw
    simp only [htext, bind, Except.bind]
    refine ⟨?_, by simp⟩
    cases drop with
    | false => exact hw
    | true => exact hw.drop ht (by simp [setAt_same])

theorem Rep.query (law : E.Law good) (h : Rep E T key salt s v) {t : String} (ht : T t) (ttl : Option Int) (silent cache : Bool) (now : Int) :
    Rep E T key salt ⟨(s.node.queryTag E s.disk t ttl silent cache now).2, s.disk⟩ v := by
  obtain ⟨_, _, _, hn⟩ := query_result law h ht ttl silent cache now
  rcases hn with hn | ⟨x, hn, hx, hst⟩
  · rw [hn]; exact h
  · rw [hn]; exact h.fill ht hx hst

theorem Rep.forget (h : Rep E T key salt s v) {t : String} (ht : T t) :
    Rep E T key salt ⟨s.node.forget E t, s.disk.applyAll [.unlink (E.fileName key salt t)]⟩ ⟨setAt v.current t none, setAt v.saved t none⟩ := by
  have hne : ∀ u, T u → u ≠ t → E.fileName key salt u ≠ E.fileName key salt t := fun u hu hut he => hut (h.apart.inj u t hu ht he)
  refine ⟨h.apart, h.hkey, h.hsalt, ?_, ?_, ?_, ?_, ?_, ?_, ?_⟩ <;> simp only [Node.forget, h.filename]
  · intro u hu x hx
    by_cases hut : u = t
    · subst hut; simp [Dict.get_del] at hx
    · simp only [Dict.get_del, hne u hu hut, if_false] at hx
      rw [setAt_other _ _ hut]; exact h.cached u hu x hx
  · intro u hu hx
    by_cases hut : u = t
    · subst hut; simp [setAt_same]
    · simp only [Dict.get_del, hne u hu hut, if_false] at hx
      rw [setAt_other _ _ hut, setAt_other _ _ hut]; exact h.uncached u hu hx
  · intro u hu
    by_cases hut : u = t
    · subst hut; simp [setAt_same, Stored, Disk.applyAll, Disk.apply]
    · rw [setAt_other _ _ hut]
      exact (h.stored u hu).congr (by simp [Disk.applyAll, Disk.apply, hne u hu hut])
  · intro f x hf
    simp only [Dict.get_del] at hf
    split at hf
    · cases hf
    · exact h.cacheNames f x hf
  · intro f x hf
    simp only [Dict.get_del] at hf
    split at hf
    · cases hf
    · exact h.fileNames f x hf
  · intro u hu hx
    by_cases hut : u = t
    · subst hut; simp [setAt_same] at hx
    · rw [setAt_other _ _ hut, setAt_other _ _ hut] at hx
      simp only [Dict.get_del, hne u hu hut, if_false]
      exact h.listed u hu hx
  · exact Dict.nodup_del h.nodup _

/-- `rollback_tag`, the part that does not query. -/
theorem Rep.rolled (h : Rep E T key salt s v) {t : String} (ht : T t) :
    Rep E T key salt ⟨{ s.node with cache := s.node.cache.del (E.fileName key salt t),
                                    man := { s.node.man with files := (if (s.disk (E.fileName key salt t)).isNone then s.node.man.files.del (E.fileName key salt t) else s.node.man.files) } }, s.disk⟩
      { v with current := setAt v.current t (v.saved t) } := by
  have hne : ∀ u, T u → u ≠ t → E.fileName key salt u ≠ E.fileName key salt t := fun u hu hut he => hut (h.apart.inj u t hu ht he)
  refine ⟨h.apart, h.hkey, h.hsalt, ?_, ?_, h.stored, ?_, ?_, ?_, ?_⟩ <;> simp only
  · intro u hu x hx
    by_cases hut : u = t
    · subst hut; simp [Dict.get_del] at hx
    · simp only [Dict.get_del, hne u hu hut, if_false] at hx
      rw [setAt_other _ _ hut]; exact h.cached u hu x hx
  · intro u hu hx
    by_cases hut : u = t
    · subst hut; simp [setAt_same]
    · simp only [Dict.get_del, hne u hu hut, if_false] at hx
      rw [setAt_other _ _ hut]; exact h.uncached u hu hx
  · intro f x hf
    simp only [Dict.get_del] at hf
    split at hf
    · cases hf
    · exact h.cacheNames f x hf
  · intro f x hf
    split at hf
    · simp only [Dict.get_del] at hf
      split at hf
      · cases hf
      · exact h.fileNames f x hf
    · exact h.fileNames f x hf
  · intro u hu hx
    by_cases hut : u = t
    · subst hut
      simp only [setAt_same, or_self] at hx
      have hs := h.stored u hu
      cases hv : v.saved u with
      | none => rw [hv] at hx; cases hx
      | some y =>
        rw [hv] at hs
        obtain ⟨_, c, text, hd, _⟩ := hs
        simp only [hd, Option.isNone_some, Bool.false_eq_true, if_false]
        exact h.listed u hu (.inr hx)
    · rw [setAt_other _ _ hut] at hx
      have := h.listed u hu hx
      split
      · simp only [Dict.get_del, hne u hu hut, if_false]; exact this
      · exact this
  · split
    · exact Dict.nodup_del h.nodup _
    · exact h.nodup

theorem Rep.rollback (law : E.Law good) (h : Rep E T key salt s v) {t : String} (ht : T t) (cache : Bool) (now : Int) :
    Rep E T key salt ⟨(s.node.rollbackTag E s.disk t cache now).2, s.disk⟩ { v with current := setAt v.current t (v.saved t) } := by
  have hr := h.rolled ht
  simp only [Node.rollbackTag, h.filename]
  cases cache with
  | false => exact hr
  | true =>
    have hq := hr.query law ht none false true now
    simp only [if_true]
    generalize hx : Node.queryTag E _ s.disk t none false true now = x at hq
    obtain ⟨r, n⟩ := x
    cases r with
    | ok _ => exact hq
    | error e => cases e <;> exact hq

theorem Rep.cleared (h : Rep E T key salt s v) : Rep E T key salt ⟨s.node.clearCache, s.disk⟩ { v with current := v.saved } where
  apart := h.apart
  hkey := h.hkey
  hsalt := h.hsalt
  nodup := h.nodup
  stored := h.stored
  fileNames := h.fileNames
  listed := fun t ht hx => h.listed t ht (by simpa using Or.inr hx)
  cached := by intro u hu y hy; cases hy
  uncached := by intro u hu _; rfl
  cacheNames := by intro f y hy; cases hy

/-- The manifest is written. -/
theorem Rep.manifested (h : Rep E T key salt s v) (data : Bytes) :
    Rep E T key salt ⟨s.node, s.disk.apply (.put (E.rootName key) data)⟩ v where
  apart := h.apart
  hkey := h.hkey
  hsalt := h.hsalt
  nodup := h.nodup
  cached := h.cached
  uncached := h.uncached
  cacheNames := h.cacheNames
  fileNames := h.fileNames
  listed := h.listed
  stored := fun u hu => (h.stored u hu).congr (apply_other s.disk (.put (E.rootName key) data) (h.apart.root u hu))

/-- Files of the cache are written. -/
theorem Rep.saveTags (law : E.Law good) {rs : String → ρ} (hrs : ∀ name, good (rs name)) : ∀ (d : Dict (Value J)) (s : Sys J) (v : View J),
    Rep E T key salt s v → (∀ p ∈ d, ∃ x, s.node.cache.get p.1 = some x) →
    ∃ w : View J, (s.node.saveTags E rs d).1 = .ok () ∧ Rep E T key salt ⟨s.node, s.disk.applyAll (s.node.saveTags E rs d).2⟩ w ∧ w.current = v.current ∧
      (∀ t, T t → w.saved t = v.saved t ∨ w.saved t = v.current t) ∧
      (∀ t, T t → E.fileName key salt t ∈ d.names → w.saved t = v.current t) := by
  intro d
  induction d with
  | nil => intro s v h _; exact ⟨v, rfl, h, rfl, fun _ _ => .inl rfl, fun _ _ hm => by cases hm⟩
  | cons p d ih =>
    intro s v h hd
    obtain ⟨f, y⟩ := p
    obtain ⟨x, hx⟩ := hd (f, y) List.mem_cons_self
    obtain ⟨t, ht, hf⟩ := h.cacheNames f x hx
    subst hf
    obtain ⟨hcur, hst⟩ := h.cached t ht x hx
    obtain ⟨text, htext, hdec⟩ := hst
    have hw := h.wrote law ht (hrs (E.fileName key salt t)) hcur ⟨text, htext, hdec⟩ htext
    obtain ⟨w, h1, h2, h3, h4, h5⟩ := ih _ _ hw (fun q hq => hd q (List.mem_cons_of_mem _ hq))
    simp only [Node.saveTags, Node.saveFile, hx, htext, bind, Except.bind, h.hkey, h.hsalt]
    refine ⟨w, h1, h2, h3, fun u hu => ?_, fun u hu hm => ?_⟩
    · rcases h4 u hu with h4 | h4
      · by_cases hut : u = t
        · subst hut; simp only [setAt_same] at h4; exact .inr (by rw [h4, hcur])
        · simp only [setAt_other _ _ hut] at h4; exact .inl h4
      · exact .inr h4
    · rcases h4 u hu with h4 | h4
      · by_cases hut : u = t
        · subst hut; simp only [setAt_same] at h4; rw [h4, hcur]
        · simp only [Dict.names, List.map_cons, List.mem_cons] at hm
          rcases hm with hm | hm
          · exact absurd (h.apart.inj u t hu ht hm) hut
          · exact h5 u hu hm
      · exact h4

theorem Rep.save (law : E.Law good) (h : Rep E T key salt s v) {rs : String → ρ} (hrs : ∀ name, good (rs name)) :
    (s.node.save E rs).1 = .ok () ∧ Rep E T key salt ⟨s.node, s.disk.applyAll (s.node.save E rs).2⟩ { v with saved := v.current } := by
  have hm := h.manifested (E.encrypt (E.manifestKey key) (rs (E.rootName key)) (E.dumpManifest s.node.man))
  obtain ⟨w, h1, h2, h3, h4, h5⟩ := Rep.saveTags law hrs s.node.cache _ _ hm (fun p hp => Dict.get_of_mem (v := p.2) hp)
  simp only [Node.save, Node.manifestWrite, h.hkey]
  refine ⟨h1, h2.congr (fun t ht => by rw [h3]) (fun t ht => ?_)⟩
  cases hc : s.node.cache.get (E.fileName key salt t) with
  | some x => exact (h5 t ht (Dict.mem_names.2 ⟨x, hc⟩)).symm
  | none =>
    have := h.uncached t ht hc
    rcases h4 t ht with h4 | h4
    · rw [h4]; exact this
    · exact h4.symm

theorem Rep.loadTags (law : E.Law good) (silent : Bool) (now : Int) : ∀ (tags : List String) (s : Sys J),
    Rep E T key salt s v → (∀ t ∈ tags, T t) → Rep E T key salt ⟨(s.node.loadTags E s.disk silent now tags).2, s.disk⟩ v := by
  intro tags
  induction tags with
  | nil => intro s h _; exact h
  | cons t tags ih =>
    intro s h ht
    have hq := h.query law (ht t List.mem_cons_self) none silent true now
    simp only [Node.loadTags]
    generalize hx : s.node.queryTag E s.disk t none silent true now = x at hq
    obtain ⟨r, n⟩ := x
    cases r with
    | ok _ => exact ih _ hq (fun u hu => ht u (List.mem_cons_of_mem _ hu))
    | error e => exact hq

theorem Rep.tags (h : Rep E T key salt s v) : ∀ t ∈ s.node.tags, T t := by
  intro t ht
  simp only [Node.tags, List.mem_map] at ht
  obtain ⟨⟨f, u⟩, hm, rfl⟩ := ht
  exact (h.fileNames f u ((Dict.mem_iff h.nodup).1 hm)).1

/-- The view describes the object and the directory after every call. -/
theorem Rep.step (law : E.Law good) (h : Rep E T key salt s v) {op : Op ρ J} (hop : op.Allowed E good T) :
    Rep E T key salt (s.step E op) (v.after op) := by
  cases op with
  | set t x cache r =>
    obtain ⟨ht, hx, hr⟩ := hop
    have hp := h.put ht hx
    simp only [Sys.step, Op.run, Node.setTag, h.filename]
    cases cache with
    | true => exact hp
    | false =>
      have := (hp.saveTag law ht true hr).1
      simp only [setAt_same] at this
      exact this
  | query t ttl silent cache now => exact h.query law hop ttl silent cache now
  | pop t silent now =>
    have hq := (query_result law h hop none true false now).2.2.1 rfl
    have hf := h.forget hop
    simp only [Sys.step, Op.run, Node.popTag, hq]
    cases v.current t <;> simp only [if_true, h.filename] <;> exact hf
  | delItem t =>
    have hf := h.forget hop
    simp only [Sys.step, Op.run, h.filename]
    exact hf
  | rollback t cache now => exact h.rollback law hop cache now
  | clearCache => exact h.cleared
  | saveTag t drop r => exact (h.saveTag law hop.1 drop hop.2).1
  | save rs => exact (h.save law hop).2
  | loadTags silent now => exact Rep.loadTags law silent now _ s h h.tags

theorem Rep.run (law : E.Law good) {ops : List (Op ρ J)} : ∀ {s : Sys J} {v : View J}, Rep E T key salt s v → (∀ op ∈ ops, op.Allowed E good T) →
    Rep E T key salt (s.run E ops) (ops.foldl View.after v) := by
  induction ops with
  | nil => intro s v h _; exact h
  | cons op ops ih =>
    intro s v h hops
    exact ih (h.step law (hops op List.mem_cons_self)) (fun o ho => hops o (List.mem_cons_of_mem _ ho))

end

end Aiootp.Database
