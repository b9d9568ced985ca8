import Verif.Lemmas.DatabaseMap

/-! New databases, reopened databases and crashes during a save. -/

namespace Aiootp.Database

variable {ρ J : Type} {E : Env ρ J} {good : ρ → Prop} {T : String → Prop} {key salt : Bytes} {s : Sys J} {v : View J}

theorem openNode_new {disk : Disk} (hk : 64 ≤ key.length) (hr : disk (E.rootName key) = none) (now : Int) :
    openNode E disk key salt now = .ok (⟨key, ⟨salt, [], []⟩, []⟩ : Node J) := by
  simp [openNode, openManifest, hr, raiseIf, Nat.not_lt.2 hk, bind, Except.bind]

theorem Rep.new {disk : Disk} (hap : Apart E T key salt) (hfree : ∀ t, T t → disk (E.fileName key salt t) = none) :
    Rep E T key salt ⟨⟨key, ⟨salt, [], []⟩, []⟩, disk⟩ (View.empty : View J) where
  apart := hap
  hkey := rfl
  hsalt := rfl
  cached := by intro t _ x hx; cases hx
  uncached := by intro t _ _; rfl
  stored := by intro t ht; exact hfree t ht
  cacheNames := by intro f x hx; cases hx
  fileNames := by intro f x hx; cases hx
  listed := by intro t _ hx; simp [View.empty] at hx
  nodup := List.nodup_nil

/-- What a reopened object reads. -/
theorem Rep.reopened (h : Rep E T key salt s v) (man : Manifest) (hman : man = s.node.man) :
    Rep E T key salt ⟨⟨key, man, []⟩, s.disk⟩ ⟨v.saved, v.saved⟩ where
  apart := h.apart
  hkey := rfl
  hsalt := by rw [hman]; exact h.hsalt
  cached := by intro u hu y hy; cases hy
  uncached := by intro u hu _; rfl
  stored := h.stored
  cacheNames := by intro f y hy; cases hy
  fileNames := by rw [hman]; exact h.fileNames
  listed := by rw [hman]; exact fun t ht hx => h.listed t ht (.inr (by simpa using hx))
  nodup := by rw [hman]; exact h.nodup

theorem query_stored (law : E.Law good) {n : Node J} {disk : Disk} (hk : n.key = key) (hs : n.man.salt = salt) (hc : n.cache = [])
    {t : String} {o : Option (Value J)} (h : Stored E key salt disk (E.fileName key salt t) o) (silent cache : Bool) (now : Int) :
    (n.queryTag E disk t none silent cache now).1 = answer silent o := by
  simp only [Node.queryTag, Node.filename, hk, hs, hc, Dict.get]
  cases o with
  | none => simp only [Stored] at h; simp [h, answer]
  | some x =>
    obtain ⟨_, c, text, hd, hne, hdec, hback, _⟩ := h
    cases c with
    | nil => exact absurd rfl hne
    | cons b bs => simp [hd, hback, hdec, bind, Except.bind, answer]

theorem Rep.sound (h : Rep E T key salt s v) : s.node.man.Sound := by
  have hp : ∀ p ∈ s.node.man.files, p.1 ≠ "0" ∧ p.1 ≠ "1" := fun p hp => by
    obtain ⟨ht, he⟩ := h.fileNames p.1 p.2 ((Dict.mem_iff h.nodup).1 hp)
    rw [he]
    exact h.apart.plain p.2 ht
  exact ⟨h.nodup, fun p h => (hp p h).1, fun p h => (hp p h).2⟩

theorem Manifest.sound_nil (salt : Bytes) (metatags : List String) : Manifest.Sound ⟨salt, metatags, []⟩ :=
  ⟨List.nodup_nil, fun _ h => (by cases h), fun _ h => (by cases h)⟩

theorem openManifest_put (law : E.Law good) {disk : Disk} {man : Manifest} (hman : man.Sound) {r : ρ} (hr : good r)
    (hd : disk (E.rootName key) = some (E.encrypt (E.manifestKey key) r (E.dumpManifest man))) (salt' : Bytes) (now : Int) :
    openManifest E disk key salt' now = .ok man := by
  simp [openManifest, hd, law.back _ _ _ (law.manifestKey key) hr, law.manifest _ hman, bind, Except.bind]

/-- The names that a save writes. -/
theorem Rep.saveTags_names (h : Rep E T key salt s v) {rs : String → ρ} : ∀ (d : Dict (Value J)) (hd : ∀ p ∈ d, ∃ x, s.node.cache.get p.1 = some x),
    ∀ w ∈ (s.node.saveTags E rs d).2, ∃ t, T t ∧ w.name = E.fileName key salt t := by
  intro d
  induction d with
  | nil => intro _ w hw; cases hw
  | cons p d ih =>
    intro hd w hw
    obtain ⟨f, y⟩ := p
    obtain ⟨x, hx⟩ := hd (f, y) List.mem_cons_self
    obtain ⟨t, ht, hf⟩ := h.cacheNames f x hx
    have hx' := (h.cached t ht x (hf ▸ hx)).2
    obtain ⟨text, htext, hdec⟩ := hx'
    simp only [Node.saveTags, Node.saveFile, hx, htext, bind, Except.bind, List.mem_cons] at hw
    rcases hw with rfl | hw
    · exact ⟨t, ht, hf⟩
    · exact ih (fun q hq => hd q (List.mem_cons_of_mem _ hq)) w hw

/-- The first writes of the tags are those of the first cached tags. -/
theorem Rep.saveTags_take (h : Rep E T key salt s v) {rs : String → ρ} : ∀ (d : Dict (Value J)) (k : Nat)
    (hd : ∀ p ∈ d, ∃ x, s.node.cache.get p.1 = some x),
    (s.node.saveTags E rs d).2.take k = (s.node.saveTags E rs (d.take k)).2 := by
  intro d
  induction d with
  | nil => intro k _; simp [Node.saveTags]
  | cons p d ih =>
    intro k hd
    cases k with
    | zero => simp [Node.saveTags]
    | succ k =>
      obtain ⟨f, y⟩ := p
      obtain ⟨x, hx⟩ := hd (f, y) List.mem_cons_self
      obtain ⟨t, ht, hf⟩ := h.cacheNames f x hx
      have hx' := (h.cached t ht x (hf ▸ hx)).2
      obtain ⟨text, htext, hdec⟩ := hx'
      have := ih k (fun q hq => hd q (List.mem_cons_of_mem _ hq))
      simp only [Node.saveTags, Node.saveFile, hx, htext, bind, Except.bind, List.take_succ_cons, this]

/-- The manifest is on the disk after a save. -/
theorem Rep.save_root (h : Rep E T key salt s v) {rs : String → ρ} (d : Dict (Value J)) (hd : ∀ p ∈ d, ∃ x, s.node.cache.get p.1 = some x) :
    s.disk.applyAll (s.node.manifestWrite E (rs (E.rootName key)) :: (s.node.saveTags E rs d).2) (E.rootName key) =
      some (E.encrypt (E.manifestKey key) (rs (E.rootName key)) (E.dumpManifest s.node.man)) := by
  have hn := h.saveTags_names (rs := rs) d hd
  show Disk.applyAll (s.disk.apply _) _ _ = _
  rw [applyAll_other]
  · simp [Node.manifestWrite, Disk.apply, h.hkey]
  · intro w hw he
    obtain ⟨t, ht, hwn⟩ := hn w hw
    exact h.apart.root t ht (by rw [← hwn, ← he])

end Aiootp.Database
