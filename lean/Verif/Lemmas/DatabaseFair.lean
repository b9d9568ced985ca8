import Verif.Lemmas.DatabaseGhost

/-
The requests of a database: none is made twice with the same salt and iv.
-/

namespace Aiootp.Database

open Cipher (Draws Sizes)
open Secrecy (Prog Request Scheme)

variable {J : Type}

theorem progBind_bind {α β γ : Type} (g : α → Prog β) (h : β → Prog γ) : ∀ p : Prog α, (p.bind g).bind h = p.bind fun x => (g x).bind h
  | .ret _ => rfl
  | .ask r next => by
    simp only [Prog.bind]
    congr
    funext m
    exact progBind_bind g h (next m)

/-! ### the calls -/

/-- The tags are among these. -/
def Op.Uses {ρ : Type} (tags : Finset String) : Op ρ J → Prop
  | .set t _ _ _ => t ∈ tags
  | .query t _ _ _ _ => t ∈ tags
  | .pop t _ _ => t ∈ tags
  | .delItem t => t ∈ tags
  | .rollback t _ _ => t ∈ tags
  | .saveTag t _ _ => t ∈ tags
  | .save _ => False
  | _ => True

def Call.Uses {ρ : Type} (tags : Finset String) : Call ρ J → Prop
  | .tags op => op.Uses tags
  | .save _ => True

theorem Call.Alike.uses {ρ : Type} {E : Env ρ J} {tags : Finset String} {σ : String → String} {a b : Call ρ J} (h : a.Alike E tags σ b) :
    a.Uses tags ∧ b.Uses (tags.image σ) := by
  cases a with
  | save ds => cases b with
    | save ds' => exact ⟨trivial, trivial⟩
    | tags op => exact h.elim
  | tags op =>
    cases b with
    | save ds' => exact h.elim
    | tags op' =>
      cases op <;> cases op' <;> try exact h.elim
      all_goals first
        | exact ⟨trivial, trivial⟩
        | exact ⟨h.2.1, by rw [show _ = σ _ from h.1]; exact Finset.mem_image_of_mem _ h.2.1⟩
        | exact ⟨h.2, by rw [show _ = σ _ from h.1]; exact Finset.mem_image_of_mem _ h.2⟩

/-- The same randomness. -/
theorem Call.Alike.draws {ρ : Type} {E : Env ρ J} {tags : Finset String} {σ : String → String} {a b : Call ρ J} (h : a.Alike E tags σ b) (k : Nat) (d : ρ) : a.draws k d ↔ b.draws k d := by
  cases a with
  | save ds => cases b with
    | save ds' => cases (show ds' = ds from h); exact Iff.rfl
    | tags op => exact h.elim
  | tags op =>
    cases b with
    | save ds' => exact h.elim
    | tags op' =>
      cases op <;> cases op' <;> try exact h.elim
      all_goals first
        | exact Iff.rfl
        | (have e : _ = _ := h.2.2.2.2; subst e; exact Iff.rfl)
        | (have e : _ = _ := h.2.2.2; subst e; exact Iff.rfl)

variable (cd : Code)

theorem op_hidden {R : Env Draws J} {tags : Finset String} {key salt : Bytes} {c : Sizes} {n n' : Node J} (h : (hidden cd R tags key salt c).NodeRel n n') {a : Call Draws J}
    (hu : a.Uses tags) (hd : ∀ i d, a.draws i d → d.Fit c) : (hidden cd R tags key salt c).OpRel (a.op R n) (a.op (ghost cd R) n') := by
  cases a with
  | save ds =>
    refine ⟨?_, fun name => hd _ _ ⟨_, le_refl _, rfl⟩⟩
    have e1 := h.key.trans h.key'.symm
    have e2 := Recs.names h.cache
    simp only [ghost]
    rw [e2, e1]
  | tags op =>
    cases op <;> try exact hu.elim
    · exact ⟨rfl, hu, rfl, rfl, rfl, hd 0 _ rfl⟩
    · exact ⟨rfl, hu, rfl, rfl, rfl, rfl⟩
    · exact ⟨rfl, hu, rfl, rfl⟩
    · exact ⟨rfl, hu⟩
    · exact ⟨rfl, hu, rfl, rfl⟩
    · exact trivial
    · exact ⟨rfl, hu, rfl, rfl, hd 0 _ rfl⟩
    · exact ⟨rfl, rfl⟩

theorem op_similar {R R' : Env Draws J} {tags : Finset String} {σ : String → String} {key salt : Bytes} {c : Sizes} (hr : R'.rootName key = R.rootName key) {n n' : Node J}
    (h : (similar cd R R' tags σ key salt c).NodeRel n n') {a b : Call Draws J} (ha : a.Alike R tags σ b) (hd : ∀ i d, a.draws i d → d.Fit c) :
    (similar cd R R' tags σ key salt c).OpRel (a.op (ghost cd R) n) (b.op (ghost cd R') n') := by
  cases a with
  | save ds =>
    cases b with
    | tags op => exact ha.elim
    | save ds' =>
      cases (show ds' = ds from ha)
      refine ⟨?_, fun name => hd _ _ ⟨_, le_refl _, rfl⟩⟩
      have e1 := h.key
      have e1' := h.key'
      have e2 := Recs.names h.cache
      simp only [ghost]
      have e1 : n.key = key := e1
      have e1' : n'.key = key := e1'
      rw [e2, e1, e1', hr]
  | tags op =>
    cases b with
    | save ds' => exact ha.elim
    | tags op' =>
      cases op <;> cases op' <;> try exact ha.elim
      · exact ⟨ha.1, ha.2.1, ha.2.2.1, ha.2.2.2.1, ha.2.2.2.2, hd 0 _ rfl⟩
      · exact ha
      · exact ha
      · exact ha
      · exact ha
      · exact trivial
      · exact ⟨ha.1, ha.2.1, ha.2.2.1, ha.2.2.2, hd 0 _ rfl⟩
      · exact ha

/-! ### the requests -/

def reqs (ws : List Write) : List Request := ws.filterMap fun w =>
  match w with
  | .put _ x => (cd.decode x).map fun y => ⟨y.1, y.2.1, none, [], y.2.2⟩
  | .unlink _ => none

theorem reqs_put (name : String) (k : Bytes) (d : Draws) (t : Bytes) (ws : List Write) : reqs cd (.put name (cd.code (k, d, t)) :: ws) = ⟨k, d, none, [], t⟩ :: reqs cd ws := by
  have := cd.back (k, d, t)
  simp [reqs, this]

/-- Not the same salt and iv. -/
def Differ (r r' : Request) : Prop := ¬ (r.draws.salt = r'.draws.salt ∧ r.draws.iv = r'.draws.iv)

theorem Differ.symm {r r' : Request} (h : Differ r r') : Differ r' r := fun e => h ⟨e.1.symm, e.2.symm⟩

theorem fair_fill {α : Type} {c : Sizes} {own : Request → Set Bytes} {keys : Bytes → Prop} (hvalid : ∀ k d t, keys k → d.Fit c → (⟨k, d, none, [], t⟩ : Request).Valid c)
    (hown : ∀ k d t k' d' t', keys k → keys k' → d.Fit c → d'.Fit c → Differ ⟨k, d, none, [], t⟩ ⟨k', d', none, [], t'⟩ →
      ∀ q ∈ own ⟨k, d, none, [], t⟩, q ∉ own ⟨k', d', none, [], t'⟩) :
    ∀ (ws : List Write) (before : List Request) (g : List Write → Prog α), (∀ b ∈ before ++ reqs cd ws, keys b.key ∧ b.draws.Fit c ∧ b.salt = none ∧ b.aad = []) →
      (reqs cd ws).Pairwise Differ → (∀ b ∈ before, ∀ r ∈ reqs cd ws, Differ b r) → (∀ W, Prog.Fair c own ((reqs cd ws).reverse ++ before) (g W)) →
      Prog.Fair c own before ((fill cd ws).bind g)
  | [], before, g, _, _, _, hg => hg []
  | .unlink n :: ws, before, g, h1, h2, h3, hg => by
    rw [fill, progBind_bind]
    exact fair_fill hvalid hown ws before _ h1 h2 h3 fun W => hg (.unlink n :: W)
  | .put n x :: ws, before, g, h1, h2, h3, hg => by
    unfold fill
    cases hx : cd.decode x with
    | none =>
      have e : reqs cd (.put n x :: ws) = reqs cd ws := by simp [reqs, hx]
      rw [e] at h1 h2 h3 hg
      simp only
      rw [progBind_bind]
      exact fair_fill hvalid hown ws before _ h1 h2 h3 fun W => hg (.put n x :: W)
    | some y =>
      obtain ⟨k, d, t⟩ := y
      have e : reqs cd (.put n x :: ws) = ⟨k, d, none, [], t⟩ :: reqs cd ws := by simp [reqs, hx]
      rw [e] at h1 h2 h3 hg
      simp only
      have hk := h1 ⟨k, d, none, [], t⟩ (by simp)
      refine ⟨hvalid k d t hk.1 hk.2.1, fun b hb => ?_, fun m => ?_⟩
      · have hb1 := h1 b (by simp [hb])
        have hb2 := h3 b hb _ List.mem_cons_self
        obtain ⟨k', d', s', a', t'⟩ := b
        obtain ⟨hb3, hb4, hb5, hb6⟩ := hb1
        simp only at hb3 hb4 hb5 hb6
        subst hb5 hb6
        exact hown k' d' t' k d t hb3 hk.1 hb4 hk.2.1 hb2
      · show Prog.Fair c own (_ :: before) (((fill cd ws).bind _).bind g)
        rw [progBind_bind]
        refine fair_fill hvalid hown ws (⟨k, d, none, [], t⟩ :: before) _ ?_ (List.pairwise_cons.1 h2).2 ?_ fun W => ?_
        · intro b hb
          refine h1 b ?_
          simp only [List.cons_append, List.mem_cons, List.mem_append] at hb ⊢
          tauto
        · intro b hb r hr
          rcases List.mem_cons.1 hb with rfl | hb
          · exact (List.pairwise_cons.1 h2).1 r hr
          · exact h3 b hb r (List.mem_cons_of_mem _ hr)
        · have := hg (.put n m :: W)
          rwa [List.reverse_cons, List.append_assoc] at this

theorem saveFile_put {ρ : Type} {E : Env ρ J} {n : Node J} {name : String} {r : ρ} {w : Write} (h : n.saveFile E name r = .ok w) :
    ∃ t, w = .put name (E.encrypt (E.fileKey n.key n.man.salt name) r t) := by
  unfold Node.saveFile at h
  split at h
  · cases h
  · simp only [bind_eq_ok] at h
    obtain ⟨t, _, h⟩ := h
    cases h
    exact ⟨t, rfl⟩

theorem saveTags_puts {ρ : Type} {E : Env ρ J} {n : Node J} {rs : String → ρ} : ∀ d : Dict (Value J), ∃ names, names.Sublist (d.map (·.1)) ∧
    List.Forall₂ (fun name w => ∃ t, w = .put name (E.encrypt (E.fileKey n.key n.man.salt name) (rs name) t)) names (n.saveTags E rs d).2
  | [] => ⟨[], .slnil, .nil⟩
  | (name, v) :: d => by
    unfold Node.saveTags
    cases hw : n.saveFile E name (rs name) with
    | error e => exact ⟨[], List.nil_sublist _, .nil⟩
    | ok w =>
      obtain ⟨names, h1, h2⟩ := saveTags_puts (E := E) (n := n) (rs := rs) d
      exact ⟨name :: names, h1.cons_cons _, .cons (saveFile_put hw) h2⟩

theorem reqs_files {R : Env Draws J} {n : Node J} {rs : String → Draws} {names : List String} {ws : List Write}
    (h : List.Forall₂ (fun name w => ∃ t, w = .put name ((ghost cd R).encrypt ((ghost cd R).fileKey n.key n.man.salt name) (rs name) t)) names ws) :
    List.Forall₂ (fun name r => ∃ t, r = ⟨R.fileKey n.key n.man.salt name, rs name, none, [], t⟩) names (reqs cd ws) := by
  induction h with
  | nil => exact .nil
  | @cons name w names ws hw _ ih =>
    obtain ⟨t, rfl⟩ := hw
    have e : reqs cd (.put name ((ghost cd R).encrypt ((ghost cd R).fileKey n.key n.man.salt name) (rs name) t) :: ws) =
        ⟨R.fileKey n.key n.man.salt name, rs name, none, [], t⟩ :: reqs cd ws := reqs_put ..
    rw [e]
    exact .cons ⟨t, rfl⟩ ih

theorem reqs_saveTag {R : Env Draws J} {n : Node J} {t : String} {drop : Bool} {d : Draws} {r : Request} {l : List Request}
    (e : reqs cd (n.saveTag (ghost cd R) t drop d).2.2 = l) (hr : r ∈ l) :
    (r.key = R.fileKey n.key n.man.salt (n.filename R t) ∧ r.draws = d ∧ r.salt = none ∧ r.aad = []) ∧ l.Pairwise Differ := by
  unfold Node.saveTag at e
  cases hw : n.saveFile (ghost cd R) (n.filename (ghost cd R) t) d with
  | error x =>
    simp only [hw] at e
    have : l = [] := by rw [← e]; cases x <;> rfl
    rw [this] at hr
    exact (List.not_mem_nil hr).elim
  | ok w =>
    obtain ⟨x, rfl⟩ := saveFile_put hw
    simp only [hw] at e
    have e' : l = [⟨R.fileKey n.key n.man.salt (n.filename R t), d, none, [], x⟩] := by
      rw [← e]
      exact reqs_put ..
    subst e'
    rcases List.mem_singleton.1 hr with rfl
    exact ⟨⟨rfl, rfl, rfl, rfl⟩, List.pairwise_singleton _ _⟩

/-- The keys of the database. -/
def Keyed (R : Env Draws J) (tags : Finset String) (key salt : Bytes) (k : Bytes) : Prop :=
  k = R.manifestKey key ∨ ∃ t ∈ tags, k = R.fileKey key salt (R.fileName key salt t)

theorem call_reqs {R : Env Draws J} {tags : Finset String} {key salt : Bytes} {c : Sizes} (hroot : ∀ t ∈ tags, R.fileName key salt t ≠ R.rootName key) {n n' : Node J}
    (h : (hidden cd (ghost cd R) tags key salt c).NodeRel n n') {a : Call Draws J} (hu : a.Uses tags)
    (hap : ∀ ds, a = .save ds → ∀ i ≤ tags.card, ∀ j ≤ tags.card, i ≠ j → ¬ ((ds i).salt = (ds j).salt ∧ (ds i).iv = (ds j).iv)) (D : Disk) :
    (∀ r ∈ reqs cd ((a.op (ghost cd R) n).run (ghost cd R) n D).2.2, Keyed R tags key salt r.key ∧ a.draws tags.card r.draws ∧ r.salt = none ∧ r.aad = []) ∧
      (reqs cd ((a.op (ghost cd R) n).run (ghost cd R) n D).2.2).Pairwise Differ := by
  have hkey : n.key = key := h.key
  have hsalt : n.man.salt = salt := h.man.salt
  have hone : ∀ {t drop d} (m : Node J), m.key = key → m.man.salt = salt → t ∈ tags → ∀ r ∈ reqs cd (m.saveTag (ghost cd R) t drop d).2.2,
      (Keyed R tags key salt r.key ∧ r.draws = d ∧ r.salt = none ∧ r.aad = []) ∧ (reqs cd (m.saveTag (ghost cd R) t drop d).2.2).Pairwise Differ := by
    intro t drop d m h1 h2 ht r hr
    obtain ⟨⟨e1, e2⟩, e3⟩ := reqs_saveTag cd rfl hr
    refine ⟨⟨.inr ⟨t, ht, ?_⟩, e2⟩, e3⟩
    rw [e1, h1, h2, Node.filename, h1, h2]
  have hnil : ∀ l : List Request, (∀ r ∈ l, l.Pairwise Differ) → l.Pairwise Differ := by
    intro l hl
    cases l with
    | nil => exact .nil
    | cons r l => exact hl r List.mem_cons_self
  cases a with
  | tags op =>
    cases op with
    | set t v cache d =>
      show (∀ r ∈ reqs cd (n.setTag (ghost cd R) t v cache d).2.2, _) ∧ (reqs cd (n.setTag (ghost cd R) t v cache d).2.2).Pairwise Differ
      unfold Node.setTag
      cases cache with
      | true => exact ⟨fun r hr => (List.not_mem_nil hr).elim, .nil⟩
      | false =>
        simp only [Bool.false_eq_true, if_false]
        have := hone (t := t) (drop := true) (d := d)
          { n with cache := n.cache.set (n.filename (ghost cd R) t) v, man := { n.man with files := n.man.files.set (n.filename (ghost cd R) t) t } } hkey hsalt hu
        exact ⟨fun r hr => (this r hr).1, hnil _ fun r hr => (this r hr).2⟩
    | saveTag t drop d =>
      have := hone (t := t) (drop := drop) (d := d) n hkey hsalt hu
      exact ⟨fun r hr => (this r hr).1, hnil _ fun r hr => (this r hr).2⟩
    | save rs => exact hu.elim
    | pop t silent now =>
      show (∀ r ∈ reqs cd (n.popTag (ghost cd R) D t silent now).2.2, _) ∧ (reqs cd (n.popTag (ghost cd R) D t silent now).2.2).Pairwise Differ
      unfold Node.popTag
      simp only
      split
      · exact ⟨fun r hr => (List.not_mem_nil hr).elim, .nil⟩
      · exact ⟨fun r hr => (List.not_mem_nil hr).elim, .nil⟩
    | query => exact ⟨fun r hr => (List.not_mem_nil hr).elim, .nil⟩
    | delItem => exact ⟨fun r hr => (List.not_mem_nil hr).elim, .nil⟩
    | rollback => exact ⟨fun r hr => (List.not_mem_nil hr).elim, .nil⟩
    | clearCache => exact ⟨fun r hr => (List.not_mem_nil hr).elim, .nil⟩
    | loadTags => exact ⟨fun r hr => (List.not_mem_nil hr).elim, .nil⟩
  | save ds =>
    obtain ⟨names, hsub, hf⟩ := saveTags_puts (E := ghost cd R) (n := n) (rs := fun name => ds ((R.rootName n.key :: n.cache.map (·.1)).idxOf name)) n.cache
    have hf := reqs_files cd hf
    have hnames : ∀ name ∈ n.cache.map (·.1), ∃ t ∈ tags, name = R.fileName key salt t := by
      intro name hn
      obtain ⟨p, hp, rfl⟩ := List.mem_map.1 hn
      exact h.names p hp
    have hnot : R.rootName n.key ∉ n.cache.map (·.1) := by
      intro hm
      obtain ⟨t, ht, e⟩ := hnames _ hm
      rw [hkey] at e
      exact hroot t ht e.symm
    have hnd : (R.rootName n.key :: n.cache.map (·.1)).Nodup := List.nodup_cons.2 ⟨hnot, h.nodup⟩
    have hcard : (n.cache.map (·.1)).length ≤ tags.card := by
      rw [← List.toFinset_card_of_nodup (show (n.cache.map (·.1)).Nodup from h.nodup)]
      refine le_trans (Finset.card_le_card (t := tags.image (R.fileName key salt)) ?_) Finset.card_image_le
      intro name hn
      obtain ⟨t, ht, rfl⟩ := hnames name (List.mem_toFinset.1 hn)
      exact Finset.mem_image_of_mem _ ht
    have hidx : ∀ name ∈ R.rootName n.key :: n.cache.map (·.1), (R.rootName n.key :: n.cache.map (·.1)).idxOf name ≤ tags.card := by
      intro name hn
      have := List.idxOf_lt_length_of_mem hn
      rw [List.length_cons] at this
      omega
    have hdiff : ∀ a ∈ R.rootName n.key :: n.cache.map (·.1), ∀ b ∈ R.rootName n.key :: n.cache.map (·.1), a ≠ b →
        ¬ ((ds ((R.rootName n.key :: n.cache.map (·.1)).idxOf a)).salt = (ds ((R.rootName n.key :: n.cache.map (·.1)).idxOf b)).salt ∧
          (ds ((R.rootName n.key :: n.cache.map (·.1)).idxOf a)).iv = (ds ((R.rootName n.key :: n.cache.map (·.1)).idxOf b)).iv) := by
      intro a ha b hb hab
      refine hap ds rfl _ (hidx a ha) _ (hidx b hb) fun e => hab ?_
      exact (List.idxOf_inj ha).1 e
    have e : reqs cd (((Call.save ds).op (ghost cd R) n).run (ghost cd R) n D).2.2 =
        ⟨R.manifestKey n.key, ds ((R.rootName n.key :: n.cache.map (·.1)).idxOf (R.rootName n.key)), none, [], R.dumpManifest n.man⟩ ::
          reqs cd (n.saveTags (ghost cd R) (fun name => ds ((R.rootName n.key :: n.cache.map (·.1)).idxOf name)) n.cache).2 := reqs_put ..
    rw [e]
    have hall : ∀ (names : List String) (l : List Request), names.Sublist (n.cache.map (·.1)) →
        List.Forall₂ (fun name r => ∃ t, r = ⟨R.fileKey n.key n.man.salt name, ds ((R.rootName n.key :: n.cache.map (·.1)).idxOf name), none, [], t⟩) names l →
        (∀ r ∈ l, ∃ name ∈ names, r.key = R.fileKey n.key n.man.salt name ∧ r.draws = ds ((R.rootName n.key :: n.cache.map (·.1)).idxOf name) ∧ r.salt = none ∧ r.aad = []) ∧ l.Pairwise Differ := by
      intro names l hs hl
      induction hl with
      | nil => exact ⟨fun r hr => (List.not_mem_nil hr).elim, .nil⟩
      | @cons name r names l hr _ ih =>
        obtain ⟨t, rfl⟩ := hr
        have hs' : names.Sublist (n.cache.map (·.1)) := (List.sublist_cons_self _ _).trans hs
        obtain ⟨i1, i2⟩ := ih hs'
        have hnd' : (name :: names).Nodup := hs.nodup h.nodup
        refine ⟨fun r hr => ?_, List.pairwise_cons.2 ⟨fun r hr => ?_, i2⟩⟩
        · rcases List.mem_cons.1 hr with rfl | hr
          · exact ⟨name, List.mem_cons_self, rfl, rfl, rfl, rfl⟩
          · obtain ⟨a, ha, hb⟩ := i1 r hr
            exact ⟨a, List.mem_cons_of_mem _ ha, hb⟩
        · obtain ⟨a, ha, _, hb, _⟩ := i1 r hr
          show ¬ (_ ∧ _)
          rw [hb]
          exact hdiff name (List.mem_cons_of_mem _ (hs.subset List.mem_cons_self)) a (List.mem_cons_of_mem _ (hs'.subset ha)) fun e =>
            (List.nodup_cons.1 hnd').1 (e ▸ ha)
    obtain ⟨i1, i2⟩ := hall names _ hsub hf
    refine ⟨fun r hr => ?_, List.pairwise_cons.2 ⟨fun r hr => ?_, i2⟩⟩
    · rcases List.mem_cons.1 hr with rfl | hr
      · exact ⟨.inl (by rw [hkey]), ⟨_, hidx _ List.mem_cons_self, rfl⟩, rfl, rfl⟩
      · obtain ⟨name, ha, e1, e2, e3⟩ := i1 r hr
        have hm := hsub.subset ha
        obtain ⟨t, ht, rfl⟩ := hnames name hm
        refine ⟨.inr ⟨t, ht, ?_⟩, ⟨_, hidx _ (List.mem_cons_of_mem _ hm), e2⟩, e3⟩
        rw [e1, hkey, hsalt]
    · obtain ⟨name, ha, _, hb, _⟩ := i1 r hr
      show ¬ (_ ∧ _)
      rw [hb]
      have hm := hsub.subset ha
      exact hdiff _ List.mem_cons_self name (List.mem_cons_of_mem _ hm) fun e => hnot (e ▸ hm)

theorem fair_watch {R : Env Draws J} {tags : Finset String} {key salt : Bytes} {c : Sizes} {own : Request → Set Bytes}
    (hf : ∀ name, KeySize (R.fileKey key salt name)) (hroot : ∀ t ∈ tags, R.fileName key salt t ≠ R.rootName key)
    (hvalid : ∀ k d t, Keyed R tags key salt k → d.Fit c → (⟨k, d, none, [], t⟩ : Request).Valid c)
    (hown : ∀ k d t k' d' t', Keyed R tags key salt k → Keyed R tags key salt k' → d.Fit c → d'.Fit c → Differ ⟨k, d, none, [], t⟩ ⟨k', d', none, [], t'⟩ →
      ∀ q ∈ own ⟨k, d, none, [], t⟩, q ∉ own ⟨k', d', none, [], t'⟩)
    {f : Author Draws J} {N : Nat} (hu : ∀ seen, (f seen).Uses tags) (hfresh : f.Fresh c tags.card N) :
    ∀ (k : Nat) {n n' : Node J}, (hidden cd (ghost cd R) tags key salt c).NodeRel n n' → ∀ {D D' : Disk}, (hidden cd (ghost cd R) tags key salt c).DiskRel D D' →
      ∀ (seen : List (List Write)) (before : List Request), seen.length + k ≤ N →
      (∀ b ∈ before, (Keyed R tags key salt b.key ∧ b.draws.Fit c ∧ b.salt = none ∧ b.aad = []) ∧ ∃ old more, seen = old ++ more ∧ more ≠ [] ∧ (f old).draws tags.card b.draws) →
      Prog.Fair c own before (watchP cd (ghost cd R) f k n D seen)
  | 0, _, _, _, _, _, _, _, _, _, _ => trivial
  | k + 1, n, n', h, D, D', hd, seen, before, hN, hb => by
    have S := hidden_sim cd (ghost_opens cd R c) hf hroot
    have hop := op_hidden cd h (hu seen) fun i d hd => hfresh.fit seen i d hd
    have o := Pair.op_sim S h hd hop
    obtain ⟨q1, q2⟩ := call_reqs cd hroot h (hu seen) (hfresh.apart seen) D
    rw [watchP]
    refine fair_fill cd hvalid hown _ before _ ?_ q2 ?_ fun W => ?_
    · intro b hb'
      rcases List.mem_append.1 hb' with hb' | hb'
      · exact (hb b hb').1
      · obtain ⟨a1, a2, a3⟩ := q1 b hb'
        exact ⟨a1, hfresh.fit seen _ _ a2, a3⟩
    · intro b hb' r hr
      obtain ⟨_, old, more, rfl, hm, hdr⟩ := hb b hb'
      exact hfresh.once old more _ _ hm (by omega) hdr (q1 r hr).2.1
    · refine fair_watch hf hroot hvalid hown hu hfresh k o.node (Pair.disk_sim S o.writes hd) _ _ (by rw [List.length_append, List.length_singleton]; omega) ?_
      intro b hb'
      rcases List.mem_append.1 hb' with hb' | hb'
      · obtain ⟨a1, a2, a3⟩ := q1 b (List.mem_reverse.1 hb')
        exact ⟨⟨a1, hfresh.fit seen _ _ a2, a3⟩, seen, [W], rfl, by simp, a2⟩
      · obtain ⟨a1, old, more, rfl, hm, hdr⟩ := hb b hb'
        exact ⟨a1, old, more ++ [W], by rw [List.append_assoc], by simp, hdr⟩

end Aiootp.Database
