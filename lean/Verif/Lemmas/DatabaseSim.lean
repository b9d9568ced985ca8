import Mathlib.Data.List.Forall2
import Verif.Lemmas.Database

/-
Two databases that differ in the names of their tags, in their values and in their ciphers, but have files with the same names.
-/

namespace Aiootp.Database

variable {ρ J : Type}

/-- Both return, or both raise the same. -/
def Both {α β : Type} (R : α → β → Prop) : Except Err α → Except Err β → Prop
  | .ok a, .ok b => R a b
  | .error e, .error e' => e = e'
  | _, _ => False

def OptRel {α β : Type} (R : α → β → Prop) : Option α → Option β → Prop
  | some a, some b => R a b
  | none, none => True
  | _, _ => False

theorem OptRel.isNone {α β : Type} {R : α → β → Prop} : ∀ {a : Option α} {b : Option β}, OptRel R a b → b.isNone = a.isNone
  | some _, some _, _ => rfl
  | none, none, _ => rfl
  | some _, none, h => h.elim
  | none, some _, h => h.elim

/-- Records with the same names. -/
def Recs {α : Type} (R : α → α → Prop) (d d' : Dict α) : Prop := List.Forall₂ (fun p p' => p.1 = p'.1 ∧ R p.2 p'.2) d d'

section
variable {α : Type} {R : α → α → Prop}

theorem Recs.get {d d' : Dict α} (h : Recs R d d') (name : String) : OptRel R (d.get name) (d'.get name) := by
  induction h with
  | nil => exact trivial
  | @cons p p' l l' hp _ ih =>
    obtain ⟨k, v⟩ := p
    obtain ⟨k', v'⟩ := p'
    obtain ⟨rfl, hv⟩ := hp
    simp only [Dict.get]
    split
    · exact hv
    · exact ih

theorem Recs.set {d d' : Dict α} (h : Recs R d d') (name : String) {v v' : α} (hv : R v v') : Recs R (d.set name v) (d'.set name v') := by
  induction h with
  | nil => exact .cons ⟨rfl, hv⟩ .nil
  | @cons p p' l l' hp hl ih =>
    obtain ⟨k, w⟩ := p
    obtain ⟨k', w'⟩ := p'
    obtain ⟨rfl, hw⟩ := hp
    simp only [Dict.set]
    split
    · exact .cons ⟨rfl, hv⟩ hl
    · exact .cons ⟨rfl, hw⟩ ih

theorem Recs.del {d d' : Dict α} (h : Recs R d d') (name : String) : Recs R (d.del name) (d'.del name) := by
  induction h with
  | nil => exact .nil
  | @cons p p' l l' hp hl ih =>
    obtain ⟨k, w⟩ := p
    obtain ⟨k', w'⟩ := p'
    obtain ⟨rfl, hw⟩ := hp
    simp only [Dict.del]
    split
    · exact ih
    · exact .cons ⟨rfl, hw⟩ ih

end

theorem Dict.mem_set {α : Type} {d : Dict α} {name : String} {v : α} : ∀ {p}, p ∈ d.set name v → p ∈ d ∨ p = (name, v) := by
  induction d with
  | nil => intro p hp; simp [Dict.set] at hp; exact .inr hp
  | cons q d ih =>
    obtain ⟨k, w⟩ := q
    intro p hp
    simp only [Dict.set] at hp
    split at hp
    · rename_i h
      rcases List.mem_cons.1 hp with rfl | hp
      · exact .inr (by rw [h])
      · exact .inl (List.mem_cons_of_mem _ hp)
    · rcases List.mem_cons.1 hp with rfl | hp
      · exact .inl List.mem_cons_self
      · rcases ih hp with h | h
        · exact .inl (List.mem_cons_of_mem _ h)
        · exact .inr h

theorem Dict.mem_del {α : Type} {d : Dict α} {name : String} : ∀ {p}, p ∈ d.del name → p ∈ d := by
  induction d with
  | nil => intro p hp; exact hp
  | cons q d ih =>
    obtain ⟨k, w⟩ := q
    intro p hp
    simp only [Dict.del] at hp
    split at hp
    · exact List.mem_cons_of_mem _ (ih hp)
    · rcases List.mem_cons.1 hp with rfl | hp
      · exact List.mem_cons_self
      · exact List.mem_cons_of_mem _ (ih hp)

/-- The setting: the environments, the tags in use and their other names, the key and the salt. -/
structure Pair (ρ J : Type) where
  E : Env ρ J
  E' : Env ρ J
  U : String → Prop
  σ : String → String
  key : Bytes
  salt : Bytes
  good : ρ → Prop
  /-- values that correspond -/
  VR : Value J → Value J → Prop
  /-- contents of a file that correspond, as they are written -/
  C : String → Bytes → Bytes → Prop
  /-- contents of a file that correspond, as they may be found -/
  F : String → Bytes → Bytes → Prop
  /-- contents of the manifest's file that correspond -/
  CR : Bytes → Bytes → Prop

namespace Pair
variable (P : Pair ρ J)

def nm (t : String) : String := P.E.fileName P.key P.salt t

def FilesRel (d d' : Dict String) : Prop := Recs (fun t t' => t' = P.σ t ∧ P.U t) d d'

structure ManRel (m m' : Manifest) : Prop where
  salt : m.salt = P.salt
  salt' : m'.salt = P.salt
  metatags : m'.metatags = m.metatags
  files : P.FilesRel m.files m'.files

/-- What is needed of the two environments. -/
structure Sim : Prop where
  name : ∀ t, P.U t → P.E'.fileName P.key P.salt (P.σ t) = P.nm t
  root : P.E'.rootName P.key = P.E.rootName P.key
  notRoot : ∀ t, P.U t → P.nm t ≠ P.E.rootName P.key
  file : ∀ t v v' r, P.U t → P.VR v v' → P.good r → Both (fun x x' => P.C (P.nm t) (P.E.encrypt (P.E.fileKey P.key P.salt (P.nm t)) r x)
    (P.E'.encrypt (P.E'.fileKey P.key P.salt (P.nm t)) r x')) (encodeValue P.E v) (encodeValue P.E' v')
  kept : ∀ t c c', P.U t → P.C (P.nm t) c c' → P.F (P.nm t) c c'
  read : ∀ t c c', P.U t → P.F (P.nm t) c c' → (c = [] ∧ c' = []) ∨ c ≠ [] ∧ c' ≠ [] ∧ ∀ now ttl,
    Both P.VR (do let x ← P.E.decrypt (P.E.fileKey P.key P.salt (P.nm t)) now ttl c; decodeValue P.E x)
      (do let x ← P.E'.decrypt (P.E'.fileKey P.key P.salt (P.nm t)) now ttl c'; decodeValue P.E' x)
  manifest : ∀ m m' r, P.ManRel m m' → P.good r →
    P.CR (P.E.encrypt (P.E.manifestKey P.key) r (P.E.dumpManifest m)) (P.E'.encrypt (P.E'.manifestKey P.key) r (P.E'.dumpManifest m'))

structure NodeRel (n n' : Node J) : Prop where
  key : n.key = P.key
  key' : n'.key = P.key
  man : P.ManRel n.man n'.man
  cache : Recs P.VR n.cache n'.cache
  names : ∀ p ∈ n.cache, ∃ t, P.U t ∧ p.1 = P.nm t
  nodup : n.cache.names.Nodup

def DiskRel (D D' : Disk) : Prop := ∀ t, P.U t → OptRel (P.F (P.nm t)) (D (P.nm t)) (D' (P.nm t))

def WriteRel : Write → Write → Prop
  | .put n c, .put n' c' => n = n' ∧ ((∃ t, P.U t ∧ n = P.nm t ∧ P.C n c c') ∨ (n = P.E.rootName P.key ∧ P.CR c c'))
  | .unlink n, .unlink n' => n = n'
  | _, _ => False

def OpRel : Op ρ J → Op ρ J → Prop
  | .set t v cache r, .set t' v' cache' r' => t' = P.σ t ∧ P.U t ∧ P.VR v v' ∧ cache' = cache ∧ r' = r ∧ P.good r
  | .query t ttl silent cache now, .query t' ttl' silent' cache' now' => t' = P.σ t ∧ P.U t ∧ ttl' = ttl ∧ silent' = silent ∧ cache' = cache ∧ now' = now
  | .pop t silent now, .pop t' silent' now' => t' = P.σ t ∧ P.U t ∧ silent' = silent ∧ now' = now
  | .delItem t, .delItem t' => t' = P.σ t ∧ P.U t
  | .rollback t cache now, .rollback t' cache' now' => t' = P.σ t ∧ P.U t ∧ cache' = cache ∧ now' = now
  | .clearCache, .clearCache => True
  | .saveTag t drop r, .saveTag t' drop' r' => t' = P.σ t ∧ P.U t ∧ drop' = drop ∧ r' = r ∧ P.good r
  | .save rs, .save rs' => rs' = rs ∧ ∀ name, P.good (rs name)
  | .loadTags silent now, .loadTags silent' now' => silent' = silent ∧ now' = now
  | _, _ => False

variable {P} (S : P.Sim)
include S

theorem names {n n' : Node J} (h : P.NodeRel n n') {t : String} (ht : P.U t) : n.filename P.E t = P.nm t ∧ n'.filename P.E' (P.σ t) = P.nm t := by
  unfold Node.filename
  rw [h.key, h.key', h.man.salt, h.man.salt']
  exact ⟨rfl, S.name t ht⟩

theorem query_sim {n n' : Node J} (h : P.NodeRel n n') {D D' : Disk} (hd : P.DiskRel D D') {t : String} (ht : P.U t) (ttl : Option Int) (silent cache : Bool) (now : Int) :
    Both (OptRel P.VR) (n.queryTag P.E D t ttl silent cache now).1 (n'.queryTag P.E' D' (P.σ t) ttl silent cache now).1 ∧
      P.NodeRel (n.queryTag P.E D t ttl silent cache now).2 (n'.queryTag P.E' D' (P.σ t) ttl silent cache now).2 := by
  obtain ⟨e1, e2⟩ := names S h ht
  unfold Node.queryTag
  simp only [e1, e2]
  have hc := h.cache.get (P.nm t)
  cases hg : n.cache.get (P.nm t) with
  | some v =>
    cases hg' : n'.cache.get (P.nm t) with
    | none => rw [hg, hg'] at hc; exact hc.elim
    | some v' => rw [hg, hg'] at hc; exact ⟨hc, h⟩
  | none =>
    cases hg' : n'.cache.get (P.nm t) with
    | some v' => rw [hg, hg'] at hc; exact hc.elim
    | none =>
      have hf := hd t ht
      cases hq : D (P.nm t) with
      | none =>
        cases hq' : D' (P.nm t) with
        | some c' => rw [hq, hq'] at hf; exact hf.elim
        | none => refine ⟨?_, h⟩; cases silent <;> first | exact trivial | exact rfl
      | some c =>
        cases hq' : D' (P.nm t) with
        | none => rw [hq, hq'] at hf; exact hf.elim
        | some c' =>
          rw [hq, hq'] at hf
          rcases S.read t c c' ht hf with ⟨rfl, rfl⟩ | ⟨h1, h2, h3⟩
          · exact ⟨trivial, h⟩
          have h3 := h3 now ttl
          cases c with
          | nil => exact (h1 rfl).elim
          | cons b bs =>
            cases c' with
            | nil => exact (h2 rfl).elim
            | cons b' bs' =>
              simp only
              rw [h.key, h.key', h.man.salt, h.man.salt']
              cases hx : (do let x ← P.E.decrypt (P.E.fileKey P.key P.salt (P.nm t)) now ttl (b :: bs); decodeValue P.E x : Except Err (Value J)) with
              | error e =>
                cases hx' : (do let x ← P.E'.decrypt (P.E'.fileKey P.key P.salt (P.nm t)) now ttl (b' :: bs'); decodeValue P.E' x : Except Err (Value J)) with
                | error e' => rw [hx, hx'] at h3; exact ⟨h3, h⟩
                | ok v' => rw [hx, hx'] at h3; exact h3.elim
              | ok v =>
                cases hx' : (do let x ← P.E'.decrypt (P.E'.fileKey P.key P.salt (P.nm t)) now ttl (b' :: bs'); decodeValue P.E' x : Except Err (Value J)) with
                | error e' => rw [hx, hx'] at h3; exact h3.elim
                | ok v' =>
                  rw [hx, hx'] at h3
                  refine ⟨h3, ?_⟩
                  cases cache with
                  | false => exact h
                  | true =>
                    simp only [if_true]
                    refine ⟨rfl, rfl, h.man, h.cache.set _ h3, fun p hp => ?_, Dict.nodup_set h.nodup _ _⟩
                    rcases Dict.mem_set hp with hp | rfl
                    · exact h.names p hp
                    · exact ⟨t, ht, rfl⟩

theorem saveFile_sim {n n' : Node J} (h : P.NodeRel n n') {t : String} (ht : P.U t) {r : ρ} (hr : P.good r) :
    Both P.WriteRel (n.saveFile P.E (P.nm t) r) (n'.saveFile P.E' (P.nm t) r) := by
  unfold Node.saveFile
  have hc := h.cache.get (P.nm t)
  cases hg : n.cache.get (P.nm t) with
  | none =>
    cases hg' : n'.cache.get (P.nm t) with
    | some v' => rw [hg, hg'] at hc; exact hc.elim
    | none => exact rfl
  | some v =>
    cases hg' : n'.cache.get (P.nm t) with
    | none => rw [hg, hg'] at hc; exact hc.elim
    | some v' =>
      rw [hg, hg'] at hc
      have hf := S.file t v v' r ht hc hr
      simp only
      rw [h.key, h.key', h.man.salt, h.man.salt']
      cases hx : encodeValue P.E v with
      | error e =>
        cases hx' : encodeValue P.E' v' with
        | error e' => rw [hx, hx'] at hf; exact hf
        | ok x' => rw [hx, hx'] at hf; exact hf.elim
      | ok x =>
        cases hx' : encodeValue P.E' v' with
        | error e' => rw [hx, hx'] at hf; exact hf.elim
        | ok x' => rw [hx, hx'] at hf; exact ⟨rfl, .inl ⟨t, ht, rfl, hf⟩⟩

theorem dropped {n n' : Node J} (h : P.NodeRel n n') (name : String) (drop : Bool) : P.NodeRel (if drop then { n with cache := n.cache.del name } else n)
    (if drop then { n' with cache := n'.cache.del name } else n') := by
  cases drop with
  | false => exact h
  | true => exact ⟨h.key, h.key', h.man, h.cache.del _, fun p hp => h.names p (Dict.mem_del hp), Dict.nodup_del h.nodup _⟩

variable (P) in
omit S in
/-- The outcomes of a call correspond. -/
structure Outcome (x x' : Except Err (Option (Value J)) × Node J × List Write) : Prop where
  result : Both (OptRel P.VR) x.1 x'.1
  node : P.NodeRel x.2.1 x'.2.1
  writes : List.Forall₂ P.WriteRel x.2.2 x'.2.2

omit S in
theorem both_map {α β : Type} {R : α → β → Prop} {x : Except Err α} {x' : Except Err β} (h : Both R x x') :
    Both (OptRel P.VR) (x.map fun _ => none) (x'.map fun _ => none) := by
  cases x <;> cases x' <;> first | exact h | exact trivial | exact h.elim

theorem saveTag_sim {n n' : Node J} (h : P.NodeRel n n') {t : String} (ht : P.U t) (drop : Bool) {r : ρ} (hr : P.good r) :
    Both (fun _ _ => True) (n.saveTag P.E t drop r).1 (n'.saveTag P.E' (P.σ t) drop r).1 ∧ P.NodeRel (n.saveTag P.E t drop r).2.1 (n'.saveTag P.E' (P.σ t) drop r).2.1 ∧
      List.Forall₂ P.WriteRel (n.saveTag P.E t drop r).2.2 (n'.saveTag P.E' (P.σ t) drop r).2.2 := by
  obtain ⟨e1, e2⟩ := names S h ht
  unfold Node.saveTag
  simp only [e1, e2]
  have hf := saveFile_sim S h ht hr
  have hd := dropped S h (P.nm t) drop
  cases hx : n.saveFile P.E (P.nm t) r with
  | ok w =>
    cases hx' : n'.saveFile P.E' (P.nm t) r with
    | ok w' => rw [hx, hx'] at hf; exact ⟨trivial, hd, .cons hf .nil⟩
    | error e' => rw [hx, hx'] at hf; exact hf.elim
  | error e =>
    cases hx' : n'.saveFile P.E' (P.nm t) r with
    | ok w' => rw [hx, hx'] at hf; exact hf.elim
    | error e' =>
      rw [hx, hx'] at hf
      cases (show e = e' from hf)
      cases e <;> exact ⟨rfl, hd, .nil⟩

theorem set_sim {n n' : Node J} (h : P.NodeRel n n') {t : String} (ht : P.U t) {v v' : Value J} (hv : P.VR v v') (cache : Bool) {r : ρ} (hr : P.good r) :
    Both (fun _ _ => True) (n.setTag P.E t v cache r).1 (n'.setTag P.E' (P.σ t) v' cache r).1 ∧ P.NodeRel (n.setTag P.E t v cache r).2.1 (n'.setTag P.E' (P.σ t) v' cache r).2.1 ∧
      List.Forall₂ P.WriteRel (n.setTag P.E t v cache r).2.2 (n'.setTag P.E' (P.σ t) v' cache r).2.2 := by
  obtain ⟨e1, e2⟩ := names S h ht
  unfold Node.setTag
  simp only [e1, e2]
  have h2 : P.NodeRel { n with cache := n.cache.set (P.nm t) v, man := { n.man with files := n.man.files.set (P.nm t) t } }
      { n' with cache := n'.cache.set (P.nm t) v', man := { n'.man with files := n'.man.files.set (P.nm t) (P.σ t) } } := by
    refine ⟨h.key, h.key', ⟨h.man.salt, h.man.salt', h.man.metatags, h.man.files.set _ ⟨rfl, ht⟩⟩, h.cache.set _ hv, fun p hp => ?_, Dict.nodup_set h.nodup _ _⟩
    rcases Dict.mem_set hp with hp | rfl
    · exact h.names p hp
    · exact ⟨t, ht, rfl⟩
  cases cache with
  | true => exact ⟨trivial, h2, .nil⟩
  | false => exact saveTag_sim S h2 ht true hr

theorem forget_sim {n n' : Node J} (h : P.NodeRel n n') {t : String} (ht : P.U t) : P.NodeRel (n.forget P.E t) (n'.forget P.E' (P.σ t)) := by
  obtain ⟨e1, e2⟩ := names S h ht
  unfold Node.forget
  simp only [e1, e2]
  exact ⟨h.key, h.key', ⟨h.man.salt, h.man.salt', h.man.metatags, h.man.files.del _⟩, h.cache.del _, fun p hp => h.names p (Dict.mem_del hp), Dict.nodup_del h.nodup _⟩

theorem pop_sim {n n' : Node J} (h : P.NodeRel n n') {D D' : Disk} (hd : P.DiskRel D D') {t : String} (ht : P.U t) (silent : Bool) (now : Int) :
    P.Outcome (n.popTag P.E D t silent now) (n'.popTag P.E' D' (P.σ t) silent now) := by
  obtain ⟨e1, e2⟩ := names S h ht
  have hq := (query_sim S h hd ht none true false now).1
  have hf := forget_sim S h ht
  unfold Node.popTag
  simp only [e1, e2]
  cases hx : (n.queryTag P.E D t none true false now).1 with
  | error e =>
    cases hx' : (n'.queryTag P.E' D' (P.σ t) none true false now).1 with
    | error e' => rw [hx, hx'] at hq; exact ⟨hq, h, .nil⟩
    | ok v' => rw [hx, hx'] at hq; exact hq.elim
  | ok v =>
    cases hx' : (n'.queryTag P.E' D' (P.σ t) none true false now).1 with
    | error e' => rw [hx, hx'] at hq; exact hq.elim
    | ok v' =>
      rw [hx, hx'] at hq
      have a1 := (h.man.files.get (P.nm t)).isNone
      have a2 := (h.cache.get (P.nm t)).isNone
      have a3 := (hd t ht).isNone
      simp only [a1, a2, a3]
      refine ⟨?_, hf, .cons rfl .nil⟩
      simp only
      split
      · exact rfl
      · exact hq

theorem rollback_sim {n n' : Node J} (h : P.NodeRel n n') {D D' : Disk} (hd : P.DiskRel D D') {t : String} (ht : P.U t) (cache : Bool) (now : Int) :
    Both (fun _ _ => True) (n.rollbackTag P.E D t cache now).1 (n'.rollbackTag P.E' D' (P.σ t) cache now).1 ∧
      P.NodeRel (n.rollbackTag P.E D t cache now).2 (n'.rollbackTag P.E' D' (P.σ t) cache now).2 := by
  obtain ⟨e1, e2⟩ := names S h ht
  unfold Node.rollbackTag
  simp only [e1, e2, (hd t ht).isNone]
  have h2 : P.NodeRel { n with cache := n.cache.del (P.nm t), man := { n.man with files := if (D (P.nm t)).isNone = true then n.man.files.del (P.nm t) else n.man.files } }
      { n' with cache := n'.cache.del (P.nm t), man := { n'.man with files := if (D (P.nm t)).isNone = true then n'.man.files.del (P.nm t) else n'.man.files } } := by
    refine ⟨h.key, h.key', ⟨h.man.salt, h.man.salt', h.man.metatags, ?_⟩, h.cache.del _, fun p hp => h.names p (Dict.mem_del hp), Dict.nodup_del h.nodup _⟩
    simp only
    split
    · exact h.man.files.del _
    · exact h.man.files
  cases cache with
  | false => exact ⟨trivial, h2⟩
  | true =>
    have hq := query_sim S h2 hd ht none false true now
    simp only [if_true]
    generalize Node.queryTag P.E _ D t none false true now = x at hq ⊢
    generalize Node.queryTag P.E' _ D' (P.σ t) none false true now = x' at hq ⊢
    obtain ⟨x1, x2⟩ := x
    obtain ⟨x1', x2'⟩ := x'
    obtain ⟨q1, q2⟩ := hq
    cases x1 with
    | ok v =>
      cases x1' with
      | ok v' => exact ⟨trivial, q2⟩
      | error e' => exact q1.elim
    | error e =>
      cases x1' with
      | ok v' => exact q1.elim
      | error e' =>
        cases (show e = e' from q1)
        cases e <;> first | exact ⟨trivial, q2⟩ | exact ⟨rfl, q2⟩

theorem saveTags_sim {n n' : Node J} (h : P.NodeRel n n') (rs : String → ρ) (hr : ∀ name, P.good (rs name)) {d d' : Dict (Value J)} (hdd : Recs P.VR d d')
    (hn : ∀ p ∈ d, ∃ t, P.U t ∧ p.1 = P.nm t) :
    Both (fun _ _ => True) (n.saveTags P.E rs d).1 (n'.saveTags P.E' rs d').1 ∧ List.Forall₂ P.WriteRel (n.saveTags P.E rs d).2 (n'.saveTags P.E' rs d').2 := by
  induction hdd with
  | nil => exact ⟨trivial, .nil⟩
  | @cons p p' l l' hp _ ih =>
    obtain ⟨k, w⟩ := p
    obtain ⟨k', w'⟩ := p'
    obtain ⟨e, hw⟩ := hp
    simp only at e
    subst e
    obtain ⟨t, ht, e⟩ := hn _ List.mem_cons_self
    simp only at e
    subst e
    have hs := saveFile_sim S h ht (hr (P.nm t))
    obtain ⟨i1, i2⟩ := ih fun p hp => hn p (List.mem_cons_of_mem _ hp)
    unfold Node.saveTags
    cases hx : n.saveFile P.E (P.nm t) (rs (P.nm t)) with
    | error e =>
      cases hx' : n'.saveFile P.E' (P.nm t) (rs (P.nm t)) with
      | error e' => rw [hx, hx'] at hs; exact ⟨hs, .nil⟩
      | ok w' => rw [hx, hx'] at hs; exact hs.elim
    | ok w =>
      cases hx' : n'.saveFile P.E' (P.nm t) (rs (P.nm t)) with
      | error e' => rw [hx, hx'] at hs; exact hs.elim
      | ok w' => rw [hx, hx'] at hs; exact ⟨i1, .cons hs i2⟩

theorem loadTags_sim {D D' : Disk} (hd : P.DiskRel D D') (silent : Bool) (now : Int) : ∀ {f f' : Dict String}, P.FilesRel f f' → ∀ {n n' : Node J}, P.NodeRel n n' →
    Both (fun _ _ => True) (Node.loadTags P.E D silent now (f.map (·.2)) n).1 (Node.loadTags P.E' D' silent now (f'.map (·.2)) n').1 ∧
      P.NodeRel (Node.loadTags P.E D silent now (f.map (·.2)) n).2 (Node.loadTags P.E' D' silent now (f'.map (·.2)) n').2 := by
  intro f f' hf
  induction hf with
  | nil => intro n n' h; exact ⟨trivial, h⟩
  | @cons p p' l l' hp _ ih =>
    intro n n' h
    obtain ⟨k, t⟩ := p
    obtain ⟨k', t'⟩ := p'
    obtain ⟨_, et, ht⟩ := hp
    simp only at et
    subst et
    have hq := query_sim S h hd ht none silent true now
    simp only [List.map_cons, Node.loadTags]
    generalize Node.queryTag P.E n D t none silent true now = x at hq ⊢
    generalize Node.queryTag P.E' n' D' (P.σ t) none silent true now = x' at hq ⊢
    obtain ⟨x1, x2⟩ := x
    obtain ⟨x1', x2'⟩ := x'
    obtain ⟨q1, q2⟩ := hq
    cases x1 with
    | ok v =>
      cases x1' with
      | ok v' => exact ih q2
      | error e' => exact q1.elim
    | error e =>
      cases x1' with
      | ok v' => exact q1.elim
      | error e' => exact ⟨q1, q2⟩

theorem op_sim {n n' : Node J} (h : P.NodeRel n n') {D D' : Disk} (hd : P.DiskRel D D') : ∀ {op op' : Op ρ J}, P.OpRel op op' → P.Outcome (op.run P.E n D) (op'.run P.E' n' D')
  | .set t v cache r, op', ho => by
    cases op' <;> try exact ho.elim
    obtain ⟨rfl, ht, hv, rfl, rfl, hr⟩ := ho
    obtain ⟨a, b, c⟩ := set_sim S h ht hv _ hr
    exact ⟨both_map a, b, c⟩
  | .query t ttl silent cache now, op', ho => by
    cases op' <;> try exact ho.elim
    obtain ⟨rfl, ht, rfl, rfl, rfl, rfl⟩ := ho
    obtain ⟨a, b⟩ := query_sim S h hd ht _ _ _ _
    exact ⟨a, b, .nil⟩
  | .pop t silent now, op', ho => by
    cases op' <;> try exact ho.elim
    obtain ⟨rfl, ht, rfl, rfl⟩ := ho
    exact pop_sim S h hd ht _ _
  | .delItem t, op', ho => by
    cases op' <;> try exact ho.elim
    obtain ⟨rfl, ht⟩ := ho
    obtain ⟨e1, e2⟩ := names S h ht
    refine ⟨trivial, forget_sim S h ht, .cons ?_ .nil⟩
    show n.filename P.E t = n'.filename P.E' (P.σ t)
    rw [e1, e2]
  | .rollback t cache now, op', ho => by
    cases op' <;> try exact ho.elim
    obtain ⟨rfl, ht, rfl, rfl⟩ := ho
    obtain ⟨a, b⟩ := rollback_sim S h hd ht _ _
    exact ⟨both_map a, b, .nil⟩
  | .clearCache, op', ho => by
    cases op' <;> try exact ho.elim
    exact ⟨trivial, ⟨h.key, h.key', h.man, .nil, fun p hp => (List.not_mem_nil hp).elim, List.nodup_nil⟩, .nil⟩
  | .saveTag t drop r, op', ho => by
    cases op' <;> try exact ho.elim
    obtain ⟨rfl, ht, rfl, rfl, hr⟩ := ho
    obtain ⟨a, b, c⟩ := saveTag_sim S h ht _ hr
    exact ⟨both_map a, b, c⟩
  | .save rs, op', ho => by
    cases op' <;> try exact ho.elim
    obtain ⟨rfl, hr⟩ := ho
    obtain ⟨a, b⟩ := saveTags_sim S h _ hr h.cache h.names
    refine ⟨both_map a, h, .cons ?_ b⟩
    unfold Node.manifestWrite
    rw [h.key, h.key', S.root]
    exact ⟨rfl, .inr ⟨rfl, S.manifest _ _ _ h.man (hr _)⟩⟩
  | .loadTags silent now, op', ho => by
    cases op' <;> try exact ho.elim
    obtain ⟨rfl, rfl⟩ := ho
    obtain ⟨a, b⟩ := loadTags_sim S hd _ _ h.man.files h
    exact ⟨both_map a, b, .nil⟩

theorem disk_sim {ws ws' : List Write} (h : List.Forall₂ P.WriteRel ws ws') : ∀ {D D' : Disk}, P.DiskRel D D' → P.DiskRel (D.applyAll ws) (D'.applyAll ws') := by
  induction h with
  | nil => intro D D' hd; exact hd
  | @cons w w' l l' hw _ ih =>
    intro D D' hd
    refine ih fun t ht => ?_
    cases w with
    | put n c =>
      cases w' with
      | unlink n' => exact hw.elim
      | put n' c' =>
        obtain ⟨rfl, hw⟩ := hw
        simp only [Disk.apply]
        split
        · rename_i e
          rcases hw with ⟨_, _, _, hc⟩ | ⟨e', _⟩
          · rw [← e] at hc; exact S.kept t _ _ ht hc
          · exact (S.notRoot t ht (e.trans e')).elim
        · exact hd t ht
    | unlink n =>
      cases w' with
      | put n' c' => exact hw.elim
      | unlink n' =>
        cases (show n = n' from hw)
        simp only [Disk.apply]
        split
        · exact trivial
        · exact hd t ht

end Pair

end Aiootp.Database
