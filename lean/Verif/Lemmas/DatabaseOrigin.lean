import Verif.Lemmas.DatabaseTamper
import Verif.Spec.DatabaseAttack

/-
Where the values of a database come from.
-/

namespace Aiootp.Database

variable {ρ J : Type}

/-- Values that may be in a database: a relation of names and values. -/
structure Clean (key salt : Bytes) (tags : Finset String) (ok : String → Value J → Prop) (n : Node J) : Prop where
  key : n.key = key
  salt : n.man.salt = salt
  files : ∀ p ∈ n.man.files, p.2 ∈ tags
  cache : ∀ p ∈ n.cache, ok p.1 p.2

/-- The files have such values. -/
def Honest (E : Env ρ J) (key salt : Bytes) (tags : Finset String) (ok : String → Value J → Prop) (D : Disk) : Prop :=
  ∀ t ∈ tags, ∀ x, D (E.fileName key salt t) = some x → x ≠ [] → ∀ now ttl v,
    (do let text ← E.decrypt (E.fileKey key salt (E.fileName key salt t)) now ttl x; decodeValue E text) = .ok v → ok (E.fileName key salt t) v

/-- A file that is made of such a value, or the manifest. -/
def Made (E : Env ρ J) (key salt : Bytes) (ok : String → Value J → Prop) (good : ρ → Prop) : Write → Prop
  | .put name x => name = E.rootName key ∨ ∃ v text r, ok name v ∧ good r ∧ encodeValue E v = .ok text ∧ x = E.encrypt (E.fileKey key salt name) r text
  | .unlink _ => True

section
variable {E : Env ρ J} {key salt : Bytes} {tags : Finset String} {ok : String → Value J → Prop} {good : ρ → Prop}

theorem query_clean {n : Node J} (h : Clean key salt tags ok n) {D : Disk} (hD : Honest E key salt tags ok D) {t : String} (ht : t ∈ tags) (ttl : Option Int) (silent cache : Bool) (now : Int) :
    (∀ v, (n.queryTag E D t ttl silent cache now).1 = .ok (some v) → ok (E.fileName key salt t) v) ∧ Clean key salt tags ok (n.queryTag E D t ttl silent cache now).2 := by
  have hD := hD t ht
  unfold Node.queryTag Node.filename
  simp only [h.key, h.salt]
  cases hg : n.cache.get (E.fileName key salt t) with
  | some v =>
    refine ⟨fun w hw => ?_, h⟩
    cases hw
    exact h.cache _ (Dict.mem_of_get hg)
  | none =>
    cases hx : D (E.fileName key salt t) with
    | none =>
      refine ⟨fun w hw => ?_, h⟩
      cases silent <;> cases hw
    | some x =>
      cases x with
      | nil => exact ⟨(fun w hw => by cases hw), h⟩
      | cons b bs =>
        have hD := hD _ hx (List.cons_ne_nil _ _) now ttl
        simp only
        cases hv : (do let text ← E.decrypt (E.fileKey key salt (E.fileName key salt t)) now ttl (b :: bs); decodeValue E text : Except Err (Value J)) with
        | error e => exact ⟨(fun w hw => by cases hw), h⟩
        | ok v =>
          have hD := hD v hv
          refine ⟨fun w hw => ?_, ?_⟩
          · cases hw
            exact hD
          · cases cache with
            | false => exact h
            | true =>
              simp only [if_true]
              refine ⟨rfl, h.salt, h.files, fun p hp => ?_⟩
              rcases Dict.mem_set hp with hp | rfl
              · exact h.cache p hp
              · exact hD

theorem saveFile_clean {n : Node J} (h : Clean key salt tags ok n) {name : String} {r : ρ} (hr : good r) {w : Write} (hw : n.saveFile E name r = .ok w) : Made E key salt ok good w := by
  unfold Node.saveFile at hw
  cases hg : n.cache.get name with
  | none => rw [hg] at hw; cases hw
  | some v =>
    rw [hg] at hw
    simp only at hw
    cases ht : encodeValue E v with
    | error e => rw [ht] at hw; cases hw
    | ok text =>
      rw [ht] at hw
      cases hw
      rw [h.key, h.salt]
      exact .inr ⟨v, text, r, h.cache _ (Dict.mem_of_get hg), hr, ht, rfl⟩

theorem drop_clean {n : Node J} (h : Clean key salt tags ok n) (name : String) (drop : Bool) : Clean key salt tags ok (if drop then { n with cache := n.cache.del name } else n) := by
  cases drop with
  | false => exact h
  | true => exact ⟨h.key, h.salt, h.files, fun p hp => h.cache p (Dict.mem_del hp)⟩

theorem saveTag_clean {n : Node J} (h : Clean key salt tags ok n) (t : String) (drop : Bool) {r : ρ} (hr : good r) :
    Clean key salt tags ok (n.saveTag E t drop r).2.1 ∧ ∀ w ∈ (n.saveTag E t drop r).2.2, Made E key salt ok good w := by
  have hd := drop_clean h (n.filename E t) drop
  unfold Node.saveTag
  simp only
  cases hs : n.saveFile E (n.filename E t) r with
  | ok w =>
    refine ⟨hd, fun w' hw' => ?_⟩
    rw [List.mem_singleton.1 hw']
    exact saveFile_clean h hr hs
  | error e => cases e <;> exact ⟨hd, fun w hw => (List.not_mem_nil hw).elim⟩

theorem saveTags_clean {n : Node J} (h : Clean key salt tags ok n) {rs : String → ρ} (hr : ∀ name, good (rs name)) : ∀ (l : Dict (Value J)), ∀ w ∈ (n.saveTags E rs l).2, Made E key salt ok good w
  | [], w, hw => (List.not_mem_nil hw).elim
  | (name, v) :: rest, w, hw => by
    unfold Node.saveTags at hw
    cases hs : n.saveFile E name (rs name) with
    | error e => rw [hs] at hw; exact (List.not_mem_nil hw).elim
    | ok w' =>
      rw [hs] at hw
      rcases List.mem_cons.1 hw with rfl | hw
      · exact saveFile_clean h (hr name) hs
      · exact saveTags_clean h hr rest w hw

theorem loadTags_clean {D : Disk} (hD : Honest E key salt tags ok D) (silent : Bool) (now : Int) : ∀ (l : List String), (∀ t ∈ l, t ∈ tags) → ∀ {n : Node J}, Clean key salt tags ok n →
    Clean key salt tags ok (Node.loadTags E D silent now l n).2
  | [], _, n, h => h
  | t :: l, hl, n, h => by
    have hq := (query_clean h hD (hl t List.mem_cons_self) none silent true now).2
    unfold Node.loadTags
    generalize n.queryTag E D t none silent true now = x at hq ⊢
    obtain ⟨x1, x2⟩ := x
    cases x1 with
    | ok v => exact loadTags_clean hD silent now l (fun t ht => hl t (List.mem_cons_of_mem _ ht)) hq
    | error e => exact hq

theorem forget_clean {n : Node J} (h : Clean key salt tags ok n) (t : String) : Clean key salt tags ok (n.forget E t) :=
  ⟨h.key, h.salt, fun p hp => h.files p (Dict.mem_del hp), fun p hp => h.cache p (Dict.mem_del hp)⟩

/-- A call keeps to such values. -/
theorem call_clean {n : Node J} (h : Clean key salt tags ok n) {D : Disk} (hD : Honest E key salt tags ok D) {a : Call ρ J} (hu : a.Within tags) (hr : ∀ i d, a.draws i d → good d)
    (hs : ∀ t v, a.Stores t v → ok (E.fileName key salt t) v) :
    (∀ t v, a.Reads t → ((a.op E n).run E n D).1 = .ok (some v) → ok (E.fileName key salt t) v) ∧ Clean key salt tags ok ((a.op E n).run E n D).2.1 ∧
      ∀ w ∈ ((a.op E n).run E n D).2.2, Made E key salt ok good w := by
  cases a with
  | save ds =>
    refine ⟨fun t v hr' => ?_, h, fun w hw => ?_⟩
    · rcases hr' with ⟨_, _, _, _, e⟩ | ⟨_, _, e⟩ <;> cases e
    · rcases List.mem_cons.1 hw with rfl | hw
      · unfold Node.manifestWrite
        rw [h.key]
        exact .inl rfl
      · exact saveTags_clean h (fun name => hr _ _ ⟨_, le_refl _, rfl⟩) _ w hw
  | tags op =>
    have none_read : ∀ {op : Op ρ J}, (∀ t ttl silent cache now, op ≠ .query t ttl silent cache now) → (∀ t silent now, op ≠ .pop t silent now) →
        ∀ t v, (Call.tags op).Reads t → (op.run E n D).1 = .ok (some v) → ok (E.fileName key salt t) v := by
      rintro op h1 h2 t v (⟨_, _, _, _, e⟩ | ⟨_, _, e⟩)
      · cases e; exact (h1 _ _ _ _ _ rfl).elim
      · cases e; exact (h2 _ _ _ rfl).elim
    cases op with
    | set t v cache r =>
      refine ⟨none_read (fun _ _ _ _ _ => by rintro ⟨⟩) (fun _ _ _ => by rintro ⟨⟩), ?_⟩
      have h2 : Clean key salt tags ok { n with cache := n.cache.set (n.filename E t) v, man := { n.man with files := n.man.files.set (n.filename E t) t } } := by
        refine ⟨h.key, h.salt, fun p hp => ?_, fun p hp => ?_⟩
        · rcases Dict.mem_set hp with hp | rfl
          · exact h.files p hp
          · exact hu
        · rcases Dict.mem_set hp with hp | rfl
          · exact h.cache p hp
          · show ok (E.fileName n.key n.man.salt t) v
            rw [h.key, h.salt]
            exact hs t v ⟨cache, r, rfl⟩
      show Clean key salt tags ok (n.setTag E t v cache r).2.1 ∧ ∀ w ∈ (n.setTag E t v cache r).2.2, _
      unfold Node.setTag
      cases cache with
      | true => exact ⟨h2, fun w hw => (List.not_mem_nil hw).elim⟩
      | false => exact saveTag_clean h2 t true (hr 0 _ rfl)
    | query t ttl silent cache now =>
      have hq := query_clean h hD (show t ∈ tags from hu) ttl silent cache now
      refine ⟨fun t' v hr' hv => ?_, hq.2, fun w hw => (List.not_mem_nil hw).elim⟩
      rcases hr' with ⟨_, _, _, _, e⟩ | ⟨_, _, e⟩
      · cases e
        exact hq.1 v hv
      · cases e
    | pop t silent now =>
      have hq := (query_clean h hD (show t ∈ tags from hu) none true false now).1
      show (∀ t' v, _ → (n.popTag E D t silent now).1 = _ → _) ∧ Clean key salt tags ok (n.popTag E D t silent now).2.1 ∧ ∀ w ∈ (n.popTag E D t silent now).2.2, _
      unfold Node.popTag
      simp only
      cases hx : (n.queryTag E D t none true false now).1 with
      | error e => exact ⟨(fun _ _ _ hv => by cases hv), h, fun w hw => (List.not_mem_nil hw).elim⟩
      | ok value =>
        refine ⟨fun t' v hr' hv => ?_, forget_clean h t, fun w hw => ?_⟩
        · rcases hr' with ⟨_, _, _, _, e⟩ | ⟨_, _, e⟩
          · cases e
          · cases e
            simp only at hv
            split at hv
            · cases hv
            · cases hv
              exact hq v hx
        · rw [List.mem_singleton.1 hw]
          trivial
    | delItem t =>
      refine ⟨none_read (fun _ _ _ _ _ => by rintro ⟨⟩) (fun _ _ _ => by rintro ⟨⟩), forget_clean h t, fun w hw => ?_⟩
      rw [List.mem_singleton.1 hw]
      trivial
    | rollback t cache now =>
      refine ⟨none_read (fun _ _ _ _ _ => by rintro ⟨⟩) (fun _ _ _ => by rintro ⟨⟩), ?_, fun w hw => (List.not_mem_nil hw).elim⟩
      show Clean key salt tags ok (n.rollbackTag E D t cache now).2
      unfold Node.rollbackTag
      simp only
      have h2 : Clean key salt tags ok { n with cache := n.cache.del (n.filename E t), man := { n.man with files := if (D (n.filename E t)).isNone then n.man.files.del (n.filename E t) else n.man.files } } := by
        refine ⟨h.key, h.salt, fun p hp => ?_, fun p hp => h.cache p (Dict.mem_del hp)⟩
        simp only at hp
        split at hp
        · exact h.files p (Dict.mem_del hp)
        · exact h.files p hp
      cases cache with
      | false => exact h2
      | true =>
        have hq := (query_clean h2 hD (show t ∈ tags from hu) none false true now).2
        simp only [if_true]
        generalize Node.queryTag E _ D t none false true now = x at hq ⊢
        obtain ⟨x1, x2⟩ := x
        cases x1 with
        | ok v => exact hq
        | error e => cases e <;> exact hq
    | clearCache =>
      exact ⟨none_read (fun _ _ _ _ _ => by rintro ⟨⟩) (fun _ _ _ => by rintro ⟨⟩), ⟨h.key, h.salt, h.files, fun p hp => (List.not_mem_nil hp).elim⟩, fun w hw => (List.not_mem_nil hw).elim⟩
    | saveTag t drop r =>
      exact ⟨none_read (fun _ _ _ _ _ => by rintro ⟨⟩) (fun _ _ _ => by rintro ⟨⟩), saveTag_clean h t drop (hr 0 _ rfl)⟩
    | save rs => exact (show False from hu).elim
    | loadTags silent now =>
      refine ⟨none_read (fun _ _ _ _ _ => by rintro ⟨⟩) (fun _ _ _ => by rintro ⟨⟩), ?_, fun w hw => (List.not_mem_nil hw).elim⟩
      refine loadTags_clean hD silent now n.tags (fun t ht => ?_) h
      obtain ⟨p, hp, rfl⟩ := List.mem_map.1 ht
      exact h.files p hp

end

theorem applied_put {name : String} {x : Bytes} : ∀ (ws : List Write) {D : Disk}, D.applyAll ws name = some x → D name = some x ∨ .put name x ∈ ws
  | [], _, h => .inl h
  | w :: ws, D, h => by
    rcases applied_put ws (D := D.apply w) h with h | h
    · cases w with
      | put n y =>
        simp only [Disk.apply] at h
        split at h
        · rename_i e
          cases h
          rw [e]
          exact .inr List.mem_cons_self
        · exact .inl h
      | unlink n =>
        simp only [Disk.apply] at h
        split at h
        · cases h
        · exact .inl h
    · exact .inr (List.mem_cons_of_mem _ h)

section
open Cipher (Draws Sizes)
variable {E : Env Draws J} {key salt : Bytes} {tags : Finset String} {c : Sizes}

/-- The value was stored with the tag that has this name. -/
def StoredAs (E : Env Draws J) (f : Attacker Draws J) (key salt : Bytes) (tags : Finset String) (n : Nat) (name : String) (v : Value J) : Prop :=
  ∃ t ∈ tags, name = E.fileName key salt t ∧ ∃ j < n, (f (attacked E f key salt j).2).2.Stores t v

theorem Made.imp {ok ok' : String → Value J → Prop} {good : Draws → Prop} (h : ∀ name v, ok name v → ok' name v) {w : Write} (hw : Made E key salt ok good w) : Made E key salt ok' good w := by
  cases w with
  | unlink n => trivial
  | put n x =>
    rcases hw with hw | ⟨v, text, r, h1, h2⟩
    · exact .inl hw
    · exact .inr ⟨v, text, r, h _ _ h1, h2⟩

theorem origin (ho : Opens E c) (hf : ∀ name, KeySize (E.fileKey key salt name)) (hroot : ∀ t ∈ tags, E.fileName key salt t ≠ E.rootName key)
    {f : Attacker Draws J} (hw : ∀ seen, (f seen).2.Within tags) (hfit : ∀ seen i d, (f seen).2.draws i d → d.Fit c)
    (hcodec : ∀ seen t v, (f seen).2.Stores t v → ∀ text, encodeValue E v = .ok text → decodeValue E text = .ok v) :
    ∀ n, (∀ i < n, ∀ r : Reading J, r.Of key salt tags → ¬ Deceived E key (written (attacked E f key salt i).2) (f (attacked E f key salt i).2).1 r) →
      Clean key salt tags (StoredAs E f key salt tags n) (attacked E f key salt n).1 ∧
      (∀ w ∈ (written (attacked E f key salt n).2).flatten, Made E key salt (StoredAs E f key salt tags n) (·.Fit c) w) ∧
      ∀ i < n, ∀ t v, (f (attacked E f key salt i).2).2.Reads t → (attacked E f key salt (i + 1)).2.getLast?.map (·.1) = some (.ok (some v)) →
        StoredAs E f key salt tags (i + 1) (E.fileName key salt t) v
  | 0, _ => ⟨⟨rfl, rfl, fun p hp => (List.not_mem_nil hp).elim, fun p hp => (List.not_mem_nil hp).elim⟩, fun w hw => (List.not_mem_nil hw).elim, fun i hi => (Nat.not_lt_zero i hi).elim⟩
  | n + 1, hno => by
    obtain ⟨ih1, ih2, ih3⟩ := origin ho hf hroot hw hfit hcodec n fun i hi => hno i (Nat.lt_succ_of_lt hi)
    have hup : ∀ name v, StoredAs E f key salt tags n name v → StoredAs E f key salt tags (n + 1) name v := by
      rintro name v ⟨t, ht, e, j, hj, hs⟩
      exact ⟨t, ht, e, j, Nat.lt_succ_of_lt hj, hs⟩
    have hD : Honest E key salt tags (StoredAs E f key salt tags (n + 1)) (f (attacked E f key salt n).2).1 := by
      intro t ht x hx hne now ttl v hv
      have gives : ∀ (D : Disk) (y : Bytes), D (E.fileName key salt t) = some y → y ≠ [] → (Reading.query (newNode key salt) t ttl true false now).gives E key D =
          match (do let text ← E.decrypt (E.fileKey key salt (E.fileName key salt t)) now ttl y; decodeValue E text) with
          | .ok v => some (.inl v)
          | .error _ => none := by
        intro D y hy hyne
        cases y with
        | nil => exact (hyne rfl).elim
        | cons b bs =>
          simp only [Reading.gives, Node.queryTag, Node.filename, newNode, Dict.get, hy]
          cases (do let text ← E.decrypt (E.fileKey key salt (E.fileName key salt t)) now ttl (b :: bs); decodeValue E text : Except Err (Value J)) <;> rfl
      have h1 := hno n (Nat.lt_succ_self n) (.query (newNode key salt) t ttl true false now) ⟨rfl, rfl, ht⟩
      have g1 := gives _ _ hx hne
      rw [hv] at g1
      have h2 : ∃ past, past <+: (written (attacked E f key salt n).2).flatten ∧ (Reading.query (newNode key salt) t ttl true false now).gives E key (noFiles.applyAll past) = some (.inl v) := by
        refine Classical.byContradiction fun hn => h1 ⟨.inl v, g1, fun past hp hg => hn ⟨past, hp, hg⟩⟩
      obtain ⟨past, hp, hg⟩ := h2
      cases hy : noFiles.applyAll past (E.fileName key salt t) with
      | none => simp [Reading.gives, Node.queryTag, Node.filename, newNode, Dict.get, hy] at hg
      | some y =>
        have hyne : y ≠ [] := by
          rintro rfl
          simp [Reading.gives, Node.queryTag, Node.filename, newNode, Dict.get, hy] at hg
        rw [gives _ _ hy hyne] at hg
        rcases applied_put past hy with h3 | h3
        · cases h3
        · rcases ih2 _ (hp.subset h3) with h4 | ⟨v', text, d, h4, hd, h5, rfl⟩
          · exact (hroot t ht h4).elim
          · obtain ⟨t', ht', e', j, hj, hs⟩ := h4
            have h6 := hcodec _ _ _ hs text h5
            have h7 := (ho (E.fileKey key salt (E.fileName key salt t)) d text (hf _) hd).2 now ttl
            rw [h7] at hg
            have hvv : v' = v := by
              cases hop : opened d now ttl text with
              | error e => rw [hop] at hg; cases hg
              | ok text' =>
                have : text' = text := by
                  unfold opened at hop
                  cases ttl with
                  | none => cases hop; rfl
                  | some ttl =>
                    simp only at hop
                    split at hop
                    · cases hop
                    · cases hop; rfl
                rw [hop, this] at hg
                simp only [bind, Except.bind, h6] at hg
                cases hg
                rfl
            exact hup _ _ ⟨t', ht', e', j, hj, hvv ▸ hs⟩
    have hc : Clean key salt tags (StoredAs E f key salt tags (n + 1)) (attacked E f key salt n).1 := ⟨ih1.key, ih1.salt, ih1.files, fun p hp => hup _ _ (ih1.cache p hp)⟩
    obtain ⟨a1, a2, a3⟩ := call_clean (good := (·.Fit c)) hc hD (hw _) (hfit _) fun t v hs => by
      have ht : t ∈ tags := by
        obtain ⟨_, _, e⟩ := hs
        have := hw (attacked E f key salt n).2
        rw [e] at this
        exact this
      exact ⟨t, ht, rfl, n, Nat.lt_succ_self n, hs⟩
    refine ⟨a2, fun w hw' => ?_, fun i hi t v hr hv => ?_⟩
    · rw [attacked, written, List.map_append, List.flatten_append] at hw'
      rcases List.mem_append.1 hw' with hw' | hw'
      · exact (ih2 w hw').imp hup
      · simp only [List.map_cons, List.map_nil, List.flatten_cons, List.flatten_nil, List.append_nil] at hw'
        exact a3 w hw'
    · rcases Nat.lt_succ_iff_lt_or_eq.1 hi with hi | rfl
      · exact ih3 i hi t v hr hv
      · refine a1 t v hr ?_
        simp only [attacked, List.getLast?_append, List.getLast?_singleton, Option.some_or, Option.map_some, Option.some.injEq] at hv
        exact hv

/-- Values that are returned were stored. -/
theorem not_invented (ho : Opens E c) (hf : ∀ name, KeySize (E.fileKey key salt name)) (hroot : ∀ t ∈ tags, E.fileName key salt t ≠ E.rootName key)
    (hnames : ∀ t ∈ tags, ∀ u ∈ tags, E.fileName key salt t = E.fileName key salt u → t = u)
    {f : Attacker Draws J} (hw : ∀ seen, (f seen).2.Within tags) (hfit : ∀ seen i d, (f seen).2.draws i d → d.Fit c)
    (hcodec : ∀ seen t v, (f seen).2.Stores t v → ∀ text, encodeValue E v = .ok text → decodeValue E text = .ok v) {n : Nat}
    (hno : ∀ i < n, ∀ r : Reading J, r.Of key salt tags → ¬ Deceived E key (written (attacked E f key salt i).2) (f (attacked E f key salt i).2).1 r) : ¬ Invented E f key salt n := by
  rintro ⟨i, hi, t, v, hr, hv, hnone⟩
  obtain ⟨t', ht', e, j, hj, hs⟩ := (origin ho hf hroot hw hfit hcodec n hno).2.2 i hi t v hr hv
  have ht : t ∈ tags := by
    have := hw (attacked E f key salt i).2
    rcases hr with ⟨_, _, _, _, e⟩ | ⟨_, _, e⟩ <;> rw [e] at this <;> exact this
  cases hnames t ht t' ht' e
  rcases Nat.lt_succ_iff_lt_or_eq.1 hj with hj | rfl
  · exact hnone j hj hs
  · obtain ⟨_, _, es⟩ := hs
    rcases hr with ⟨_, _, _, _, e⟩ | ⟨_, _, e⟩ <;> rw [es] at e <;> cases e

end

end Aiootp.Database
