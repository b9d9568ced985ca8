import Verif.Model.AsyncDb
import Verif.Spec.Database
import Verif.Lemmas.Database

namespace Aiootp.AsyncDb

open Database

variable {ρ J : Type} {E : Env ρ J}

/-! ### a call alone -/

/-- The next step of a call that is not interrupted. -/
def Local.next (E : Env ρ J) (op : Op ρ J) (l : Local J) : Local J :=
  match l.pc with
  | .ended _ => l
  | pc => tagStep E l.node l.disk op pc

def Local.iter (E : Env ρ J) (op : Op ρ J) : Nat → Local J → Local J
  | 0, l => l
  | n + 1, l => (Local.iter E op n l).next E op

theorem Local.next_ended (op : Op ρ J) (n : Node J) (d : Disk) (x : Except Err (Option (Value J))) :
    Local.next E op ⟨n, d, .ended x⟩ = ⟨n, d, .ended x⟩ := rfl

/-- How a call of the synchronous class ends. -/
def syncEnd (E : Env ρ J) (n : Node J) (disk : Disk) (op : Op ρ J) : Local J :=
  let x := op.run E n disk
  ⟨x.2.1, disk.applyAll x.2.2, .ended x.1⟩

theorem overwrite_empty (disk : Disk) (f : String) (data : Bytes) : overwrite (disk.apply (.put f [])) f data = disk.apply (.put f data) := by
  funext n
  simp only [overwrite, Disk.apply]
  split <;> simp

theorem iter_save (n : Node J) (disk : Disk) (tag : String) (drop : Bool) (r : ρ) (op : Op ρ J) (k : Nat)
    (hstart : Local.iter E op (k + 1) ⟨n, disk, .start⟩ = saveStep E (n.filename E tag) drop r n disk .begin)
    (hop : ∀ (n' : Node J) (disk' : Disk) (s : Save), n'.key = n.key → n'.man.salt = n.man.salt →
      tagStep E n' disk' op (.saving s drop) = saveStep E (n.filename E tag) drop r n' disk' s) :
    Local.iter E op (k + 4) ⟨n, disk, .start⟩ =
      ⟨(n.saveTag E tag drop r).2.1, disk.applyAll (n.saveTag E tag drop r).2.2, .ended ((n.saveTag E tag drop r).1.map (fun _ => none))⟩ := by
  have e4 : Local.iter E op (k + 4) ⟨n, disk, .start⟩ =
      (((Local.iter E op (k + 1) ⟨n, disk, .start⟩).next E op).next E op).next E op := rfl
  rw [e4, hstart]
  have h2 := hop n
  cases hc : n.cache.get (n.filename E tag) with
  | none => simp [saveStep, Save.step, hc, Local.next, Node.saveTag, Node.saveFile, Except.map, Disk.applyAll]
  | some v =>
    cases hv : encodeValue E v with
    | error e =>
      cases e <;> simp [saveStep, Save.step, hc, hv, Local.next, Node.saveTag, Node.saveFile, Except.map, Disk.applyAll, bind, Except.bind]
    | ok text =>
      have s1 : saveStep E (n.filename E tag) drop r n disk .begin = ⟨n, disk, .saving (.opening (E.encrypt (E.fileKey n.key n.man.salt (n.filename E tag)) r text)) drop⟩ := by
        simp [saveStep, Save.step, hc, hv]
      rw [s1]
      simp only [Local.next]
      rw [h2 _ _ rfl rfl]
      simp only [saveStep, Save.step]
      rw [h2 _ _ rfl rfl]
      simp only [saveStep, Save.step]
      rw [h2 _ _ rfl rfl]
      simp only [saveStep]
      rw [overwrite_empty]
      simp [Node.saveTag, Node.saveFile, hc, hv, Except.map, Disk.applyAll, bind, Except.bind]

theorem Local.iter_ended {op : Op ρ J} {l : Local J} {x : Except Err (Option (Value J))} (h : l.pc = .ended x) (k : Nat) : Local.iter E op k l = l := by
  induction k with
  | zero => rfl
  | succ k ih =>
    show (Local.iter E op k l).next E op = l
    rw [ih]
    simp [Local.next, h]

theorem Local.iter_add (op : Op ρ J) (j k : Nat) (l : Local J) : Local.iter E op (j + k) l = Local.iter E op j (Local.iter E op k l) := by
  induction j with
  | zero => simp [Local.iter]
  | succ j ih =>
    have : j + 1 + k = (j + k) + 1 := by omega
    rw [this]
    show (Local.iter E op (j + k) l).next E op = _
    rw [ih]
    rfl

/-- A call on a tag that is not interrupted ends after five steps at most, and does what the synchronous class does. -/
theorem iter_five {op : Op ρ J} {t : String} (ht : op.tag? = some t) (n : Node J) (disk : Disk) :
    Local.iter E op 5 ⟨n, disk, .start⟩ = syncEnd E n disk op := by
  cases op with
  | clearCache => cases ht
  | save rs => cases ht
  | loadTags a b => cases ht
  | set tag data cache r =>
    cases cache with
    | true =>
      have : Local.iter E (.set tag data true r) 1 ⟨n, disk, .start⟩ = syncEnd E n disk (.set tag data true r) := by
        simp [Local.iter, Local.next, tagStep, syncEnd, Op.run, Node.setTag, Except.map, Disk.applyAll]
      rw [show (5 : Nat) = 4 + 1 from rfl, Local.iter_add, this]
      exact Local.iter_ended (x := ((Op.set tag data true r).run E n disk).1) rfl 4
    | false =>
      let n' : Node J := { n with cache := n.cache.set (n.filename E tag) data, man := { n.man with files := n.man.files.set (n.filename E tag) tag } }
      have h := iter_save (E := E) n' disk tag true r (.saveTag tag true r) 0 (by simp [Local.iter, Local.next, tagStep]) (by
        intro n'' d s hk hs
        simp [tagStep, Node.filename, hk, hs])
      -- the steps after the first one are those of `asave_tag`
      have h1 : Local.iter E (.set tag data false r) 1 ⟨n, disk, .start⟩ = ⟨n', disk, .saving .begin true⟩ := by
        simp [Local.iter, Local.next, tagStep, n']
      have same : ∀ (l : Local J), (∃ s, l.pc = .saving s true) ∨ (∃ x, l.pc = .ended x) →
          Local.next E (.set tag data false r) l = Local.next E (.saveTag tag true r) l := by
        rintro ⟨a, b, c⟩ (⟨s, rfl⟩ | ⟨x, rfl⟩) <;> rfl
      have stays : ∀ (l : Local J), (∃ s, l.pc = .saving s true) ∨ (∃ x, l.pc = .ended x) →
          (∃ s, (Local.next E (.saveTag tag true r) l).pc = .saving s true) ∨ (∃ x, (Local.next E (.saveTag tag true r) l).pc = .ended x) := by
        rintro ⟨a, b, c⟩ (⟨s, rfl⟩ | ⟨x, rfl⟩)
        · simp only [Local.next, tagStep, saveStep]
          split
          · exact .inr ⟨_, rfl⟩
          · split
            · exact .inr ⟨_, rfl⟩
            · exact .inl ⟨_, rfl⟩
        · exact .inr ⟨x, rfl⟩
      have first : Local.next E (.saveTag tag true r) ⟨n', disk, .saving .begin true⟩ = Local.next E (.saveTag tag true r) ⟨n', disk, .start⟩ := rfl
      have l1 : ∀ j, Local.iter E (.set tag data false r) (j + 1) ⟨n', disk, .saving .begin true⟩ = Local.iter E (.saveTag tag true r) (j + 1) ⟨n', disk, .start⟩ ∧
          ((∃ s, (Local.iter E (.saveTag tag true r) (j + 1) ⟨n', disk, .start⟩).pc = .saving s true) ∨
           (∃ x, (Local.iter E (.saveTag tag true r) (j + 1) ⟨n', disk, .start⟩).pc = .ended x)) := by
        intro j
        induction j with
        | zero =>
          have hs := stays ⟨n', disk, .saving .begin true⟩ (.inl ⟨_, rfl⟩)
          rw [first] at hs
          exact ⟨(same _ (.inl ⟨_, rfl⟩)).trans first, hs⟩
        | succ j ih =>
          refine ⟨?_, stays _ ih.2⟩
          show Local.next E _ (Local.iter E (.set tag data false r) (j + 1) _) = Local.next E _ (Local.iter E (.saveTag tag true r) (j + 1) _)
          rw [ih.1]
          exact same _ ih.2
      rw [show (5 : Nat) = 4 + 1 from rfl, Local.iter_add, h1, (l1 3).1, h]
      simp only [syncEnd, Op.run, Node.setTag, if_neg (by decide : ¬ (false = true))]
      rfl
  | query tag ttl silent cache now =>
    have e5 : ∀ l, Local.iter E (.query tag ttl silent cache now) 5 l = ((((l.next E (.query tag ttl silent cache now)).next E (.query tag ttl silent cache now)).next E (.query tag ttl silent cache now)).next E (.query tag ttl silent cache now)).next E (.query tag ttl silent cache now) := fun _ => rfl
    rw [e5]
    cases hc : n.cache.get (n.filename E tag) with
    | some v => simp [Local.next, tagStep, queryLook, Look.step, hc, syncEnd, Op.run, Node.queryTag, Disk.applyAll]
    | none =>
      match hd : disk (n.filename E tag) with
      | none => simp [Local.next, tagStep, queryLook, Look.step, hc, hd, syncEnd, Op.run, Node.queryTag, Disk.applyAll]
      | some [] => simp [Local.next, tagStep, queryLook, Look.step, hc, hd, syncEnd, Op.run, Node.queryTag, Disk.applyAll]
      | some (c :: cs) =>
        cases hx : (do let text ← E.decrypt (E.fileKey n.key n.man.salt (n.filename E tag)) now ttl (c :: cs); decodeValue E text) <;>
          simp [Local.next, tagStep, queryLook, Look.step, hc, hd, hx, syncEnd, Op.run, Node.queryTag, Disk.applyAll]
  | pop tag silent now =>
    have e5 : ∀ l, Local.iter E (.pop tag silent now) 5 l = ((((l.next E (.pop tag silent now)).next E (.pop tag silent now)).next E (.pop tag silent now)).next E (.pop tag silent now)).next E (.pop tag silent now) := fun _ => rfl
    rw [e5]
    cases hc : n.cache.get (n.filename E tag) with
    | some v =>
      simp [Local.next, tagStep, popLook, Look.step, hc, syncEnd, Op.run, Node.popTag, Node.queryTag, Node.forget, Node.filename, Disk.applyAll]
      simp [Node.filename] at hc
      simp [hc]
    | none =>
      match hd : disk (n.filename E tag) with
      | none =>
        simp [Local.next, tagStep, popLook, Look.step, hc, hd, syncEnd, Op.run, Node.popTag, Node.queryTag, Node.forget, Disk.applyAll]
        simp [Node.filename] at hd
        simp [Node.filename, hd]
        split <;> rename_i h <;> simp [h]
      | some [] =>
        simp [Local.next, tagStep, popLook, Look.step, hc, hd, syncEnd, Op.run, Node.popTag, Node.queryTag, Node.forget, Disk.applyAll]
        simp [Node.filename] at hd
        simp [Node.filename, hd]
      | some (c :: cs) =>
        cases hx : (do let text ← E.decrypt (E.fileKey n.key n.man.salt (n.filename E tag)) now none (c :: cs); decodeValue E text) with
        | error e => simp [Local.next, tagStep, popLook, Look.step, hc, hd, hx, syncEnd, Op.run, Node.popTag, Node.queryTag, Node.forget, Disk.applyAll]
        | ok v =>
          simp [Local.next, tagStep, popLook, Look.step, hc, hd, hx, syncEnd, Op.run, Node.popTag, Node.queryTag, Node.forget, Disk.applyAll]
          simp [Node.filename] at hd
          simp [Node.filename, hd]
  | delItem tag => simp [Local.iter, Local.next, tagStep, syncEnd, Op.run, Disk.applyAll]
  | saveTag tag drop r =>
    have h := iter_save (E := E) n disk tag drop r (.saveTag tag drop r) 0 (by simp [Local.iter, Local.next, tagStep]) (by
      intro n' d s hk hs
      simp [tagStep, Node.filename, hk, hs])
    rw [show (5 : Nat) = 1 + 4 from rfl, Local.iter_add, h]
    exact Local.iter_ended (x := ((n.saveTag E tag drop r).1.map (fun _ => none))) rfl 1
  | rollback tag cache now =>
    have e5 : ∀ l, Local.iter E (.rollback tag cache now) 5 l = ((((l.next E (.rollback tag cache now)).next E (.rollback tag cache now)).next E (.rollback tag cache now)).next E (.rollback tag cache now)).next E (.rollback tag cache now) := fun _ => rfl
    rw [e5]
    cases cache with
    | false => simp [Local.next, tagStep, syncEnd, Op.run, Node.rollbackTag, Disk.applyAll, Except.map]
    | true =>
      have hc : (n.cache.del (n.filename E tag)).get (n.filename E tag) = none := by simp [Dict.get_del]
      match hd : disk (n.filename E tag) with
      | none =>
        simp only [Node.filename] at hc hd
        simp [Local.next, tagStep, Look.step, hc, hd, syncEnd, Op.run, Node.rollbackTag, Node.queryTag, Disk.applyAll, Node.filename, Except.map]
      | some [] =>
        simp only [Node.filename] at hc hd
        simp [Local.next, tagStep, Look.step, hc, hd, syncEnd, Op.run, Node.rollbackTag, Node.queryTag, Disk.applyAll, Node.filename, Except.map]
      | some (c :: cs) =>
        simp only [Node.filename] at hc hd
        cases hx : (do let text ← E.decrypt (E.fileKey n.key n.man.salt (E.fileName n.key n.man.salt tag)) now none (c :: cs); decodeValue E text) with
        | ok v => simp [Local.next, tagStep, Look.step, hc, hd, hx, syncEnd, Op.run, Node.rollbackTag, Node.queryTag, Disk.applyAll, Node.filename, Except.map]
        | error e =>
          cases e <;> simp [Local.next, tagStep, Look.step, hc, hd, hx, syncEnd, Op.run, Node.rollbackTag, Node.queryTag, Disk.applyAll, Node.filename, Except.map]

/-! ### other tags -/

/-- Two databases agree about a file: its value in the cache, its record, and its contents. -/
structure Same (f : String) (n n' : Node J) (d d' : Disk) : Prop where
  cache : n.cache.get f = n'.cache.get f
  files : n.man.files.get f = n'.man.files.get f
  disk : d f = d' f

theorem Same.refl (f : String) (n : Node J) (d : Disk) : Same f n n d d := ⟨rfl, rfl, rfl⟩

theorem Same.trans {f : String} {n n' n'' : Node J} {d d' d'' : Disk} (h : Same f n n' d d') (h' : Same f n' n'' d' d'') : Same f n n'' d d'' :=
  ⟨h.cache.trans h'.cache, h.files.trans h'.files, h.disk.trans h'.disk⟩

theorem Same.symm {f : String} {n n' : Node J} {d d' : Disk} (h : Same f n n' d d') : Same f n' n d' d :=
  ⟨h.cache.symm, h.files.symm, h.disk.symm⟩

theorem look_frame (n : Node J) (disk : Disk) (filename : String) (ttl : Option Int) (silent cache : Bool) (now : Int) (l : Look J) :
    let n' := (l.step E n disk filename ttl silent cache now).2
    n'.key = n.key ∧ n'.man = n.man ∧ ∀ f, f ≠ filename → n'.cache.get f = n.cache.get f := by
  cases l with
  | lookup => simp only [Look.step]; split <;> simp
  | reading => simp only [Look.step]; split <;> simp
  | found x => simp [Look.step]
  | decrypting c =>
    simp only [Look.step]
    split
    · simp
    · cases cache
      · simp
      · simp only [if_true]
        exact ⟨trivial, trivial, fun f hf => by simp [Dict.get_set, hf]⟩

theorem save_frame (n : Node J) (disk : Disk) (filename : String) (r : ρ) (s : Save) : ∀ f, f ≠ filename → (s.step E n disk filename r).2 f = disk f := by
  intro f hf
  cases s with
  | begin => simp only [Save.step]; split <;> (try split) <;> rfl
  | opening d => simp [Save.step, Disk.apply, hf]
  | writing d => simp [Save.step, overwrite, hf]
  | ended x => rfl

/-- What a step of a call on a tag does not touch. -/
structure Framed (filename : String) (n : Node J) (disk : Disk) (l : Local J) : Prop where
  key : l.node.key = n.key
  salt : l.node.man.salt = n.man.salt
  same : ∀ f, f ≠ filename → Same f l.node n l.disk disk

theorem saveStep_frame (n : Node J) (disk : Disk) (filename : String) (drop : Bool) (r : ρ) (s : Save) :
    Framed filename n disk (saveStep E filename drop r n disk s) := by
  have fin : ∀ (d : Disk) (pc : Pc J), (∀ f, f ≠ filename → d f = disk f) →
      Framed filename n disk ⟨if drop then { n with cache := n.cache.del filename } else n, d, pc⟩ := by
    intro d pc hd
    cases drop
    · exact ⟨rfl, rfl, fun f hf => ⟨rfl, rfl, hd f hf⟩⟩
    · exact ⟨rfl, rfl, fun f hf => ⟨by simp [Dict.get_del, hf], rfl, hd f hf⟩⟩
  cases s with
  | ended x => exact fin _ _ (fun _ _ => rfl)
  | begin =>
    simp only [saveStep, Save.step]
    cases hc : n.cache.get filename with
    | none => exact fin _ _ (fun _ _ => rfl)
    | some v =>
      simp only
      cases hv : encodeValue E v with
      | error e => exact fin _ _ (fun _ _ => rfl)
      | ok text => exact ⟨rfl, rfl, fun f _ => Same.refl f n disk⟩
  | opening data => exact ⟨rfl, rfl, fun f hf => ⟨rfl, rfl, by simp [saveStep, Save.step, Disk.apply, hf]⟩⟩
  | writing data => exact ⟨rfl, rfl, fun f hf => ⟨rfl, rfl, by simp [saveStep, Save.step, overwrite, hf]⟩⟩

theorem tagStep_frame {op : Op ρ J} {t : String} (ht : op.tag? = some t) (n : Node J) (disk : Disk) (pc : Pc J) :
    Framed (n.filename E t) n disk (tagStep E n disk op pc) := by
  have keep : ∀ pc : Pc J, Framed (n.filename E t) n disk ⟨n, disk, pc⟩ := fun _ => ⟨rfl, rfl, fun f _ => Same.refl f n disk⟩
  have look : ∀ (ttl : Option Int) (silent cache : Bool) (now : Int) (l : Look J) (pc : Pc J),
      Framed (n.filename E t) n disk ⟨(l.step E n disk (n.filename E t) ttl silent cache now).2, disk, pc⟩ := by
    intro ttl silent cache now l pc
    obtain ⟨h1, h2, h3⟩ := look_frame (E := E) n disk (n.filename E t) ttl silent cache now l
    exact ⟨h1, by rw [h2], fun f hf => ⟨h3 f hf, by rw [h2], rfl⟩⟩
  have pop : ∀ (now : Int) (l : Look J), Framed (n.filename E t) n disk (popLook E (n.filename E t) n disk now l) := by
    intro now l
    obtain ⟨h1, h2, h3⟩ := look_frame (E := E) n disk (n.filename E t) none true false now l
    unfold popLook
    split
    · rename_i h; rw [h] at h1 h2 h3; exact ⟨h1, by rw [h2], fun f hf => ⟨h3 f hf, by rw [h2], rfl⟩⟩
    · rename_i h; rw [h] at h1 h2 h3
      dsimp only at h1 h2 h3
      exact ⟨h1, by simp only [h2], fun f hf => ⟨by simp only [Dict.get_del, if_neg hf]; exact h3 f hf, by simp [Dict.get_del, hf, h2], rfl⟩⟩
    · rename_i h; rw [h] at h1 h2 h3; exact ⟨h1, by rw [h2], fun f hf => ⟨h3 f hf, by rw [h2], rfl⟩⟩
  cases op with
  | clearCache => cases ht
  | save rs => cases ht
  | loadTags a b => cases ht
  | set tag data cache r =>
    cases ht
    cases pc with
    | start => exact ⟨rfl, rfl, fun f hf => ⟨by simp [tagStep, Dict.get_set, hf], by simp [tagStep, Dict.get_set, hf], rfl⟩⟩
    | saving s drop => exact saveStep_frame ..
    | _ => exact keep _
  | saveTag tag drop r =>
    cases ht
    cases pc with
    | start => exact saveStep_frame (E := E) n disk (n.filename E t) drop r .begin
    | saving s drop => exact saveStep_frame ..
    | _ => exact keep _
  | query tag ttl silent cache now =>
    cases ht
    cases pc with
    | start =>
      have := look ttl silent cache now .lookup
      simp only [tagStep, queryLook]
      split <;> (rename_i h; rw [h] at this; exact this _)
    | looking l =>
      have := look ttl silent cache now l
      simp only [tagStep, queryLook]
      split <;> (rename_i h; rw [h] at this; exact this _)
    | _ => exact keep _
  | pop tag silent now =>
    cases ht
    cases pc with
    | start => exact pop now .lookup
    | looking l => exact pop now l
    | removing v failed => exact ⟨rfl, rfl, fun f hf => ⟨rfl, rfl, by simp [tagStep, Disk.apply, hf]⟩⟩
    | _ => exact keep _
  | delItem tag =>
    cases ht
    cases pc with
    | start => exact ⟨rfl, rfl, fun f hf => ⟨by simp [tagStep, Node.forget, Dict.get_del, hf], by simp [tagStep, Node.forget, Dict.get_del, hf], by simp [tagStep, Disk.apply, hf]⟩⟩
    | _ => exact keep _
  | rollback tag cache now =>
    cases ht
    cases pc with
    | start =>
      refine ⟨rfl, rfl, fun f hf => ⟨by simp [tagStep, Dict.get_del, hf], ?_, rfl⟩⟩
      simp only [tagStep]
      split
      · simp [Dict.get_del, hf]
      · rfl
    | looking l =>
      have := look none false true now l
      simp only [tagStep]
      split <;> (rename_i h; rw [h] at this; exact this _)
    | _ => exact keep _

/-! ### the same tag -/

/-- Two states of a call that agree about its file and its place. -/
structure Alike (f : String) (l l' : Local J) : Prop where
  key : l.node.key = l'.node.key
  salt : l.node.man.salt = l'.node.man.salt
  pc : l.pc = l'.pc
  same : Same f l.node l'.node l.disk l'.disk

theorem look_alike {n n' : Node J} {d d' : Disk} {f : String} (hk : n.key = n'.key) (hs : n.man.salt = n'.man.salt) (h : Same f n n' d d')
    (ttl : Option Int) (silent cache : Bool) (now : Int) (l : Look J) :
    (l.step E n d f ttl silent cache now).1 = (l.step E n' d' f ttl silent cache now).1 ∧
    (l.step E n d f ttl silent cache now).2.cache.get f = (l.step E n' d' f ttl silent cache now).2.cache.get f := by
  cases l with
  | lookup =>
    simp only [Look.step, h.cache]
    cases hc : n'.cache.get f <;> simp [h.cache]
  | reading =>
    simp only [Look.step, h.disk]
    match hd : d' f with
    | none => simp [h.cache]
    | some [] => simp [h.cache]
    | some (c :: cs) => simp [h.cache]
  | found x => exact ⟨rfl, h.cache⟩
  | decrypting c =>
    simp only [Look.step, hk, hs]
    cases (do let text ← E.decrypt (E.fileKey n'.key n'.man.salt f) now ttl c; decodeValue E text) with
    | error e => exact ⟨rfl, h.cache⟩
    | ok v => cases cache <;> simp [h.cache, Dict.get_set]

theorem saveStep_alike {n n' : Node J} {d d' : Disk} {f : String} (hk : n.key = n'.key) (hs : n.man.salt = n'.man.salt) (h : Same f n n' d d')
    (drop : Bool) (r : ρ) (s : Save) : Alike f (saveStep E f drop r n d s) (saveStep E f drop r n' d' s) := by
  have fin : ∀ (a a' : Disk) (pc : Pc J), a f = a' f →
      Alike f (⟨if drop then { n with cache := n.cache.del f } else n, a, pc⟩ : Local J) ⟨if drop then { n' with cache := n'.cache.del f } else n', a', pc⟩ := by
    intro a a' pc ha
    cases drop
    · exact ⟨hk, hs, rfl, ⟨h.cache, h.files, ha⟩⟩
    · exact ⟨hk, hs, rfl, ⟨by simp [Dict.get_del], h.files, ha⟩⟩
  cases s with
  | ended x => exact fin _ _ _ h.disk
  | begin =>
    simp only [saveStep, Save.step, h.cache]
    cases hc : n'.cache.get f with
    | none => exact fin _ _ _ h.disk
    | some v =>
      simp only
      cases hv : encodeValue E v with
      | error e => exact fin _ _ _ h.disk
      | ok text => exact ⟨hk, hs, by simp [hk, hs], h⟩
  | opening data => exact ⟨hk, hs, rfl, ⟨h.cache, h.files, by simp [saveStep, Save.step, Disk.apply]⟩⟩
  | writing data => exact ⟨hk, hs, rfl, ⟨h.cache, h.files, by simp [saveStep, Save.step, overwrite, h.disk]⟩⟩

theorem tagStep_alike {op : Op ρ J} {t : String} (ht : op.tag? = some t) {n n' : Node J} {d d' : Disk} (hk : n.key = n'.key)
    (hs : n.man.salt = n'.man.salt) (h : Same (n.filename E t) n n' d d') (pc : Pc J) :
    Alike (n.filename E t) (tagStep E n d op pc) (tagStep E n' d' op pc) := by
  have hf : ∀ u, n'.filename E u = n.filename E u := fun u => by simp [Node.filename, hk, hs]
  have keep : ∀ pc : Pc J, Alike (n.filename E t) (⟨n, d, pc⟩ : Local J) ⟨n', d', pc⟩ := fun _ => ⟨hk, hs, rfl, h⟩
  have look : ∀ (ttl : Option Int) (silent cache : Bool) (now : Int) (l : Look J),
      (l.step E n d (n.filename E t) ttl silent cache now).1 = (l.step E n' d' (n.filename E t) ttl silent cache now).1 ∧
      ∀ pc, Alike (n.filename E t) (⟨(l.step E n d (n.filename E t) ttl silent cache now).2, d, pc⟩ : Local J)
        ⟨(l.step E n' d' (n.filename E t) ttl silent cache now).2, d', pc⟩ := by
    intro ttl silent cache now l
    obtain ⟨a1, a2, _⟩ := look_frame (E := E) n d (n.filename E t) ttl silent cache now l
    obtain ⟨b1, b2, _⟩ := look_frame (E := E) n' d' (n.filename E t) ttl silent cache now l
    obtain ⟨c1, c2⟩ := look_alike (E := E) hk hs h ttl silent cache now l
    exact ⟨c1, fun pc => ⟨by simp only [a1, b1, hk], by simp only [a2, b2, hs], rfl, ⟨c2, by simp only [a2, b2]; exact h.files, h.disk⟩⟩⟩
  have pop : ∀ (now : Int) (l : Look J), Alike (n.filename E t) (popLook E (n.filename E t) n d now l) (popLook E (n.filename E t) n' d' now l) := by
    intro now l
    obtain ⟨h1, h2⟩ := look none true false now l
    unfold popLook
    rcases hx : l.step E n d (n.filename E t) none true false now with ⟨a, m⟩
    rcases hy : l.step E n' d' (n.filename E t) none true false now with ⟨b, m'⟩
    rw [hx, hy] at h1 h2
    simp only at h1 h2
    subst h1
    match a with
    | .found (.error e) => exact h2 _
    | .found (.ok v) =>
      have := h2 .start
      exact ⟨this.key, this.salt, by simp [this.same.files, this.same.cache], ⟨by simp [Dict.get_del], by simp [Dict.get_del], h.disk⟩⟩
    | .lookup => exact h2 _
    | .reading => exact h2 _
    | .decrypting c => exact h2 _
  cases op with
  | clearCache => cases ht
  | save rs => cases ht
  | loadTags a b => cases ht
  | set tag data cache r =>
    cases ht
    cases pc with
    | start => exact ⟨hk, hs, rfl, ⟨by simp [tagStep, Dict.get_set, hf], by simp [tagStep, Dict.get_set, hf], h.disk⟩⟩
    | saving s drop =>
      have := saveStep_alike (E := E) hk hs h drop r s
      simpa only [tagStep, hf] using this
    | _ => exact keep _
  | saveTag tag drop r =>
    cases ht
    cases pc with
    | start =>
      have := saveStep_alike (E := E) hk hs h drop r .begin
      simpa only [tagStep, hf] using this
    | saving s drop =>
      have := saveStep_alike (E := E) hk hs h drop r s
      simpa only [tagStep, hf] using this
    | _ => exact keep _
  | query tag ttl silent cache now =>
    cases ht
    have main : ∀ l : Look J, Alike (n.filename E t) (queryLook E (n.filename E t) n d ttl silent cache now l)
        (queryLook E (n.filename E t) n' d' ttl silent cache now l) := by
      unfold queryLook
      intro l
      obtain ⟨h1, h2⟩ := look ttl silent cache now l
      rcases hx : l.step E n d (n.filename E t) ttl silent cache now with ⟨a, m⟩
      rcases hy : l.step E n' d' (n.filename E t) ttl silent cache now with ⟨b, m'⟩
      rw [hx, hy] at h1 h2
      simp only at h1 h2
      subst h1
      cases a <;> exact h2 _
    cases pc with
    | start => simpa only [tagStep, hf] using main .lookup
    | looking l => simpa only [tagStep, hf] using main l
    | _ => exact keep _
  | pop tag silent now =>
    cases ht
    cases pc with
    | start => simpa only [tagStep, hf] using pop now .lookup
    | looking l => simpa only [tagStep, hf] using pop now l
    | removing v failed =>
      exact ⟨hk, hs, by simp [tagStep, hf, h.disk], ⟨h.cache, h.files, by simp [tagStep, hf, Disk.apply]⟩⟩
    | _ => exact keep _
  | delItem tag =>
    cases ht
    cases pc with
    | start =>
      exact ⟨hk, hs, rfl, ⟨by simp [tagStep, Node.forget, hf, Dict.get_del], by simp [tagStep, Node.forget, hf, Dict.get_del], by simp [tagStep, hf, Disk.apply]⟩⟩
    | _ => exact keep _
  | rollback tag cache now =>
    cases ht
    cases pc with
    | start =>
      refine ⟨hk, hs, rfl, ⟨by simp [tagStep, hf, Dict.get_del], ?_, h.disk⟩⟩
      simp only [tagStep, hf, h.disk]
      split
      · simp [Dict.get_del]
      · exact h.files
    | looking l =>
      obtain ⟨h1, h2⟩ := look none false true now l
      simp only [tagStep, hf]
      rcases hx : l.step E n d (n.filename E t) none false true now with ⟨a, m⟩
      rcases hy : l.step E n' d' (n.filename E t) none false true now with ⟨b, m'⟩
      rw [hx, hy] at h1 h2
      simp only at h1 h2
      subst h1
      match a with
      | .found (.error e) => cases e <;> exact h2 _
      | .found (.ok v) => exact h2 _
      | .lookup => exact h2 _
      | .reading => exact h2 _
      | .decrypting c => exact h2 _
    | _ => exact keep _

end Aiootp.AsyncDb
