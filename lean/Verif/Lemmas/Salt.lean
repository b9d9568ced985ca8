import Verif.Model.Salt
import Verif.Lemmas.Guard

namespace Aiootp.Salt

open Guard (PC State Event Inv inN isHead isAlone upd upd_same upd_other)

variable {ops : Nat → Op} {priv : Bool}

/-- The call is between two file system calls of its block. -/
def isMid : Prog → Bool
  | .at1 | .at2 | .closing _ => true
  | _ => false

/-- The programs of the calls. -/
def fitsOp : Op → Prog → Bool
  | .make _, .closing _ | .ensure _, .closing _ | .read, .at2 | .delete, .at2 | .delete, .closing _ => false
  | _, _ => true

theorem fits_before (op : Op) (file : Option File) : fitsOp op (before op file) = true := by
  cases op <;> simp only [before] <;> (repeat' split) <;> rfl

theorem fits_block {op : Op} {p : Prog} (h : fitsOp op p = true) (file : Option File) (priv : Bool) : fitsOp op (block priv op file p).1 = true := by
  cases op <;> cases p <;> simp [fitsOp] at h <;> simp only [block] <;> (repeat' split) <;> rfl

structure Base (ops : Nat → Op) (s : Sys) : Prop where
  inv : Inv (exclusive ops) s.guard.deques s.guard.pc
  mid : ∀ k, isMid (s.prog k) = true → s.guard.pc k = .run
  steps : ∀ k, fitsOp (ops k) (s.prog k) = true

theorem Base.init (file : Option File) : Base ops (Sys.init file) := ⟨Inv.init, by intro k h; simp [Sys.init, isMid] at h, by intro k; simp only [Sys.init]; cases ops k <;> rfl⟩

/-- An exclusive guard in its block is alone. -/
theorem alone {x : Nat → Bool} {s : State} (hi : Inv x s.deques s.pc) {g h : Nat} (hx : x g = true) (hg : s.pc g = .run) (hh : s.pc h = .run) :
    g = h := by
  cases hxh : x h with
  | true =>
    have h1 := hi.queue.head g (by rw [hg, hx]; rfl)
    have h2 := hi.queue.head h (by rw [hh, hxh]; rfl)
    rw [h1] at h2
    exact Option.some.inj h2
  | false =>
    have := hi.alone g hx (by rw [hg]; rfl) h hxh
    rw [hh] at this
    simp [inN] at this

/-- What a step of a thread is. -/
inductive StepCase (priv : Bool) (ops : Nat → Op) (s : Sys) (k : Nat) : Sys → Prop where
  | guard (s' : State) (hinv : Base ops s → Inv (exclusive ops) s'.deques s'.pc) (hpc : ∀ j, j ≠ k → s'.pc j = s.guard.pc j) (hk : isMid (s.prog k) = false ∨ s'.pc k = s.guard.pc k) :
      StepCase priv ops s k { s with guard := s' }
  | pre (hp : s.prog k = .pre) : StepCase priv ops s k { s with prog := upd s.prog k (before (ops k) s.file) }
  | block (hp : s.guard.pc k = .run) (hq : s.prog k = .at0 ∨ isMid (s.prog k) = true) :
      StepCase priv ops s k ⟨s.guard, (block priv (ops k) s.file (s.prog k)).2, upd s.prog k (block priv (ops k) s.file (s.prog k)).1⟩

theorem step_case {s : Sys} (hb : Base ops s) (k : Nat) : StepCase priv ops s k (s.step priv ops k) := by
  have hguard : isMid (s.prog k) = false → StepCase priv ops s k { s with guard := s.guard.next (exclusive ops) (.step k) } := by
    intro hm
    refine .guard _ (fun hb => hb.inv.next _) (fun j hj => ?_) (.inl hm)
    simp [State.next, hj]
  have hrun : s.guard.pc k = .run → (s.prog k = .at0 ∨ isMid (s.prog k) = true) → StepCase priv ops s k
      { s with prog := fun j => if j = k then (Salt.block priv (ops k) s.file (s.prog k)).1 else s.prog j, file := (Salt.block priv (ops k) s.file (s.prog k)).2 } :=
    fun h1 h2 => .block h1 h2
  unfold Sys.step
  cases hp : s.prog k with
  | pre => exact .pre hp
  | over o =>
    simp only
    split
    · exact .guard s.guard (fun hb => hb.inv) (fun _ _ => rfl) (.inr rfl)
    · exact hguard (by rw [hp]; rfl)
  | at0 =>
    simp only
    split
    · rename_i h; have := hrun h (.inl hp); rw [hp] at this; exact this
    · exact hguard (by rw [hp]; rfl)
  | at1 =>
    have h := hb.mid k (by rw [hp]; rfl)
    simp only [h, if_true]
    have := hrun h (.inr (by rw [hp]; rfl)); rw [hp] at this; exact this
  | at2 =>
    have h := hb.mid k (by rw [hp]; rfl)
    simp only [h, if_true]
    have := hrun h (.inr (by rw [hp]; rfl)); rw [hp] at this; exact this
  | closing o =>
    have h := hb.mid k (by rw [hp]; rfl)
    simp only [h, if_true]
    have := hrun h (.inr (by rw [hp]; rfl)); rw [hp] at this; exact this

theorem before_not_mid (op : Op) (file : Option File) : isMid (before op file) = false := by
  cases op <;> simp only [before] <;> (repeat' split) <;> rfl

theorem Base.step {s : Sys} (hb : Base ops s) (k : Nat) : Base ops (s.step priv ops k) := by
  have hc := step_case (priv := priv) hb k
  generalize s.step priv ops k = s' at hc
  cases hc with
  | guard g hinv hpc hk =>
    refine ⟨hinv hb, fun j hj => ?_, hb.steps⟩
    simp only at hj ⊢
    by_cases hjk : j = k
    · subst hjk
      rcases hk with hk | hk
      · rw [hk] at hj; cases hj
      · rw [hk]; exact hb.mid j hj
    · rw [hpc j hjk]; exact hb.mid j hj
  | pre hp =>
    refine ⟨hb.inv, fun j hj => ?_, fun j => ?_⟩
    · simp only at hj ⊢
      by_cases hjk : j = k
      · subst hjk; rw [upd_same, before_not_mid] at hj; cases hj
      · rw [upd_other _ _ hjk] at hj; exact hb.mid j hj
    · simp only
      by_cases hjk : j = k
      · subst hjk; rw [upd_same]; exact fits_before _ _
      · rw [upd_other _ _ hjk]; exact hb.steps j
  | block hp hq =>
    refine ⟨hb.inv, fun j hj => ?_, fun j => ?_⟩
    · simp only at hj ⊢
      by_cases hjk : j = k
      · subst hjk; exact hp
      · rw [upd_other _ _ hjk] at hj; exact hb.mid j hj
    · simp only
      by_cases hjk : j = k
      · subst hjk; rw [upd_same]; exact fits_block (hb.steps j) _ _
      · rw [upd_other _ _ hjk]; exact hb.steps j

theorem Base.run {ks : List Nat} : ∀ {s : Sys}, Base ops s → Base ops (s.run priv ops ks) := by
  induction ks with
  | nil => intro s h; exact h
  | cons k ks ih => intro s h; exact ih (h.step k)

theorem run_append (a b : List Nat) : ∀ s : Sys, s.run priv ops (a ++ b) = (s.run priv ops a).run priv ops b := by
  induction a with
  | nil => intro s; rfl
  | cons e a ih => intro s; exact ih _

/-! ### no torn reads -/

/-- The content of the file is being written. -/
def isWriting : Op → Prog → Bool
  | .make _, .at1 | .ensure _, .at1 | .update _, .at2 => true
  | _, _ => false

/-- The salt a call is to write. -/
def Op.salt? : Op → Option Bytes
  | .make salt | .ensure salt | .update salt => some salt
  | _ => none

/-- The salt a call got. -/
def gotSalt : Prog → Option Bytes
  | .closing (.value c) | .over (.value c) => some c
  | _ => none

structure Whole (ops : Nat → Op) (S : Bytes → Prop) (s : Sys) : Prop where
  content : ∀ f, s.file = some f → S f.content ∨ ∃ k, isWriting (ops k) (s.prog k) = true
  got : ∀ k c, gotSalt (s.prog k) = some c → S c

theorem writing_exclusive {k : Nat} {p : Prog} (h : isWriting (ops k) p = true) : exclusive ops k = true ∧ isMid p = true := by
  cases hop : ops k <;> cases p <;> rw [hop] at h <;> simp [isWriting] at h <;> simp [exclusive, hop, isMid]

theorem gotSalt_before (op : Op) (file : Option File) : gotSalt (before op file) = none := by
  cases op <;> simp only [before] <;> (repeat' split) <;> rfl

theorem Whole.step {S : Bytes → Prop} (hS : ∀ k c, (ops k).salt? = some c → S c) {s : Sys} (hb : Base ops s) (h : Whole ops S s) (k : Nat) :
    Whole ops S (s.step priv ops k) := by
  have hc := step_case (priv := priv) hb k
  generalize s.step priv ops k = s' at hc
  cases hc with
  | guard g hinv hpc hk => exact ⟨h.content, h.got⟩
  | pre hp =>
    refine ⟨fun f hf => ?_, fun j c hj => ?_⟩
    · rcases h.content f hf with h1 | ⟨j, hj⟩
      · exact .inl h1
      · refine .inr ⟨j, ?_⟩
        have : j ≠ k := by rintro rfl; rw [hp] at hj; cases ops j <;> simp [isWriting] at hj
        simp only; rw [upd_other _ _ this]; exact hj
    · simp only at hj
      by_cases hjk : j = k
      · subst hjk; rw [upd_same, gotSalt_before] at hj; cases hj
      · rw [upd_other _ _ hjk] at hj; exact h.got j c hj
  | block hp hq =>
    -- someone else who is writing would be alone
    have other : ∀ j, isWriting (ops j) (s.prog j) = true → j = k := by
      intro j hj
      obtain ⟨h1, h2⟩ := writing_exclusive hj
      exact alone hb.inv h1 (hb.mid j h2) hp
    have nowrite : isWriting (ops k) (s.prog k) = false → ∀ f, s.file = some f → S f.content := by
      intro hw f hf
      rcases h.content f hf with h1 | ⟨j, hj⟩
      · exact h1
      · rw [other j hj, hw] at hj; cases hj
    have main : (∀ f, (block priv (ops k) s.file (s.prog k)).2 = some f → S f.content ∨ isWriting (ops k) (block priv (ops k) s.file (s.prog k)).1 = true) ∧
        (∀ c, gotSalt (block priv (ops k) s.file (s.prog k)).1 = some c → S c) := by
      have hsalt := hS k
      have hgot := h.got k
      revert nowrite
      cases hprog : s.prog k <;> cases hop : ops k <;> rw [hprog] at hq hgot <;> rw [hop] at hsalt <;> simp [isMid] at hq <;>
        cases hfile : s.file <;> simp [block, openWrite, chmod, write, isWriting, gotSalt, Op.salt?] at hsalt ⊢
      all_goals try (intro nw; constructor <;> (intro f hf; first | (subst hf; exact nw _ rfl) | exact nw _ hf | simp_all); done)
      all_goals try (simp_all; done)
      all_goals
        (repeat' split) <;> simp_all [isWriting, gotSalt]
    refine ⟨fun f hf => ?_, fun j c hj => ?_⟩
    · rcases main.1 f hf with h1 | h1
      · exact .inl h1
      · exact .inr ⟨k, by simp only; rw [upd_same]; exact h1⟩
    · simp only at hj
      by_cases hjk : j = k
      · subst hjk; rw [upd_same] at hj; exact main.2 c hj
      · rw [upd_other _ _ hjk] at hj; exact h.got j c hj

theorem Whole.run {S : Bytes → Prop} (hS : ∀ k c, (ops k).salt? = some c → S c) {ks : List Nat} :
    ∀ {s : Sys}, Base ops s → Whole ops S s → Whole ops S (s.run priv ops ks) := by
  induction ks with
  | nil => intro s _ h; exact h
  | cons k ks ih => intro s hb h; exact ih (hb.step k) (h.step hS hb k)

/-! ### salts are kept -/

def Op.isMaker : Op → Bool
  | .make _ | .ensure _ => true
  | _ => false

/-- The call is making the file. -/
def isMaking : Op → Prog → Bool
  | .make _, .at1 | .make _, .at2 | .ensure _, .at1 | .ensure _, .at2 => true
  | _, _ => false

/-- The file holds the salt `c`, no one is writing it, and it is locked unless someone reads. -/
structure Kept (ops : Nat → Op) (c : Bytes) (s : Sys) : Prop where
  file : ∃ f, s.file = some f ∧ f.content = c ∧ (f.locked = true ∨ ∃ k, ops k = .read ∧ isMid (s.prog k) = true)
  quiet : ∀ k, isMaking (ops k) (s.prog k) = false

theorem making_exclusive {k : Nat} {p : Prog} (h : isMaking (ops k) p = true) : exclusive ops k = true ∧ isMid p = true := by
  cases hop : ops k <;> cases p <;> rw [hop] at h <;> simp [isMaking] at h <;> simp [exclusive, hop, isMid]

theorem before_not_making (op op' : Op) (file : Option File) : isMaking op' (before op file) = false := by
  cases op <;> simp only [before] <;> (repeat' split) <;> cases op' <;> rfl

theorem Kept.step {c : Bytes} (hops : ∀ k, (ops k).isMaker = true ∨ ops k = .read) {s : Sys} (hb : Base ops s) (h : Kept ops c s) (k : Nat) :
    Kept ops c (s.step false ops k) := by
  have hc := step_case (priv := false) hb k
  generalize s.step false ops k = s' at hc
  obtain ⟨f, hf, hfc, hl⟩ := h.file
  cases hc with
  | guard g hinv hpc hk => exact ⟨h.file, h.quiet⟩
  | pre hp =>
    refine ⟨⟨f, hf, hfc, ?_⟩, fun j => ?_⟩
    · rcases hl with hl | ⟨j, h1, h2⟩
      · exact .inl hl
      · refine .inr ⟨j, h1, ?_⟩
        have : j ≠ k := by rintro rfl; rw [hp] at h2; cases h2
        simp only; rw [upd_other _ _ this]; exact h2
    · simp only
      by_cases hjk : j = k
      · subst hjk; rw [upd_same]; exact before_not_making _ _ _
      · rw [upd_other _ _ hjk]; exact h.quiet j
  | block hp hq =>
    have hquiet : isMaking (ops k) (block false (ops k) s.file (s.prog k)).1 = false →
        ∀ j, isMaking (ops j) (upd s.prog k (block false (ops k) s.file (s.prog k)).1 j) = false := by
      intro hk j
      by_cases hjk : j = k
      · subst hjk; rw [upd_same]; exact hk
      · rw [upd_other _ _ hjk]; exact h.quiet j
    have hnk := h.quiet k
    rcases hops k with hm | hr
    · -- a maker is alone, so that the file is locked
      have hx : exclusive ops k = true := by cases hop : ops k <;> rw [hop] at hm <;> simp [Op.isMaker] at hm <;> simp [exclusive, hop]
      have hlocked : f.locked = true := by
        rcases hl with hl | ⟨j, h1, h2⟩
        · exact hl
        · have := alone hb.inv hx hp (hb.mid j h2)
          subst this
          rw [h1] at hm; cases hm
      have key : (block false (ops k) s.file (s.prog k)).2 = some f ∧ isMaking (ops k) (block false (ops k) s.file (s.prog k)).1 = false := by
        obtain ⟨fl, fc⟩ := f
        simp only at hlocked
        subst hlocked
        rw [hf]
        cases hop : ops k <;> rw [hop] at hm hnk <;> simp [Op.isMaker] at hm <;> cases hprog : s.prog k <;> rw [hprog] at hq hnk <;>
          simp [isMid] at hq <;> simp [isMaking] at hnk <;> simp [block, openWrite, chmod, isMaking]
      exact ⟨⟨f, key.1, hfc, .inl hlocked⟩, hquiet key.2⟩
    · refine ⟨?_, hquiet ?_⟩
      · obtain ⟨fl, fc⟩ := f
        simp only at hfc
        subst hfc
        simp only [hr, hf]
        cases hprog : s.prog k with
        | at0 => exact ⟨⟨false, fc⟩, rfl, rfl, .inr ⟨k, hr, by simp [upd_same, block, chmod, isMid]⟩⟩
        | at1 =>
          refine ⟨⟨fl, fc⟩, ?_, rfl, .inr ⟨k, hr, ?_⟩⟩
          · simp only [block]; (repeat' split) <;> rfl
          · simp only [upd_same, block]; (repeat' split) <;> rfl
        | at2 => exact ⟨⟨fl, fc⟩, rfl, rfl, .inr ⟨k, hr, by simp [upd_same, block, isMid]⟩⟩
        | closing o => exact ⟨⟨true, fc⟩, rfl, rfl, .inl rfl⟩
        | pre => rw [hprog] at hq; simp [isMid] at hq
        | over o => rw [hprog] at hq; simp [isMid] at hq
      · rw [hr]; cases (block false Op.read s.file (s.prog k)).1 <;> rfl

theorem Kept.run {c : Bytes} (hops : ∀ k, (ops k).isMaker = true ∨ ops k = .read) {ks : List Nat} :
    ∀ {s : Sys}, Base ops s → Kept ops c s → Kept ops c (s.run false ops ks) := by
  induction ks with
  | nil => intro s _ h; exact h
  | cons k ks ih => intro s hb h; exact ih (hb.step k) (h.step hops hb k)

/-- Who has made the file, and who is making it. -/
structure Made (ops : Nat → Op) (s : Sys) : Prop where
  done : ∀ k c, (ops k).isMaker = true → (ops k).salt? = some c → s.prog k = .over .ok → Kept ops c s
  opened : ∀ k, isMaking (ops k) (s.prog k) = true → s.file.isSome = true
  written : ∀ k c, (ops k).salt? = some c → isMaking (ops k) (s.prog k) = true → s.prog k = .at2 → ∃ f, s.file = some f ∧ f.content = c

theorem before_over_ok (op : Op) (file : Option File) : before op file ≠ .over .ok := by
  cases op <;> simp only [before] <;> (repeat' split) <;> simp

theorem Made.step (hops : ∀ k, (ops k).isMaker = true ∨ ops k = .read) {s : Sys} (hb : Base ops s) (h : Made ops s) (k : Nat) :
    Made ops (s.step false ops k) := by
  have hkept : ∀ j c, (ops j).isMaker = true → (ops j).salt? = some c → s.prog j = .over .ok → Kept ops c (s.step false ops k) :=
    fun j c h1 h2 h3 => (h.done j c h1 h2 h3).step hops hb k
  have hc := step_case (priv := false) hb k
  generalize s.step false ops k = s' at hc hkept
  cases hc with
  | guard g hinv hpc hk => exact ⟨fun j c h1 h2 h3 => hkept j c h1 h2 h3, h.opened, h.written⟩
  | pre hp =>
    refine ⟨fun j c h1 h2 h3 => ?_, fun j hj => ?_, fun j c h1 h2 h3 => ?_⟩
    · simp only at h3
      by_cases hjk : j = k
      · subst hjk; rw [upd_same] at h3; exact absurd h3 (before_over_ok _ _)
      · rw [upd_other _ _ hjk] at h3; exact hkept j c h1 h2 h3
    · simp only at hj
      by_cases hjk : j = k
      · subst hjk; rw [upd_same, before_not_making] at hj; cases hj
      · rw [upd_other _ _ hjk] at hj; exact h.opened j hj
    · simp only at h2 h3
      by_cases hjk : j = k
      · subst hjk; rw [upd_same, before_not_making] at h2; cases h2
      · rw [upd_other _ _ hjk] at h2 h3; exact h.written j c h1 h2 h3
  | block hp hq =>
    rcases hops k with hm | hr
    · have hx : exclusive ops k = true := by cases hop : ops k <;> rw [hop] at hm <;> simp [Op.isMaker] at hm <;> simp [exclusive, hop]
      have lone : ∀ j, isMaking (ops j) (s.prog j) = true → j = k := by
        intro j hj
        exact (alone hb.inv hx hp (hb.mid j (making_exclusive hj).2)).symm
      obtain ⟨salt, hsalt⟩ : ∃ salt, (ops k).salt? = some salt := by
        cases hop : ops k <;> rw [hop] at hm <;> simp [Op.isMaker] at hm <;> simp [Op.salt?]
      -- the three file system calls of a maker
      have hblock : (s.prog k = .at0 ∧ ((block false (ops k) s.file (s.prog k)).1 = .over .denied ∨
              (block false (ops k) s.file (s.prog k)).1 = .at1 ∧ (block false (ops k) s.file (s.prog k)).2.isSome = true)) ∨
          (s.prog k = .at1 ∧ (block false (ops k) s.file (s.prog k)).1 = .at2 ∧ (block false (ops k) s.file (s.prog k)).2 = write salt s.file) ∨
          (s.prog k = .at2 ∧ ∃ f, s.file = some f ∧ (block false (ops k) s.file (s.prog k)).1 = .over .ok ∧
              (block false (ops k) s.file (s.prog k)).2 = some { f with locked := true }) ∨
          (∃ o, s.prog k = .closing o) := by
        have hopen := h.opened k
        cases hop : ops k <;> rw [hop] at hm hsalt hopen <;> simp [Op.isMaker] at hm <;> simp [Op.salt?] at hsalt <;>
          cases hprog : s.prog k <;> rw [hprog] at hq hopen <;> simp [isMid] at hq <;> cases hfile : s.file <;>
          simp [isMaking, hfile] at hopen <;> simp [block, openWrite, chmod, hsalt, hfile]
        all_goals
          rename_i f
          obtain ⟨l, c⟩ := f
          cases l <;> simp
      have mk : isMaking (ops k) .at1 = true ∧ isMaking (ops k) .at2 = true ∧ (∀ o, isMaking (ops k) (.over o) = false) ∧
          (∀ o, isMaking (ops k) (.closing o) = false) := by
        cases hop : ops k <;> rw [hop] at hm <;> simp [Op.isMaker] at hm <;> simp [isMaking]
      rcases hblock with ⟨hprog, hb2 | ⟨hb2, hb3⟩⟩ | ⟨hprog, hb2, hb3⟩ | ⟨hprog, f, hf, hb2, hb3⟩ | ⟨o, hprog⟩
      · refine ⟨fun j c h1 h2 h3 => ?_, fun j hj => ?_, fun j c h1 h2 h3 => ?_⟩
        · simp only at h3
          by_cases hjk : j = k
          · subst hjk; rw [upd_same, hb2] at h3; cases h3
          · rw [upd_other _ _ hjk] at h3; exact hkept j c h1 h2 h3
        · simp only at hj
          by_cases hjk : j = k
          · subst hjk; rw [upd_same, hb2, mk.2.2.1] at hj; cases hj
          · rw [upd_other _ _ hjk] at hj; exact absurd (lone j hj) hjk
        · simp only at h2
          by_cases hjk : j = k
          · subst hjk; rw [upd_same, hb2, mk.2.2.1] at h2; cases h2
          · rw [upd_other _ _ hjk] at h2; exact absurd (lone j h2) hjk
      · refine ⟨fun j c h1 h2 h3 => ?_, fun j hj => hb3, fun j c h1 h2 h3 => ?_⟩
        · simp only at h3
          by_cases hjk : j = k
          · subst hjk; rw [upd_same, hb2] at h3; cases h3
          · rw [upd_other _ _ hjk] at h3; exact hkept j c h1 h2 h3
        · simp only at h2 h3
          by_cases hjk : j = k
          · subst hjk; rw [upd_same, hb2] at h3; cases h3
          · rw [upd_other _ _ hjk] at h2; exact absurd (lone j h2) hjk
      · have hsome := h.opened k (by rw [hprog]; exact mk.1)
        refine ⟨fun j c h1 h2 h3 => ?_, fun j hj => ?_, fun j c h1 h2 h3 => ?_⟩
        · simp only at h3
          by_cases hjk : j = k
          · subst hjk; rw [upd_same, hb2] at h3; cases h3
          · rw [upd_other _ _ hjk] at h3; exact hkept j c h1 h2 h3
        · simp only [hb3, write]; simpa using hsome
        · simp only at h2
          by_cases hjk : j = k
          · subst hjk
            rw [hsalt] at h1
            simp only [Option.some.injEq] at h1
            subst h1
            obtain ⟨f, hf⟩ := Option.isSome_iff_exists.1 hsome
            exact ⟨{ f with content := salt }, by rw [hb3]; simp [write, hf], rfl⟩
          · rw [upd_other _ _ hjk] at h2; exact absurd (lone j h2) hjk
      · obtain ⟨f', hf', hfc⟩ := h.written k salt hsalt (by rw [hprog]; exact mk.2.1) hprog
        rw [hf] at hf'
        simp only [Option.some.injEq] at hf'
        subst hf'
        refine ⟨fun j c h1 h2 h3 => ?_, fun j hj => ?_, fun j c h1 h2 h3 => ?_⟩
        · simp only at h3
          by_cases hjk : j = k
          · subst hjk
            rw [hsalt] at h2
            simp only [Option.some.injEq] at h2
            subst h2
            refine ⟨⟨{ f with locked := true }, hb3, hfc, .inl rfl⟩, fun i => ?_⟩
            simp only
            by_cases hij : i = j
            · subst hij; rw [upd_same, hb2]; exact mk.2.2.1 _
            · rw [upd_other _ _ hij]
              cases hi : isMaking (ops i) (s.prog i) with
              | false => rfl
              | true => exact absurd (lone i hi) hij
          · rw [upd_other _ _ hjk] at h3; exact hkept j c h1 h2 h3
        · simp only at hj
          by_cases hjk : j = k
          · subst hjk; rw [upd_same, hb2, mk.2.2.1] at hj; cases hj
          · rw [upd_other _ _ hjk] at hj; exact absurd (lone j hj) hjk
        · simp only at h2
          by_cases hjk : j = k
          · subst hjk; rw [upd_same, hb2, mk.2.2.1] at h2; cases h2
          · rw [upd_other _ _ hjk] at h2; exact absurd (lone j h2) hjk
      · -- makers have no `finally`
        exfalso
        have := hb.steps k
        rw [hprog] at this
        cases hop : ops k <;> rw [hop] at hm this <;> simp [Op.isMaker] at hm <;> simp [fitsOp] at this
    · have hread : isMaking (ops k) (block false (ops k) s.file (s.prog k)).1 = false := by
        rw [hr]; cases (block false Op.read s.file (s.prog k)).1 <;> rfl
      have hsome : ∀ f, s.file = some f → ∃ f', (block false (ops k) s.file (s.prog k)).2 = some f' ∧ f'.content = f.content := by
        intro f hf
        rw [hr, hf]
        cases hprog : s.prog k <;> simp only [block, chmod, Option.map_some] <;> (repeat' split) <;> simp_all
      refine ⟨fun j c h1 h2 h3 => ?_, fun j hj => ?_, fun j c h1 h2 h3 => ?_⟩
      · simp only at h3
        by_cases hjk : j = k
        · subst hjk; rw [hr] at h1; cases h1
        · rw [upd_other _ _ hjk] at h3; exact hkept j c h1 h2 h3
      · simp only at hj ⊢
        by_cases hjk : j = k
        · subst hjk; rw [upd_same, hread] at hj; cases hj
        · rw [upd_other _ _ hjk] at hj
          obtain ⟨f, hf⟩ := Option.isSome_iff_exists.1 (h.opened j hj)
          obtain ⟨f', hf', _⟩ := hsome f hf
          simp [hf']
      · simp only at h2 h3 ⊢
        by_cases hjk : j = k
        · subst hjk; rw [upd_same, hread] at h2; cases h2
        · rw [upd_other _ _ hjk] at h2 h3
          obtain ⟨f, hf, hfc⟩ := h.written j c h1 h2 h3
          obtain ⟨f', hf', hfc'⟩ := hsome f hf
          exact ⟨f', hf', by rw [hfc', hfc]⟩

theorem Made.run (hops : ∀ k, (ops k).isMaker = true ∨ ops k = .read) {ks : List Nat} :
    ∀ {s : Sys}, Base ops s → Made ops s → Made ops (s.run false ops ks) := by
  induction ks with
  | nil => intro s _ h; exact h
  | cons k ks ih => intro s hb h; exact ih (hb.step k) (h.step hops hb k)

theorem Made.init (file : Option File) : Made ops (Sys.init file) where
  done := by intro k c _ _ h; cases h
  opened := by intro k h; simp only [Sys.init] at h; cases hop : ops k <;> rw [hop] at h <;> cases h
  written := by intro k c _ _ h; cases h

/-! ### readers -/

/-- Where a reader of a file which holds `c` may be. -/
def readerAt (priv : Bool) (c : Bytes) : Prog → Prop
  | .pre | .at0 | .at1 => True
  | .closing o | .over o => o = .value c ∨ (o = .denied ∧ priv = false)
  | .at2 => False

structure Readers (priv : Bool) (ops : Nat → Op) (c : Bytes) (s : Sys) : Prop where
  file : ∃ f, s.file = some f ∧ f.content = c ∧ (f.locked = true ∨ ∃ k, isMid (s.prog k) = true)
  at' : ∀ k, readerAt priv c (s.prog k)

theorem Readers.step {c : Bytes} (hops : ∀ k, ops k = .read) (hc : 32 ≤ c.length) {s : Sys} (hb : Base ops s) (h : Readers priv ops c s) (k : Nat) :
    Readers priv ops c (s.step priv ops k) := by
  have hcase := step_case (priv := priv) hb k
  generalize s.step priv ops k = s' at hcase
  obtain ⟨f, hf, hfc, hl⟩ := h.file
  cases hcase with
  | guard g hinv hpc hk => exact ⟨h.file, h.at'⟩
  | pre hp =>
    refine ⟨⟨f, hf, hfc, ?_⟩, fun j => ?_⟩
    · rcases hl with hl | ⟨j, h2⟩
      · exact .inl hl
      · refine .inr ⟨j, ?_⟩
        have : j ≠ k := by rintro rfl; rw [hp] at h2; cases h2
        simp only; rw [upd_other _ _ this]; exact h2
    · simp only
      by_cases hjk : j = k
      · subst hjk; rw [upd_same, hops]; simp [before, readerAt]
      · rw [upd_other _ _ hjk]; exact h.at' j
  | block hp hq =>
    have hkat := h.at' k
    obtain ⟨fl, fc⟩ := f
    simp only at hfc
    subst hfc
    have hat : ∀ p, readerAt priv fc p → ∀ j, readerAt priv fc (upd s.prog k p j) := by
      intro p hpat j
      by_cases hjk : j = k
      · subst hjk; rw [upd_same]; exact hpat
      · rw [upd_other _ _ hjk]; exact h.at' j
    simp only [hops, hf]
    cases hprog : s.prog k with
    | at0 => exact ⟨⟨⟨false, fc⟩, rfl, rfl, .inr ⟨k, by simp [upd_same, block, chmod, isMid]⟩⟩, hat _ (by simp [block, chmod, readerAt])⟩
    | at1 =>
      refine ⟨⟨⟨fl, fc⟩, ?_, rfl, .inr ⟨k, ?_⟩⟩, hat _ ?_⟩
      · simp only [block]; (repeat' split) <;> rfl
      · simp only [upd_same, block]; (repeat' split) <;> rfl
      · have : ¬ fc.length < 32 := by omega
        simp only [block, this, if_false]
        split
        · rename_i hd
          simp at hd
          exact .inr ⟨rfl, hd.2⟩
        · exact .inl rfl
    | at2 => rw [hprog] at hkat; exact hkat.elim
    | closing o => exact ⟨⟨⟨true, fc⟩, rfl, rfl, .inl rfl⟩, hat _ (by rw [hprog] at hkat; exact hkat)⟩
    | pre => rw [hprog] at hq; simp [isMid] at hq
    | over o => rw [hprog] at hq; simp [isMid] at hq

theorem Readers.run {c : Bytes} (hops : ∀ k, ops k = .read) (hc : 32 ≤ c.length) {ks : List Nat} :
    ∀ {s : Sys}, Base ops s → Readers priv ops c s → Readers priv ops c (s.run priv ops ks) := by
  induction ks with
  | nil => intro s _ h; exact h
  | cons k ks ih => intro s hb h; exact ih (hb.step k) (h.step hops hc hb k)

theorem Readers.init {c : Bytes} : Readers priv ops c (Sys.init (some ⟨true, c⟩)) :=
  ⟨⟨⟨true, c⟩, rfl, rfl, .inl rfl⟩, fun _ => trivial⟩

/-- Whoever is about to read has the file open to them. -/
structure Solo (ops : Nat → Op) (c : Bytes) (s : Sys) : Prop where
  file : ∃ f, s.file = some f ∧ f.content = c ∧ (∀ k, s.prog k = .at1 → f.locked = false)
  fine : ∀ k o, s.prog k = .closing o ∨ s.prog k = .over o → o = .value c

theorem Solo.step {c : Bytes} (hops : ∀ k, ops k = .read) (hc : 32 ≤ c.length) {s : Sys} (hb : Base ops s) (h : Solo ops c s)
    (one : ∀ i j, isMid (s.prog i) = true → isMid (s.prog j) = true → i = j) (k : Nat) :
    Solo ops c (s.step priv ops k) := by
  have hcase := step_case (priv := priv) hb k
  generalize s.step priv ops k = s' at hcase
  obtain ⟨f, hf, hfc, hl⟩ := h.file
  cases hcase with
  | guard g hinv hpc hk => exact ⟨h.file, h.fine⟩
  | pre hp =>
    refine ⟨⟨f, hf, hfc, fun j hj => ?_⟩, fun j o hj => ?_⟩
    · simp only at hj
      by_cases hjk : j = k
      · subst hjk; rw [upd_same, hops] at hj; simp [before] at hj
      · rw [upd_other _ _ hjk] at hj; exact hl j hj
    · simp only at hj
      by_cases hjk : j = k
      · subst hjk; rw [upd_same, hops] at hj; simp [before] at hj
      · rw [upd_other _ _ hjk] at hj; exact h.fine j o hj
  | block hp hq =>
    obtain ⟨fl, fc⟩ := f
    simp only at hfc hl
    subst hfc
    have hfine : ∀ p, (∀ o, p = .closing o ∨ p = .over o → o = .value fc) →
        ∀ j o, upd s.prog k p j = .closing o ∨ upd s.prog k p j = .over o → o = .value fc := by
      intro p hpo j o hj
      by_cases hjk : j = k
      · subst hjk; rw [upd_same] at hj; exact hpo o hj
      · rw [upd_other _ _ hjk] at hj; exact h.fine j o hj
    have hst := hb.steps k
    simp only [hops, hf]
    cases hprog : s.prog k with
    | at0 => exact ⟨⟨⟨false, fc⟩, rfl, rfl, fun _ _ => rfl⟩, hfine _ (by intro o ho; simp [block, chmod] at ho)⟩
    | at1 =>
      have hu := hl k hprog
      subst hu
      have : ¬ fc.length < 32 := by omega
      refine ⟨⟨⟨false, fc⟩, ?_, rfl, fun _ _ => rfl⟩, hfine _ ?_⟩
      · simp [block, this]
      · intro o ho; simp [block, this] at ho; exact ho.symm
    | at2 => rw [hprog, hops] at hst; cases hst
    | closing o =>
      refine ⟨⟨⟨true, fc⟩, rfl, rfl, fun j hj => ?_⟩, hfine _ ?_⟩
      · exfalso
        simp only at hj
        by_cases hjk : j = k
        · subst hjk; rw [upd_same] at hj; simp [block, chmod] at hj
        · rw [upd_other _ _ hjk] at hj
          exact hjk (one j k (by rw [hj]; rfl) (by rw [hprog]; rfl))
      · intro o' ho
        simp [block, chmod] at ho
        subst ho
        exact h.fine k _ (.inl hprog)
    | pre => rw [hprog] at hq; simp [isMid] at hq
    | over o => rw [hprog] at hq; simp [isMid] at hq

theorem Solo.init {c : Bytes} : Solo ops c (Sys.init (some ⟨true, c⟩)) :=
  ⟨⟨⟨true, c⟩, rfl, rfl, fun _ h => by cases h⟩, fun _ _ h => by rcases h with h | h <;> cases h⟩

end Aiootp.Salt
