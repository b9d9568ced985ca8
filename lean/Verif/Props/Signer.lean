import Verif.Model.Signer
import Verif.Props.Package

/-
Property C118: a package signer through any sequence of calls.
-/

namespace Aiootp.Package

open Keys

variable {Sk Pk : Type}

/-! ### The specification -/

/-- The value is the last one that was given for the name. -/
def Latest {α : Type} (given : List (String × α)) (name : String) (value : α) : Prop :=
  ∃ pre post, given = pre ++ (name, value) :: post ∧ ∀ item ∈ post, item.1 ≠ name

/-- What `update_scope` was given. -/
def scopes : List (Cmd Sk) → List (String × Json) :=
  List.filterMap fun c => match c with
    | .scope name value => some (name, value)
    | _ => none

/-- What `add_file` was given. -/
def contents : List (Cmd Sk) → List (String × Bytes) :=
  List.filterMap fun c => match c with
    | .file name data => some (name, data)
    | _ => none

/-- What was in the summary when `sign_package` was called with success. -/
def SignedIn (E : Env) (C : Curve Sk Pk) (s : Signer Sk) (cmds : List (Cmd Sk)) (d : Dict Json) : Prop :=
  ∃ pre post s', cmds = pre ++ .sign :: post ∧ (s.run E C pre).signPackage E C = .ok s' ∧ (s.run E C pre).summary C = .ok d

/-- All signatures in a database were made for contents in `signed`. -/
def AllSigned (E : Env) (C : Curve Sk Pk) (signed : Dict Json → Prop) (db : Dict (Entry Sk)) : Prop :=
  ∀ package e version j, (package, e) ∈ db → (version, j) ∈ e.versions →
    ∃ k d, signed d ∧ j = .str (hex (C.sign k (E.hash (E.dumps d))))

/-! ### Lemmas -/

theorem mem_of_lookup {α : Type} {d : Dict α} {k : String} {v : α} (h : d.lookup k = some v) : (k, v) ∈ d := by
  induction d with
  | nil => cases h
  | cons item d ih =>
    obtain ⟨a, x⟩ := item
    rw [List.lookup_cons] at h
    split at h
    · rename_i e
      have : k = a := by simpa using e
      cases h
      rw [this]
      exact List.mem_cons_self
    · exact List.mem_cons_of_mem _ (ih h)

theorem mem_set_iff {α : Type} {d : Dict α} (hk : d.Keys) {k n : String} {x v : α} :
    (n, v) ∈ d.set k x ↔ (n = k ∧ v = x) ∨ (n ≠ k ∧ (n, v) ∈ d) := by
  induction d with
  | nil => simp [Dict.set]
  | cons item d ih =>
    obtain ⟨a, y⟩ := item
    unfold Dict.Keys at hk
    simp only [List.map_cons, List.nodup_cons] at hk
    have ih := ih hk.2
    simp only [Dict.set]
    by_cases e : a = k
    · subst e
      rw [if_pos rfl]
      simp only [List.mem_cons, Prod.mk.injEq]
      constructor
      · rintro (⟨rfl, rfl⟩ | h)
        · exact Or.inl ⟨rfl, rfl⟩
        · refine Or.inr ⟨?_, Or.inr h⟩
          rintro rfl
          exact hk.1 (List.mem_map.2 ⟨_, h, rfl⟩)
      · rintro (⟨rfl, rfl⟩ | ⟨h1, ⟨rfl, rfl⟩ | h⟩)
        · exact Or.inl ⟨rfl, rfl⟩
        · exact absurd rfl h1
        · exact Or.inr h
    · rw [if_neg e]
      simp only [List.mem_cons, Prod.mk.injEq, ih]
      constructor
      · rintro (⟨rfl, rfl⟩ | h | ⟨h1, h2⟩)
        · exact Or.inr ⟨e, Or.inl ⟨rfl, rfl⟩⟩
        · exact Or.inl h
        · exact Or.inr ⟨h1, Or.inr h2⟩
      · rintro (h | ⟨h1, h | h⟩)
        · exact Or.inr (Or.inl h)
        · exact Or.inl h
        · exact Or.inr (Or.inr ⟨h1, h⟩)

theorem update_snoc {α : Type} (d given : Dict α) (n : String) (v : α) : Dict.update d (given ++ [(n, v)]) = (Dict.update d given).set n v := by
  simp [Dict.update, List.foldl_append]

theorem keys_update {α : Type} (given : Dict α) {d : Dict α} (h : d.Keys) : (Dict.update d given).Keys := by
  induction given generalizing d with
  | nil => exact h
  | cons item given ih => exact ih (keys_set h)

theorem keys_nil {α : Type} : Dict.Keys ([] : Dict α) := List.nodup_nil

theorem snoc_induction {α : Type} {P : List α → Prop} (l : List α) (h0 : P []) (h1 : ∀ l a, P l → P (l ++ [a])) : P l := by
  have : ∀ r : List α, P r.reverse := by
    intro r
    induction r with
    | nil => exact h0
    | cons a r ih => rw [List.reverse_cons]; exact h1 _ _ ih
  have h := this l.reverse
  rwa [List.reverse_reverse] at h

theorem latest_snoc {α : Type} {given : List (String × α)} {n k : String} {v x : α} :
    Latest (given ++ [(k, x)]) n v ↔ (n = k ∧ v = x) ∨ (n ≠ k ∧ Latest given n v) := by
  constructor
  · rintro ⟨pre, post, h, hp⟩
    rcases List.eq_nil_or_concat post with rfl | ⟨post', last, rfl⟩
    · have := List.append_inj' h rfl
      obtain ⟨-, h2⟩ := this
      cases h2
      exact Or.inl ⟨rfl, rfl⟩
    · rw [List.concat_eq_append] at h hp
      rw [show pre ++ (n, v) :: (post' ++ [last]) = (pre ++ (n, v) :: post') ++ [last] by simp] at h
      obtain ⟨h1, h2⟩ := List.append_inj' h rfl
      cases h2
      exact Or.inr ⟨fun e => hp (k, x) (by simp) e.symm, pre, post', h1, fun item hi => hp item (by simp [hi])⟩
  · rintro (⟨rfl, rfl⟩ | ⟨hne, pre, post, rfl, hp⟩)
    · exact ⟨given, [], rfl, by simp⟩
    · refine ⟨pre, post ++ [(k, x)], by simp, ?_⟩
      intro item hi
      rcases List.mem_append.1 hi with hi | hi
      · exact hp item hi
      · rw [List.mem_singleton] at hi
        subst hi
        exact fun e => hne e.symm

/-- A dictionary holds what was given last. -/
theorem mem_update {α : Type} (given : Dict α) {n : String} {v : α} : (n, v) ∈ Dict.update [] given ↔ Latest given n v := by
  induction given using snoc_induction generalizing n v with
  | h0 =>
    constructor
    · intro h; cases h
    · rintro ⟨pre, post, h, -⟩; simp at h
  | h1 given item ih =>
    obtain ⟨k, x⟩ := item
    rw [update_snoc, mem_set_iff (keys_update given keys_nil), latest_snoc, ih]

theorem change_ok {s s' : Signer Sk} {f : Entry Sk → Entry Sk} (h : s.change f = .ok s') :
    ∃ db package e, s.db = some db ∧ s.scopeName "package" = .ok package ∧ db.lookup package = some e ∧
      s' = { s with db := some (db.set package (f e)) } := by
  simp only [Signer.change, bind_eq_ok, get_ok] at h
  obtain ⟨db, hdb, package, hp, e, he, h⟩ := h
  injection h with h
  refine ⟨db, package, e, ?_, hp, he, h.symm⟩
  unfold Signer.connected at hdb
  split at hdb
  · injection hdb with hdb; rw [← hdb]; assumption
  · cases hdb

theorem exec_scope {E : Env} {C : Curve Sk Pk} {s s' : Signer Sk} {c : Cmd Sk} (h : s.exec E C c = .ok s') :
    s'.scope = Dict.update s.scope (scopes [c]) ∧
      s'.files = Dict.update s.files ((contents [c]).map fun item => (item.1, .str (hex (E.hash item.2)))) := by
  cases c with
  | connect stored =>
    simp only [Signer.exec, Signer.connect, bind_eq_ok] at h
    obtain ⟨p, -, h⟩ := h
    cases h
    exact ⟨rfl, rfl⟩
  | scope name value =>
    simp only [Signer.exec, Signer.updateScope, bind_eq_ok] at h
    obtain ⟨-, -, h⟩ := h
    cases h
    exact ⟨rfl, rfl⟩
  | credentials items =>
    obtain ⟨db, p, e, -, -, -, rfl⟩ := change_ok h
    exact ⟨rfl, rfl⟩
  | key key =>
    simp only [Signer.exec, Signer.updateKey, bind_eq_ok] at h
    obtain ⟨k, -, h⟩ := h
    obtain ⟨db, p, e, -, -, -, rfl⟩ := change_ok h
    exact ⟨rfl, rfl⟩
  | file name data =>
    simp only [Signer.exec, Signer.addFile, bind_eq_ok] at h
    obtain ⟨-, -, h⟩ := h
    cases h
    exact ⟨rfl, rfl⟩
  | sign =>
    simp only [Signer.exec, Signer.signPackage, bind_eq_ok] at h
    obtain ⟨c, -, v, -, k, -, h⟩ := h
    obtain ⟨db, p, e, -, -, -, rfl⟩ := change_ok h
    exact ⟨rfl, rfl⟩

theorem update_append {α : Type} (d a b : Dict α) : Dict.update d (a ++ b) = Dict.update (Dict.update d a) b := by
  simp [Dict.update, List.foldl_append]

theorem run_scope (E : Env) (C : Curve Sk Pk) (cmds : List (Cmd Sk)) (s : Signer Sk) :
    (s.run E C cmds).scope = Dict.update s.scope (scopes (s.succeeded E C cmds)) ∧
      (s.run E C cmds).files = Dict.update s.files ((contents (s.succeeded E C cmds)).map fun item => (item.1, .str (hex (E.hash item.2)))) := by
  induction cmds generalizing s with
  | nil => exact ⟨rfl, rfl⟩
  | cons c cs ih =>
    simp only [Signer.run, Signer.succeeded, Signer.step]
    cases h : s.exec E C c with
    | error e => exact ih s
    | ok s' =>
      obtain ⟨h1, h2⟩ := exec_scope h
      obtain ⟨h3, h4⟩ := ih s'
      simp only
      have e1 : ∀ l : List (Cmd Sk), scopes (c :: l) = scopes [c] ++ scopes l := by
        intro l; rw [show c :: l = [c] ++ l from rfl]; exact List.filterMap_append
      have e2 : ∀ l : List (Cmd Sk), contents (c :: l) = contents [c] ++ contents l := by
        intro l; rw [show c :: l = [c] ++ l from rfl]; exact List.filterMap_append
      rw [e1 (s'.succeeded E C cs), e2 (s'.succeeded E C cs), h3, h4, h1, h2, update_append, List.map_append, update_append]
      exact ⟨rfl, rfl⟩

theorem new_ok {number : Int → Json} {today : Int} {package version : String} {date : Option Int} {extras : Dict Json} {s : Signer Sk}
    (h : Signer.new number today package version date extras = .ok s) :
    s.files = [] ∧ s.db = none ∧ s.scope = Dict.update [] (extras ++ [("package", .str package), ("version", .str version),
      ("date", number (dateOr today date))]) := by
  unfold Signer.new at h
  cases hf : extras.forM fun item => settable item.1 with
  | error e => simp only [hf, Except.map] at h; cases h
  | ok u =>
    simp only [hf, Except.map] at h
    cases h
    exact ⟨rfl, rfl, by rw [update_append]; rfl⟩

/-! ### The property -/

/-- C118. A summary states for every name the last value that the signer was given for it, by its creation or by `update_scope`, and for
every file the digest of the last content that `add_file` was given, whatever calls were made in which order, and nothing else.
(The date is today's if none was given, or 0: C118_date_zero.) -/
theorem C118_states_partial (E : Env) (C : Curve Sk Pk) {number : Int → Json} {today : Int} {package version : String} {date : Option Int}
    {extras : Dict Json} {s : Signer Sk} (h : Signer.new number today package version date extras = .ok s) (cmds : List (Cmd Sk))
    {summary : Dict Json} (hs : (s.run E C cmds).summarize E C = .ok summary) (hd : date ≠ some 0) :
    ∃ scope files, summary.lookup "scope" = some (.obj scope) ∧ summary.lookup "checksums" = some (.obj files) ∧
      (∀ name v, (name, v) ∈ scope ↔ Latest (extras ++ [("package", .str package), ("version", .str version),
        ("date", number (date.getD today))] ++ scopes (s.succeeded E C cmds)) name v) ∧
      ∀ name v, (name, v) ∈ files ↔ ∃ data, Latest (contents (s.succeeded E C cmds)) name data ∧ v = .str (hex (E.hash data)) := by
  obtain ⟨hf, -, hsc⟩ := new_ok h
  obtain ⟨h1, h2⟩ := run_scope E C cmds s
  have hdate : (dateOr today date) = date.getD today := by
    cases date with
    | none => rfl
    | some d => exact if_neg (fun e => hd (by rw [e]))
  rw [hdate] at hsc
  simp only [Signer.summarize, bind_eq_ok, raiseIf_ok] at hs
  obtain ⟨c, -, sig, -, k, -, -, -, d, hsum, hs⟩ := hs
  injection hs with hs
  obtain ⟨e, key, -, -, hdd⟩ := summary_ok hsum
  refine ⟨(s.run E C cmds).scope.sorted, (s.run E C cmds).files.sorted, ?_, ?_, ?_, ?_⟩
  · rw [← hs, hdd]; simp [List.lookup]
  · rw [← hs, hdd]; simp [List.lookup]
  · intro name v
    rw [sorted_mem, h1, hsc, ← update_append, mem_update]
  · intro name v
    rw [sorted_mem, h2, hf, mem_update]
    constructor
    · rintro ⟨pre, post, heq, hp⟩
      obtain ⟨pre', rest, e1, e2, e3⟩ := List.map_eq_append_iff.1 heq
      obtain ⟨item, post', rfl, e4, e5⟩ := List.map_eq_cons_iff.1 e3
      obtain ⟨n, data⟩ := item
      cases e4
      refine ⟨data, ⟨pre', post', e1, ?_⟩, rfl⟩
      intro item hi
      have := hp (item.1, .str (hex (E.hash item.2))) (by rw [← e5]; exact List.mem_map.2 ⟨item, hi, rfl⟩)
      exact this
    · rintro ⟨data, ⟨pre, post, heq, hp⟩, rfl⟩
      refine ⟨_, _, by rw [heq, List.map_append, List.map_cons], ?_⟩
      intro item hi
      obtain ⟨item', hi', rfl⟩ := List.mem_map.1 hi
      exact hp item' hi'

/-- What C118_states_partial leaves out: a signer that is given the date 0 states today's. -/
theorem C118_date_zero (number : Int → Json) (today : Int) (package version : String) (extras : Dict Json) {s : Signer Sk}
    (h : Signer.new number today package version (some 0) extras = .ok s) : ("date", number today) ∈ s.scope := by
  rw [(new_ok h).2.2, mem_update]
  exact ⟨extras ++ [("package", .str package), ("version", .str version)], [], by simp [dateOr], by simp⟩

example : ∃ s : Signer UInt8, Signer.new (fun d => .other d.toNat) 7 "p" "1" (some 0) [] = .ok s := ⟨_, rfl⟩

theorem entry_set {db : Dict (Entry Sk)} {package : String} {e : Entry Sk} {p : String} {x : Entry Sk} (h : (p, x) ∈ db.set package e) :
    (p, x) ∈ db ∨ x = e := by
  rcases mem_set h with h | h
  · exact Or.inl h
  · cases h; exact Or.inr rfl

theorem signed_exec {E : Env} {C : Curve Sk Pk} {signed : Dict Json → Prop} {s s' : Signer Sk} {c : Cmd Sk} (h : s.exec E C c = .ok s')
    (hc : ∀ stored, c = .connect stored → AllSigned E C signed stored)
    (hs : c = .sign → ∀ d, s.summary C = .ok d → signed d)
    (h0 : ∀ db, s.db = some db → AllSigned E C signed db) : ∀ db, s'.db = some db → AllSigned E C signed db := by
  intro db' hdb'
  cases c with
  | connect stored =>
    simp only [Signer.exec, Signer.connect, bind_eq_ok] at h
    obtain ⟨p, -, h⟩ := h
    cases h
    simp only [Option.some.injEq] at hdb'
    subst hdb'
    have hst := hc stored rfl
    split
    · exact hst
    · intro package e version j hm hv
      rcases entry_set hm with hm | rfl
      · exact hst package e version j hm hv
      · cases hv
  | scope name value =>
    simp only [Signer.exec, Signer.updateScope, bind_eq_ok] at h
    obtain ⟨-, -, h⟩ := h
    cases h
    exact h0 db' hdb'
  | file name data =>
    simp only [Signer.exec, Signer.addFile, bind_eq_ok] at h
    obtain ⟨-, -, h⟩ := h
    cases h
    exact h0 db' hdb'
  | credentials items =>
    obtain ⟨db, p, e, hdb, -, he, rfl⟩ := change_ok h
    simp only [Option.some.injEq] at hdb'
    subst hdb'
    intro package x version j hm hv
    rcases entry_set hm with hm | rfl
    · exact h0 db hdb package x version j hm hv
    · exact h0 db hdb p e version j (mem_of_lookup he) hv
  | key key =>
    simp only [Signer.exec, Signer.updateKey, bind_eq_ok] at h
    obtain ⟨k, -, h⟩ := h
    obtain ⟨db, p, e, hdb, -, he, rfl⟩ := change_ok h
    simp only [Option.some.injEq] at hdb'
    subst hdb'
    intro package x version j hm hv
    rcases entry_set hm with hm | rfl
    · exact h0 db hdb package x version j hm hv
    · exact h0 db hdb p e version j (mem_of_lookup he) hv
  | sign =>
    simp only [Signer.exec, Signer.signPackage, Signer.checksum, bind_eq_ok] at h
    obtain ⟨c, ⟨d, hd, hcd⟩, v, -, k, -, h⟩ := h
    injection hcd with hcd
    obtain ⟨db, p, e, hdb, -, he, rfl⟩ := change_ok h
    simp only [Option.some.injEq] at hdb'
    subst hdb'
    intro package x version j hm hv
    rcases entry_set hm with hm | rfl
    · exact h0 db hdb package x version j hm hv
    · rcases mem_set hv with hv | hv
      · exact h0 db hdb p e version j (mem_of_lookup he) hv
      · cases hv
        exact ⟨k, d, hs rfl d hd, by rw [hcd]⟩

theorem run_append (E : Env) (C : Curve Sk Pk) (a b : List (Cmd Sk)) (s : Signer Sk) : s.run E C (a ++ b) = (s.run E C a).run E C b := by
  induction a generalizing s with
  | nil => rfl
  | cons c a ih => exact ih _

theorem signed_run (E : Env) (C : Curve Sk Pk) (signed : Dict Json → Prop) (s : Signer Sk) (h0 : ∀ db, s.db = some db → AllSigned E C signed db)
    (cmds : List (Cmd Sk)) (hc : ∀ stored, Cmd.connect stored ∈ cmds → AllSigned E C signed stored) :
    ∀ db, (s.run E C cmds).db = some db → AllSigned E C (fun d => signed d ∨ SignedIn E C s cmds d) db := by
  induction cmds using snoc_induction with
  | h0 =>
    intro db hdb p e v j hm hv
    obtain ⟨k, d, hd, hj⟩ := h0 db hdb p e v j hm hv
    exact ⟨k, d, Or.inl hd, hj⟩
  | h1 cmds c ih =>
    have ih := ih (fun stored hm => hc stored (List.mem_append_left _ hm))
    have mono : ∀ d, (signed d ∨ SignedIn E C s cmds d) → (signed d ∨ SignedIn E C s (cmds ++ [c]) d) := by
      rintro d (h | ⟨pre, post, s', rfl, h1, h2⟩)
      · exact Or.inl h
      · exact Or.inr ⟨pre, post ++ [c], s', by simp, h1, h2⟩
    have lift : ∀ db, AllSigned E C (fun d => signed d ∨ SignedIn E C s cmds d) db →
        AllSigned E C (fun d => signed d ∨ SignedIn E C s (cmds ++ [c]) d) db := by
      intro db h p e v j hm hv
      obtain ⟨k, d, hd, hj⟩ := h p e v j hm hv
      exact ⟨k, d, mono d hd, hj⟩
    rw [run_append]
    simp only [Signer.run, Signer.step]
    cases hx : (s.run E C cmds).exec E C c with
    | error e => exact fun db hdb => lift db (ih db hdb)
    | ok s' =>
      refine signed_exec hx ?_ ?_ (fun db hdb => lift db (ih db hdb))
      · rintro stored rfl p e v j hm hv
        obtain ⟨k, d, hd, hj⟩ := hc stored (by simp) p e v j hm hv
        exact ⟨k, d, Or.inl hd, hj⟩
      · rintro rfl d hd
        exact Or.inr ⟨cmds, [], s', rfl, hx, hd⟩

/-- C118. What `summarize` returns was signed: `sign_package` was called with success at a moment when the summary was the present one, or the
signature was in the database before, for these contents. (If a signature is valid for one message only; or else the two
texts are a collision.) -/
theorem C118_signed (E : Env) (C : Curve Sk Pk) (hC : ∀ k k' m m', C.verify (C.publicOf k) (C.sign k' m') m = true → m = m')
    {number : Int → Json} {today : Int} {package version : String} {date : Option Int} {extras : Dict Json} {s : Signer Sk}
    (h : Signer.new number today package version date extras = .ok s) (cmds : List (Cmd Sk)) (signed : Dict Json → Prop)
    (hc : ∀ stored, Cmd.connect stored ∈ cmds → AllSigned E C signed stored)
    {summary : Dict Json} (hs : (s.run E C cmds).summarize E C = .ok summary) :
    ∃ d, (signed d ∨ SignedIn E C s cmds d) ∧ (E.dumps d = E.dumps (body summary) ∨ Collide E.hash (E.dumps d) (E.dumps (body summary))) := by
  obtain ⟨key, sig, -, hsig, -, hv⟩ := C54_summary_signed E C _ hs
  simp only [Signer.signature, bind_eq_ok] at hsig
  obtain ⟨db, hdb, p, -, v, -, hsig⟩ := hsig
  have hdb : (s.run E C cmds).db = some db := by
    unfold Signer.connected at hdb
    split at hdb
    · injection hdb with hdb; rw [← hdb]; assumption
    · cases hdb
  split at hsig
  · rename_i x hx
    rw [Option.bind_eq_some_iff] at hx
    obtain ⟨e, he, hx⟩ := hx
    obtain ⟨k, d, hd, rfl⟩ := signed_run E C signed s (by rw [(new_ok h).2.1]; intro db h; cases h) cmds hc db hdb p e v x
      (mem_of_lookup he) (mem_of_lookup hx)
    rw [fromHex_hex] at hsig
    injection hsig with hsig
    subst hsig
    refine ⟨d, hd, ?_⟩
    have := hC _ _ _ _ hv
    by_cases heq : E.dumps d = E.dumps (body summary)
    · exact Or.inl heq
    · exact Or.inr ⟨heq, this.symm⟩
  · cases hsig

/-- The call may change which signing key the signer uses. -/
def Cmd.Rekeys : Cmd Sk → Prop
  | .connect _ => True
  | .scope name _ => name = "package"
  | .key _ => True
  | _ => False

theorem lookup_set {α : Type} {d : Dict α} {k n : String} {x : α} : (d.set k x).lookup n = if n = k then some x else d.lookup n := by
  induction d with
  | nil =>
    by_cases e : n = k
    · subst e; simp [Dict.set]
    · rw [if_neg e]
      simp only [Dict.set, List.lookup_cons]
      rw [beq_eq_false_iff_ne.2 e]
  | cons item d ih =>
    obtain ⟨a, y⟩ := item
    simp only [Dict.set]
    by_cases e : a = k
    · subst e
      rw [if_pos rfl]
      by_cases e' : n = a
      · subst e'; simp
      · rw [if_neg e']
        simp only [List.lookup_cons]
        rw [beq_eq_false_iff_ne.2 e']
    · rw [if_neg e]
      simp only [List.lookup_cons, ih]
      by_cases e' : n = a
      · subst e'
        simp [e]
      · rw [beq_eq_false_iff_ne.2 e']

/-- What the signer has for the signing key. -/
theorem signingKey_iff {s : Signer Sk} {k : Sk} : s.signingKey = .ok k ↔
    ∃ db package e, s.db = some db ∧ s.scopeName "package" = .ok package ∧ db.lookup package = some e ∧ e.key = some k := by
  simp only [Signer.signingKey, bind_eq_ok]
  constructor
  · rintro ⟨db, hdb, package, hp, h⟩
    unfold Signer.connected at hdb
    split at hdb
    · rename_i db' hdb'
      injection hdb with hdb
      subst hdb
      split at h
      · rename_i k' hk'
        injection h with h
        subst h
        obtain ⟨e, he, hk⟩ := Option.bind_eq_some_iff.1 hk'
        exact ⟨db', package, e, hdb', hp, he, hk⟩
      · cases h
    · cases hdb
  · rintro ⟨db, package, e, hdb, hp, he, hk⟩
    refine ⟨db, by simp [Signer.connected, hdb], package, hp, ?_⟩
    simp [he, hk]

theorem change_key {s s' : Signer Sk} {f : Entry Sk → Entry Sk} (h : s.change f = .ok s') (hf : ∀ e, (f e).key = e.key) {k : Sk}
    (hk : s.signingKey = .ok k) : s'.signingKey = .ok k := by
  obtain ⟨db, package, e, hdb, hp, he, rfl⟩ := change_ok h
  obtain ⟨db', package', e', hdb', hp', he', hk'⟩ := signingKey_iff.1 hk
  rw [hdb] at hdb'; cases hdb'
  rw [hp] at hp'; cases hp'
  rw [he] at he'; cases he'
  refine signingKey_iff.2 ⟨_, package, f e, rfl, hp, ?_, by rw [hf, hk']⟩
  rw [lookup_set, if_pos rfl]

theorem exec_key {E : Env} {C : Curve Sk Pk} {s s' : Signer Sk} {c : Cmd Sk} (h : s.exec E C c = .ok s') (hc : ¬ c.Rekeys) {k : Sk}
    (hk : s.signingKey = .ok k) : s'.signingKey = .ok k := by
  cases c with
  | connect stored => exact absurd trivial hc
  | key key => exact absurd trivial hc
  | scope name value =>
    simp only [Signer.exec, Signer.updateScope, bind_eq_ok] at h
    obtain ⟨-, -, h⟩ := h
    cases h
    obtain ⟨db, package, e, hdb, hp, he, hk⟩ := signingKey_iff.1 hk
    refine signingKey_iff.2 ⟨db, package, e, hdb, ?_, he, hk⟩
    unfold Signer.scopeName at hp ⊢
    rw [show ({ s with scope := s.scope.set name value } : Signer Sk).scope.lookup "package" = s.scope.lookup "package" by
      rw [lookup_set, if_neg (fun e => hc e.symm)]]
    exact hp
  | credentials items => exact change_key h (fun _ => rfl) hk
  | file name data =>
    simp only [Signer.exec, Signer.addFile, bind_eq_ok] at h
    obtain ⟨-, -, h⟩ := h
    cases h
    exact hk
  | sign =>
    simp only [Signer.exec, Signer.signPackage, bind_eq_ok] at h
    obtain ⟨c, -, v, -, k', -, h⟩ := h
    exact change_key h (fun _ => rfl) hk

theorem run_key {E : Env} {C : Curve Sk Pk} (cmds : List (Cmd Sk)) {s : Signer Sk} (hc : ∀ c ∈ cmds, ¬ c.Rekeys) {k : Sk}
    (hk : s.signingKey = .ok k) : (s.run E C cmds).signingKey = .ok k := by
  induction cmds generalizing s with
  | nil => exact hk
  | cons c cs ih =>
    refine ih (fun c' h => hc c' (List.mem_cons_of_mem _ h)) ?_
    unfold Signer.step
    split
    · rename_i s' h; exact exec_key h (hc c List.mem_cons_self) hk
    · exact hk

/-- C118. The signing key that is stated is that of the last call of `update_signing_key`, whatever calls were made since, except for connecting
a database or changing the name of the package. -/
theorem C118_key (E : Env) (C : Curve Sk Pk) (s : Signer Sk) (pre post : List (Cmd Sk)) (key : Given Sk) {s' : Signer Sk}
    (hk : (s.run E C pre).updateKey C key = .ok s') (hp : ∀ c ∈ post, ¬ c.Rekeys) {summary : Dict Json}
    (hs : (s.run E C (pre ++ .key key :: post)).summarize E C = .ok summary) :
    ∃ k, C.processSecret key = .ok k ∧ summary.lookup "signing_key" = some (.str (hex (C.rawPublic (C.publicOf k)))) := by
  have hstep : (s.run E C pre).step E C (.key key) = s' := by
    unfold Signer.step Signer.exec
    simp only [hk]
  simp only [Signer.updateKey, bind_eq_ok] at hk
  obtain ⟨k, hkk, h⟩ := hk
  refine ⟨k, hkk, ?_⟩
  have h1 : s'.signingKey = .ok k := by
    obtain ⟨db, package, e, hdb, hpk, he, rfl⟩ := change_ok h
    exact signingKey_iff.2 ⟨_, package, _, rfl, hpk, by rw [lookup_set, if_pos rfl], rfl⟩
  have h2 : (s.run E C (pre ++ .key key :: post)).signingKey = .ok k := by
    rw [run_append]
    show (((s.run E C pre).step E C (.key key)).run E C post).signingKey = _
    rw [hstep]
    exact run_key post hp h1
  simp only [Signer.summarize, bind_eq_ok, raiseIf_ok] at hs
  obtain ⟨c, -, sig, -, k', -, -, -, d, hsum, hs⟩ := hs
  injection hs with hs
  obtain ⟨e, key', -, hkey', hdd⟩ := summary_ok hsum
  rw [h2] at hkey'
  cases hkey'
  rw [← hs, hdd]
  simp [List.lookup]

/-- The call may change which entry of the database the signer uses. -/
def Cmd.Moves : Cmd Sk → Prop
  | .connect _ => True
  | .scope name _ => name = "package"
  | _ => False

/-- What `update_public_credentials` was given. -/
def credentialsGiven : List (Cmd Sk) → List (String × Json) :=
  List.flatMap fun c => match c with
    | .credentials items => items
    | _ => []

/-- The credentials that are stored for the package. -/
def Has (s : Signer Sk) (package : String) (items : Dict Json) : Prop :=
  ∃ db e, s.db = some db ∧ s.scopeName "package" = .ok package ∧ db.lookup package = some e ∧ e.credentials = items

theorem change_has {s s' : Signer Sk} {f : Entry Sk → Entry Sk} (h : s.change f = .ok s') {g : Dict Json → Dict Json}
    (hf : ∀ e, (f e).credentials = g e.credentials) {p : String} {items : Dict Json} (hh : Has s p items) : Has s' p (g items) := by
  obtain ⟨db, package, e, hdb, hp, he, rfl⟩ := change_ok h
  obtain ⟨db', e', hdb', hp', he', rfl⟩ := hh
  rw [hdb] at hdb'; cases hdb'
  rw [hp] at hp'; cases hp'
  rw [he] at he'; cases he'
  exact ⟨_, f e, rfl, hp, by rw [lookup_set, if_pos rfl], hf e⟩

theorem exec_has {E : Env} {C : Curve Sk Pk} {s s' : Signer Sk} {c : Cmd Sk} (h : s.exec E C c = .ok s') (hc : ¬ c.Moves) {p : String}
    {items : Dict Json} (hh : Has s p items) : Has s' p (items.update (credentialsGiven [c])) := by
  cases c with
  | connect stored => exact absurd trivial hc
  | scope name value =>
    simp only [Signer.exec, Signer.updateScope, bind_eq_ok] at h
    obtain ⟨-, -, h⟩ := h
    cases h
    obtain ⟨db, e, hdb, hp, he, hk⟩ := hh
    refine ⟨db, e, hdb, ?_, he, hk⟩
    unfold Signer.scopeName at hp ⊢
    rw [show ({ s with scope := s.scope.set name value } : Signer Sk).scope.lookup "package" = s.scope.lookup "package" by
      rw [lookup_set, if_neg (fun e => hc e.symm)]]
    exact hp
  | credentials given =>
    have e : credentialsGiven [(Cmd.credentials given : Cmd Sk)] = given := by simp [credentialsGiven]
    rw [e]
    exact change_has (g := fun d => d.update given) h (fun _ => rfl) hh
  | key key =>
    simp only [Signer.exec, Signer.updateKey, bind_eq_ok] at h
    obtain ⟨k, -, h⟩ := h
    exact change_has (g := id) h (fun _ => rfl) hh
  | file name data =>
    simp only [Signer.exec, Signer.addFile, bind_eq_ok] at h
    obtain ⟨-, -, h⟩ := h
    cases h
    exact hh
  | sign =>
    simp only [Signer.exec, Signer.signPackage, bind_eq_ok] at h
    obtain ⟨c, -, v, -, k', -, h⟩ := h
    exact change_has (g := id) h (fun _ => rfl) hh

theorem run_has {E : Env} {C : Curve Sk Pk} (cmds : List (Cmd Sk)) {s : Signer Sk} (hc : ∀ c ∈ cmds, ¬ c.Moves) {p : String} {items : Dict Json}
    (hh : Has s p items) : Has (s.run E C cmds) p (items.update (credentialsGiven (s.succeeded E C cmds))) := by
  induction cmds generalizing s items with
  | nil => exact hh
  | cons c cs ih =>
    have hcs : ∀ c' ∈ cs, ¬ c'.Moves := fun c' h => hc c' (List.mem_cons_of_mem _ h)
    simp only [Signer.run, Signer.step, Signer.succeeded]
    cases hx : s.exec E C c with
    | error e => exact ih hcs hh
    | ok s' =>
      have := ih hcs (exec_has hx (hc c List.mem_cons_self) hh)
      rw [← update_append] at this
      have e : credentialsGiven (c :: s'.succeeded E C cs) = credentialsGiven [c] ++ credentialsGiven (s'.succeeded E C cs) := by
        rw [show c :: s'.succeeded E C cs = [c] ++ s'.succeeded E C cs from rfl]
        exact List.flatMap_append
      simp only [e]
      exact this

theorem set_new {α : Type} {d : Dict α} {k : String} {x : α} (h : k ∉ d.map Prod.fst) : d.set k x = d ++ [(k, x)] := by
  induction d with
  | nil => rfl
  | cons item d ih =>
    obtain ⟨a, y⟩ := item
    simp only [List.map_cons, List.mem_cons, not_or] at h
    simp only [Dict.set]
    rw [if_neg (fun e => h.1 e.symm), ih h.2]
    rfl

theorem update_self {α : Type} (d : Dict α) (h : d.Keys) : Dict.update [] d = d := by
  induction d using snoc_induction with
  | h0 => rfl
  | h1 d item ih =>
    obtain ⟨k, x⟩ := item
    unfold Dict.Keys at h ih
    rw [List.map_append, List.nodup_append] at h
    rw [update_snoc, ih h.1, set_new]
    intro hm
    exact h.2.2 k hm k (by simp) rfl

/-- C118. The public credentials that are stated are for every name the last value given, since the database was connected, or else the one that
was stored in it for the package, if the name of the package was not changed since. (The stored ones are a dictionary, so names occur
once.) -/
theorem C118_credentials (E : Env) (C : Curve Sk Pk) (s : Signer Sk) (pre post : List (Cmd Sk)) (stored : Dict (Entry Sk)) {s' : Signer Sk}
    {package : String} (hp : (s.run E C pre).scopeName "package" = .ok package) (hc : (s.run E C pre).connect stored = .ok s')
    (hpost : ∀ c ∈ post, ¬ c.Moves) (hkeys : ∀ e, stored.lookup package = some e → e.credentials.Keys) {summary : Dict Json}
    (hs : (s.run E C (pre ++ .connect stored :: post)).summarize E C = .ok summary) :
    ∃ items, summary.lookup "public_credentials" = some (.obj items) ∧ ∀ name v, (name, v) ∈ items ↔
      Latest (((stored.lookup package).elim [] (·.credentials)) ++ credentialsGiven (s'.succeeded E C post)) name v := by
  have hstep : (s.run E C pre).step E C (.connect stored) = s' := by
    unfold Signer.step Signer.exec
    simp only [hc]
  have h1 : Has s' package ((stored.lookup package).elim [] (·.credentials)) := by
    simp only [Signer.connect, bind_eq_ok, hp] at hc
    obtain ⟨p, hp', hc⟩ := hc
    cases hp'
    cases hc
    cases hl : stored.lookup package with
    | some e => exact ⟨stored, e, rfl, hp, hl, rfl⟩
    | none => exact ⟨_, {}, rfl, hp, by rw [lookup_set, if_pos rfl], rfl⟩
  have h2 := run_has (E := E) (C := C) post hpost h1
  have h3 : s.run E C (pre ++ .connect stored :: post) = s'.run E C post := by
    rw [run_append]
    show ((s.run E C pre).step E C (.connect stored)).run E C post = _
    rw [hstep]
  rw [h3] at hs
  simp only [Signer.summarize, bind_eq_ok, raiseIf_ok] at hs
  obtain ⟨c, -, sig, -, k', -, -, -, d, hsum, hs⟩ := hs
  injection hs with hs
  obtain ⟨e, key', hent, -, hdd⟩ := summary_ok hsum
  refine ⟨e.credentials.sorted, by rw [← hs, hdd]; simp [List.lookup], ?_⟩
  intro name v
  obtain ⟨db, e', hdb, hp', he', hcr⟩ := h2
  have : e = e' := by
    simp only [Signer.entry, Signer.connected, hdb, hp', bind_eq_ok, get_ok] at hent
    obtain ⟨_, hd, _, hq, hl⟩ := hent
    cases hd
    cases hq
    rw [he'] at hl
    cases hl
    rfl
  subst this
  rw [sorted_mem, hcr, ← mem_update, update_append, update_self]
  cases hl : stored.lookup package with
  | some e0 => exact hkeys e0 hl
  | none => exact keys_nil

/-! ### Samples -/

def sampleNew : Signer UInt8 :=
  { scope := [("license", .str "x"), ("package", .str "p"), ("version", .str "1"), ("date", .other 7)] }

example : (Signer.new (fun d => .other d.toNat) 7 "p" "1" none [("license", .str "x")] : Except Err (Signer UInt8)) = .ok sampleNew := rfl

/-- A file is added again, after the package was signed, and it is signed again. -/
def sampleCmds : List (Cmd UInt8) :=
  [.connect [], .key (.key 5), .file "a.py" [1], .file "keys" [1], .sign, .file "a.py" [2], .scope "version" (.str "2"), .sign]

example : ∃ summary, (sampleNew.run sampleEnv toy sampleCmds).summarize sampleEnv toy = .ok summary := ⟨_, rfl⟩
example : (contents (sampleNew.succeeded sampleEnv toy sampleCmds)) = [("a.py", [1]), ("a.py", [2])] := rfl
example : ∀ stored, Cmd.connect stored ∈ sampleCmds → AllSigned sampleEnv toy (fun _ => False) stored := by
  intro stored h
  simp only [sampleCmds, List.mem_cons, Cmd.connect.injEq, reduceCtorEq, List.not_mem_nil, or_false] at h
  subst h
  intro p e v j hm
  cases hm

/-- A text that tells the number of files. -/
def countEnv : Env :=
  { hash := fun b => b, dumps := fun d => match d.lookup "checksums" with | some (.obj l) => [UInt8.ofNat l.length] | _ => [] }

/-- What was changed after it was signed is not summarized. -/
example : (sampleNew.run countEnv toy [.connect [], .key (.key 5), .file "a.py" [1], .sign, .file "b.py" [2]]).summarize countEnv toy
    = .error .value := by
  simp [Signer.run, Signer.step, Signer.exec, Signer.connect, Signer.updateKey, Signer.addFile, Signer.signPackage, Signer.summarize,
    Signer.change, Signer.connected, Signer.scopeName, Signer.entry, Signer.signingKey, Signer.summary, Signer.checksum, Signer.signature,
    sampleNew, countEnv, Dict.sorted, Dict.set, Dict.get, settable, toy, Curve.processSecret, raiseIf, bind, Except.bind, List.lookup, fromHex_hex]

/-- The key is set, the database connected before it. -/
example : (∃ s', (sampleNew.run sampleEnv toy [.connect []]).updateKey toy (.key 5) = .ok s') ∧
    (∀ c ∈ sampleCmds.drop 2, ¬ c.Rekeys) ∧ sampleCmds = [.connect []] ++ .key (.key 5) :: sampleCmds.drop 2 := by
  refine ⟨⟨_, rfl⟩, ?_, rfl⟩
  simp [sampleCmds, Cmd.Rekeys]

/-- Credentials are stored, and one of them is replaced. -/
example : ∃ summary, (sampleNew.run sampleEnv toy ([] ++ .connect [("p", { key := some 5, credentials := [("mail", .str "a"), ("web", .str "b")] })] ::
    [.credentials [("mail", .str "c")], .sign])).summarize sampleEnv toy = .ok summary := ⟨_, rfl⟩
example : Dict.Keys [("mail", Json.str "a"), ("web", .str "b")] := by simp [Dict.Keys]
example : ∀ c ∈ ([.credentials [("mail", .str "c")], .sign] : List (Cmd UInt8)), ¬ c.Moves := by simp [Cmd.Moves]

theorem toy_one_message : ∀ k k' m m', toy.verify (toy.publicOf k) (toy.sign k' m') m = true → m = m' := by
  intro k k' m m' h
  simp [toy] at h
  exact h.2.symm

end Aiootp.Package
