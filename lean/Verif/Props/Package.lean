import Verif.Model.Package
import Verif.Lemmas.Py
import Verif.Props.Keys
import Verif.Spec.Collision

/-!
C54: package summaries.
-/

namespace Aiootp.Package

open Keys

variable {Sk Pk : Type}

/-- What the verifier is given, without the checksum and the signature: this is what is signed. -/
def body (summary : Dict Json) : Dict Json := summary.filter fun item => item.1 ≠ "checksum" ∧ item.1 ≠ "signature"

/-- **C54** A summary is intact: it names the key of the verifier, its checksum is the hash of the other fields, the signature of the checksum is valid, and every
listed file has the listed digest (unless files are not verified). -/
structure Intact (E : Env) (C : Curve Sk Pk) (key : Pk) (read : Option (String → Except Err Bytes)) (summary : Dict Json) : Prop where
  signer : ∃ j, summary.lookup "signing_key" = some j ∧ fromHex j = .ok (C.rawPublic key)
  checksum : ∃ j, summary.lookup "checksum" = some j ∧ fromHex j = .ok (E.hash (E.dumps (body summary)))
  signature : ∃ j sig, summary.lookup "signature" = some j ∧ fromHex j = .ok sig ∧ C.verify key sig (E.hash (E.dumps (body summary))) = true
  files : ∀ r, read = some r → ∃ items, summary.lookup "checksums" = some (.obj items) ∧ ∀ f j, (f, j) ∈ items → ∃ data, r f = .ok data ∧ fromHex j = .ok (E.hash data)

/-! ### hexadecimal -/

theorem digit_facts : ∀ n < 16, isSpace (hexDigit n) = false ∧ hexValue (hexDigit n) = some n := by decide

theorem fromHex_hexChars (b : Bytes) : fromHexChars (hexChars b) = .ok b := by
  induction b with
  | nil => rfl
  | cons b bs ih =>
    have h1 := digit_facts (b.toNat / 16) (by have := b.toNat_lt; omega)
    have h2 := digit_facts (b.toNat % 16) (by omega)
    simp only [hexChars, fromHexChars, h1, h2, Bool.false_eq_true, if_false, ih, bind, Except.bind]
    congr 2
    rw [Nat.div_add_mod]
    exact UInt8.ofNat_toNat

theorem fromHex_hex (b : Bytes) : fromHex (.str (hex b)) = .ok b := by
  simp only [fromHex, hex, String.toList_ofList]
  exact fromHex_hexChars b

/-! ### dictionaries -/

theorem lookup_without {α} {d : Dict α} {k k' : String} (h : k ≠ k') : (d.without k').lookup k = d.lookup k := by
  induction d with
  | nil => rfl
  | cons item d ih =>
    obtain ⟨a, v⟩ := item
    simp only [Dict.without, List.filter_cons] at ih ⊢
    by_cases e : a = k'
    · subst e
      have : (k == a) = false := by simpa using h
      simp only [ne_eq, not_true_eq_false, decide_false, Bool.false_eq_true, if_false, List.lookup_cons, this]
      exact ih
    · simp only [ne_eq, e, not_false_eq_true, decide_true, if_true, List.lookup_cons, ih]

theorem without_body (d : Dict Json) : (d.without "checksum").without "signature" = body d := by
  simp only [Dict.without, body, List.filter_filter]
  congr 1
  funext item
  simp [Bool.and_comm]

theorem get_ok {α} {d : Dict α} {k : String} {v : α} : d.get k = .ok v ↔ d.lookup k = some v := by
  unfold Dict.get
  cases d.lookup k <;> simp

theorem set_self {α} (d : Dict α) (k : String) (v : α) : (d.set k v).lookup k = some v := by
  induction d with
  | nil => simp [Dict.set, List.lookup]
  | cons item d ih =>
    obtain ⟨a, x⟩ := item
    simp only [Dict.set]
    split
    · rename_i e; simp [e]
    · rename_i e
      have : (k == a) = false := by simpa using fun e' => e e'.symm
      simp [List.lookup_cons, this, ih]

theorem mem_set {α} {d : Dict α} {k : String} {v : α} {p : String × α} (h : p ∈ d.set k v) : p ∈ d ∨ p = (k, v) := by
  induction d with
  | nil => simpa [Dict.set] using h
  | cons item d ih =>
    obtain ⟨a, x⟩ := item
    simp only [Dict.set] at h
    split at h
    · rename_i e
      rcases List.mem_cons.1 h with h | h
      · exact .inr (by rw [h, e])
      · exact .inl (List.mem_cons_of_mem _ h)
    · rcases List.mem_cons.1 h with h | h
      · exact .inl (by rw [h]; exact List.mem_cons_self)
      · exact (ih h).imp (List.mem_cons_of_mem _) id

/-- No key appears twice. -/
def Dict.Keys {α} (d : Dict α) : Prop := (d.map Prod.fst).Nodup

theorem keys_set {α} {d : Dict α} {k : String} {v : α} (h : d.Keys) : (d.set k v).Keys := by
  have hm : ∀ d : Dict α, (d.set k v).map Prod.fst = if k ∈ d.map Prod.fst then d.map Prod.fst else d.map Prod.fst ++ [k] := by
    intro d
    induction d with
    | nil => simp [Dict.set]
    | cons item d ih =>
      obtain ⟨a, x⟩ := item
      simp only [Dict.set]
      by_cases e : a = k
      · simp [e]
      · have e' : ¬ k = a := fun h => e h.symm
        simp only [e, if_false, List.map_cons, ih, List.mem_cons, e', false_or]
        split <;> rfl
  unfold Dict.Keys at h ⊢
  rw [hm]
  split
  · exact h
  · rename_i hn
    rw [List.nodup_append]
    refine ⟨h, by simp, ?_⟩
    intro a ha b hb e
    simp only [List.mem_singleton] at hb
    exact hn (hb ▸ e ▸ ha)

/-- Sorting forgets the order of insertion. -/
theorem sorted_perm {α} {d d' : Dict α} (h : d.Keys) (hp : d.Perm d') : d.sorted = d'.sorted := by
  have hs : ∀ d : Dict α, List.Pairwise (fun a b => a.1 ≤ b.1) d.sorted := by
    intro d
    have := List.pairwise_mergeSort (le := fun (a b : String × α) => decide (a.1 ≤ b.1)) (fun a b c h1 h2 => by
      simp only [decide_eq_true_eq] at *; exact String.le_trans h1 h2) (fun a b => by
      simp only [Bool.or_eq_true, decide_eq_true_eq]; exact String.le_total _ _) d
    simpa only [decide_eq_true_eq, Dict.sorted] using this
  have hperm : d.sorted.Perm d'.sorted := ((List.mergeSort_perm d _).trans hp).trans (List.mergeSort_perm d' _).symm
  refine hperm.eq_of_pairwise ?_ (hs d) (hs d')
  intro a b ha hb h1 h2
  have ha : a ∈ d := (List.mergeSort_perm d _).mem_iff.1 ha
  have hb : b ∈ d := hp.mem_iff.2 ((List.mergeSort_perm d' _).mem_iff.1 hb)
  have e : a.1 = b.1 := String.le_antisymm h1 h2
  obtain ⟨i, hi, rfl⟩ := List.getElem_of_mem ha
  obtain ⟨j, hj, rfl⟩ := List.getElem_of_mem hb
  have := nodup_getElem_inj h (i := i) (j := j) (by simpa using hi) (by simpa using hj) (by simpa using e)
  subst this
  rfl

theorem sorted_mem {α} {d : Dict α} {p : String × α} : p ∈ d.sorted ↔ p ∈ d := (List.mergeSort_perm d _).mem_iff

/-! ### the verifier -/

theorem checkFiles_ok {E : Env} {read : String → Except Err Bytes} {items : Dict Json} :
    checkFiles E read items = .ok () ↔ ∀ f j, (f, j) ∈ items → ∃ data, read f = .ok data ∧ fromHex j = .ok (E.hash data) := by
  induction items with
  | nil => simp [checkFiles]
  | cons item items ih =>
    obtain ⟨f, j⟩ := item
    simp only [checkFiles, bind_eq_ok, ih, checkFile, raiseIf_ok, Decidable.not_not]
    constructor
    · rintro ⟨_, ⟨d, hd, data, hr, he⟩, h⟩ f' j' hm
      rcases List.mem_cons.1 hm with e | hm
      · injection e with e1 e2
        subst e1 e2
        exact ⟨data, hr, by rw [hd, he]⟩
      · exact h _ _ hm
    · intro h
      obtain ⟨data, hr, hd⟩ := h f j List.mem_cons_self
      exact ⟨(), ⟨_, hd, data, hr, rfl⟩, fun f' j' hm => h f' j' (List.mem_cons_of_mem _ hm)⟩

/-- **C54** `verify_summary` accepts exactly the summaries that are intact. -/
theorem C54_accepts_iff (E : Env) (C : Curve Sk Pk) (key : Pk) (read : Option (String → Except Err Bytes)) (summary : Dict Json) :
    verifySummary E C key read summary = .ok () ↔ Intact E C key read summary := by
  have hsig : (summary.without "checksum").lookup "signature" = summary.lookup "signature" := lookup_without (by decide)
  simp only [verifySummary, importSummary, bind_eq_ok, raiseIf_ok, Decidable.not_not, get_ok, hsig, without_body, Bool.not_eq_false]
  constructor
  · rintro ⟨j, hj, p, hp, _, hk, ⟨c, s⟩, ⟨jc, hjc, c', hc', js, hjs, s', hs', _, hcs, h⟩, hrest⟩
    injection h with h
    injection h with h1 h2
    subst h1 h2
    have hfv : (∀ r, read = some r → ∃ items, summary.lookup "checksums" = some (.obj items) ∧ checkFiles E r items = .ok ()) ∧ C.verify key s' c' = true := by
      cases read with
      | none =>
        simp only [bind_eq_ok, raiseIf_ok, Bool.not_eq_false] at hrest
        obtain ⟨_, _, hv⟩ := hrest
        exact ⟨by simp, hv⟩
      | some r =>
        simp only [bind_eq_ok, raiseIf_ok, Bool.not_eq_false, get_ok] at hrest
        obtain ⟨f, hf, i, hi, _, hcf, hv⟩ := hrest
        refine ⟨?_, hv⟩
        intro r' hr'
        injection hr' with hr'
        subst hr'
        cases f with
        | obj items =>
          injection hi with hi
          subst hi
          exact ⟨items, hf, hcf⟩
        | str _ => cases hi
        | other _ => cases hi
    refine ⟨⟨j, hj, by rw [hp, hk]⟩, ⟨jc, hjc, by rw [hc', hcs]⟩, ⟨js, s', hjs, hs', by rw [hcs]; exact hfv.2⟩, ?_⟩
    intro r hr
    obtain ⟨items, h1, h2⟩ := hfv.1 r hr
    exact ⟨items, h1, checkFiles_ok.1 h2⟩
  · rintro ⟨⟨j, hj, hp⟩, ⟨jc, hjc, hc⟩, ⟨js, s, hjs, hs, hv⟩, hf⟩
    refine ⟨j, hj, _, hp, (), rfl, (_, s), ⟨jc, hjc, _, hc, js, hjs, s, hs, (), rfl, rfl⟩, ?_⟩
    cases read with
    | none => simp [bind, Except.bind, raiseIf, hv]
    | some r =>
      obtain ⟨items, h1, h2⟩ := hf r rfl
      simp only [bind_eq_ok, raiseIf_ok, Bool.not_eq_false, get_ok]
      exact ⟨_, h1, items, rfl, (), checkFiles_ok.2 h2, hv⟩

/-- **C54** If every valid signature is one the owner of the key made for some contents in `signed`, then an accepted summary has the text of such contents,
or its text is a collision with the text of contents that were signed. -/
theorem C54_only_signed (E : Env) (C : Curve Sk Pk) (key : Pk) (read : Option (String → Except Err Bytes)) (summary : Dict Json) (signed : Dict Json → Prop)
    (hsig : ∀ sig m, C.verify key sig m = true → ∃ d, signed d ∧ m = E.hash (E.dumps d)) (h : verifySummary E C key read summary = .ok ()) :
    ∃ d, signed d ∧ (E.dumps d = E.dumps (body summary) ∨ Collide E.hash (E.dumps d) (E.dumps (body summary))) := by
  obtain ⟨_, _, ⟨j, sig, _, _, hv⟩, _⟩ := (C54_accepts_iff E C key read summary).1 h
  obtain ⟨d, hd, e⟩ := hsig _ _ hv
  refine ⟨d, hd, ?_⟩
  by_cases he : E.dumps d = E.dumps (body summary)
  · exact .inl he
  · exact .inr ⟨he, e.symm⟩

/-- **C54** If a summary is accepted on two disks, then every listed file is the same on both, or its two contents are a collision. -/
theorem C54_files_bound (E : Env) (C : Curve Sk Pk) (key : Pk) (read read' : String → Except Err Bytes) (summary : Dict Json)
    (h : verifySummary E C key (some read) summary = .ok ()) (h' : verifySummary E C key (some read') summary = .ok ()) :
    ∃ items, summary.lookup "checksums" = some (.obj items) ∧ ∀ f j, (f, j) ∈ items →
      (∃ data, read f = .ok data ∧ read' f = .ok data) ∨ ∃ x y, read f = .ok x ∧ read' f = .ok y ∧ Collide E.hash x y := by
  obtain ⟨items, h1, h2⟩ := ((C54_accepts_iff E C key (some read) summary).1 h).files _ rfl
  obtain ⟨items', h1', h2'⟩ := ((C54_accepts_iff E C key (some read') summary).1 h').files _ rfl
  rw [h1] at h1'
  injection h1' with h1'
  injection h1' with h1'
  subst h1'
  refine ⟨items, h1, ?_⟩
  intro f j hm
  obtain ⟨x, hx, ex⟩ := h2 f j hm
  obtain ⟨y, hy, ey⟩ := h2' f j hm
  rw [ex] at ey
  injection ey with ey
  by_cases e : x = y
  · exact .inl ⟨x, hx, e ▸ hy⟩
  · exact .inr ⟨x, y, hx, hy, e, ey⟩

/-! ### the signer -/

theorem summary_ok {C : Curve Sk Pk} {s : Signer Sk} {d : Dict Json} (h : s.summary C = .ok d) :
    ∃ e key, s.entry = .ok e ∧ s.signingKey = .ok key ∧
      d = [("checksums", .obj s.files.sorted), ("public_credentials", .obj e.credentials.sorted), ("scope", .obj s.scope.sorted),
        ("signing_key", .str (hex (C.rawPublic (C.publicOf key))))] := by
  simp only [Signer.summary, bind_eq_ok] at h
  obtain ⟨e, he, k, hk, h⟩ := h
  injection h with h
  exact ⟨e, k, he, hk, h.symm⟩

/-- **C54** What `summarize` returns is accepted by the verifier with the public key of the signer, if the listed files are on the disk. -/
theorem C54_summary_accepted (E : Env) (C : Curve Sk Pk) (s : Signer Sk) {key : Sk} (hk : s.signingKey = .ok key) {summary : Dict Json} (h : s.summarize E C = .ok summary)
    (read : Option (String → Except Err Bytes)) (hf : ∀ r, read = some r → ∀ f j, (f, j) ∈ s.files → ∃ data, r f = .ok data ∧ j = .str (hex (E.hash data))) :
    verifySummary E C (C.publicOf key) read summary = .ok () := by
  rw [C54_accepts_iff]
  simp only [Signer.summarize, Signer.checksum, bind_eq_ok, raiseIf_ok, Bool.not_eq_false] at h
  obtain ⟨c, ⟨d, hd, hc⟩, sig, _, k, hk', _, hv, d', hd', h⟩ := h
  rw [hk] at hk'
  injection hk' with hk'
  subst hk'
  rw [hd] at hd'
  injection hd' with hd'
  subst hd'
  injection hc with hc
  injection h with h
  obtain ⟨e, k, he, hk', hdd⟩ := summary_ok hd
  rw [hk] at hk'
  injection hk' with hk'
  subst hk'
  have hb : body summary = d := by
    rw [← h, hdd]
    simp [body]
  refine ⟨⟨_, ?_, fromHex_hex _⟩, ⟨_, ?_, fromHex_hex _⟩, ⟨_, sig, ?_, fromHex_hex _, ?_⟩, ?_⟩
  · rw [← h, hdd]; simp [List.lookup]
  · rw [hb, hc, ← h]; simp [List.lookup]
  · rw [← h, hdd]; simp [List.lookup]
  · rw [hb, hc]; exact hv
  · intro r hr
    refine ⟨s.files.sorted, by rw [← h, hdd]; simp [List.lookup], ?_⟩
    intro f j hm
    obtain ⟨data, h1, h2⟩ := hf r hr f j (sorted_mem.1 hm)
    exact ⟨data, h1, by rw [h2]; exact fromHex_hex _⟩

/-- **C54** After `sign_package`, `summarize` returns a summary. -/
theorem C54_signed_summary (E : Env) (C : Curve Sk Pk) (hC : ∀ k m, C.verify (C.publicOf k) (C.sign k m) m = true) (s s' : Signer Sk) (h : s.signPackage E C = .ok s') :
    (∃ summary, s'.summarize E C = .ok summary) ∧ s'.summary C = s.summary C ∧ s'.signingKey = s.signingKey ∧ s'.files = s.files := by
  simp only [Signer.signPackage, Signer.change, Signer.checksum, bind_eq_ok] at h
  obtain ⟨c, ⟨d, hd, hc⟩, version, hver, key, hk, db, hdb, package, hpk, e, he, h⟩ := h
  injection h with h
  have hdb0 : s.db = some db := by
    unfold Signer.connected at hdb
    split at hdb
    · injection hdb with hdb; rw [← hdb]; assumption
    · cases hdb
  have hsc : s'.scope = s.scope := by rw [← h]
  have hfl : s'.files = s.files := by rw [← h]
  have hdb' : s'.connected = .ok (db.set package { e with versions := e.versions.set version (.str (hex (C.sign key c))) }) := by
    rw [← h]; rfl
  have hpk' : s'.scopeName "package" = .ok package := by
    unfold Signer.scopeName at hpk ⊢; rw [hsc]; exact hpk
  have hver' : s'.scopeName "version" = .ok version := by
    unfold Signer.scopeName at hver ⊢; rw [hsc]; exact hver
  have hlook := set_self db package { e with versions := e.versions.set version (.str (hex (C.sign key c))) }
  have hkey : e.key = some key := by
    simp only [Signer.signingKey, bind_eq_ok] at hk
    obtain ⟨db1, h1, p1, h2, h3⟩ := hk
    rw [hdb] at h1
    injection h1 with h1
    rw [hpk] at h2
    injection h2 with h2
    subst h1 h2
    rw [get_ok.1 he] at h3
    simp only [Option.bind_some] at h3
    cases hkk : e.key with
    | none => rw [hkk] at h3; cases h3
    | some k' => rw [hkk] at h3; injection h3 with h3; rw [h3]
  have hent : s.entry = .ok e := by simp only [Signer.entry, hdb, hpk, bind, Except.bind, he]
  have hent' : s'.entry = .ok { e with versions := e.versions.set version (.str (hex (C.sign key c))) } := by
    simp only [Signer.entry, hdb', hpk', bind, Except.bind]
    exact get_ok.2 hlook
  have hk' : s'.signingKey = .ok key := by
    simp only [Signer.signingKey, hdb', hpk', bind, Except.bind, hlook, Option.bind_some]
    rw [hkey]
  have hsum : s'.summary C = s.summary C := by
    simp only [Signer.summary, hent, hent', hk, hk', hsc, hfl, bind, Except.bind]
  have hsig : s'.signature = .ok (C.sign key c) := by
    simp only [Signer.signature, hdb', hpk', hver', bind, Except.bind, hlook, Option.bind_some, set_self, fromHex_hex]
  refine ⟨?_, hsum, by rw [hk, hk'], hfl⟩
  injection hc with hc
  exact ⟨("checksum", .str (hex c)) :: d ++ [("signature", .str (hex (C.sign key c)))], by
    simp only [Signer.summarize, Signer.checksum, hsum, hd, hsig, hk', hc, hC, bind, Except.bind, raiseIf, Bool.true_eq_false, if_false]⟩

/-- Adding files one after another. -/
def Signer.addFiles (E : Env) (s : Signer Sk) : List (String × Bytes) → Except Err (Signer Sk)
  | [] => .ok s
  | (name, data) :: rest => do
    let s ← s.addFile E name data
    addFiles E s rest

theorem addFiles_mem {E : Env} (l : List (String × Bytes)) : ∀ {s s' : Signer Sk}, s.addFiles E l = .ok s' →
    ∀ f j, (f, j) ∈ s'.files → (f, j) ∈ s.files ∨ ∃ data, (f, data) ∈ l ∧ j = .str (hex (E.hash data)) := by
  induction l with
  | nil =>
    intro s s' h f j hm
    injection h with h
    subst h
    exact .inl hm
  | cons item l ih =>
    intro s s' h f j hm
    obtain ⟨name, data⟩ := item
    simp only [Signer.addFiles, Signer.addFile, bind_eq_ok] at h
    obtain ⟨s1, ⟨_, _, h1⟩, h2⟩ := h
    injection h1 with h1
    rcases ih h2 f j hm with hm | ⟨d, hd, e⟩
    · rw [← h1] at hm
      rcases mem_set hm with hm | hm
      · exact .inl hm
      · injection hm with e1 e2
        exact .inr ⟨data, by rw [e1]; exact List.mem_cons_self, e2⟩
    · exact .inr ⟨d, List.mem_cons_of_mem _ hd, e⟩

/-- **C54** From beginning to end: files are added to a signer without files, the package is signed, the summary is made. Then the verifier accepts it wherever the
files are the ones that were added. -/
theorem C54_end_to_end (E : Env) (C : Curve Sk Pk) (hC : ∀ k m, C.verify (C.publicOf k) (C.sign k m) m = true) (s s1 s2 : Signer Sk) (hs : s.files = [])
    (added : List (String × Bytes)) (h1 : s.addFiles E added = .ok s1) (h2 : s1.signPackage E C = .ok s2) {key : Sk} (hk : s2.signingKey = .ok key)
    (read : String → Except Err Bytes) (hr : ∀ f data, (f, data) ∈ added → read f = .ok data) :
    ∃ summary, s2.summarize E C = .ok summary ∧ verifySummary E C (C.publicOf key) (some read) summary = .ok () := by
  obtain ⟨⟨summary, h3⟩, _, _, h4⟩ := C54_signed_summary E C hC s1 s2 h2
  refine ⟨summary, h3, C54_summary_accepted E C s2 hk h3 (some read) ?_⟩
  intro r hr' f j hm
  injection hr' with hr'
  subst hr'
  rw [h4] at hm
  rcases addFiles_mem added h1 f j hm with hm | ⟨data, hd, e⟩
  · rw [hs] at hm; cases hm
  · exact ⟨data, hr f data hd, e⟩

/-- **C54** A summary that `summarize` returns has a signature for its own contents: a signature made before something was changed is not used. -/
theorem C54_summary_signed (E : Env) (C : Curve Sk Pk) (s : Signer Sk) {summary : Dict Json} (h : s.summarize E C = .ok summary) :
    ∃ key sig, s.signingKey = .ok key ∧ s.signature = .ok sig ∧ s.summary C = .ok (body summary) ∧
      C.verify (C.publicOf key) sig (E.hash (E.dumps (body summary))) = true := by
  simp only [Signer.summarize, Signer.checksum, bind_eq_ok, raiseIf_ok, Bool.not_eq_false] at h
  obtain ⟨c, ⟨d, hd, hc⟩, sig, hs, k, hk, _, hv, d', hd', h⟩ := h
  rw [hd] at hd'
  injection hd' with hd'
  subst hd'
  injection hc with hc
  injection h with h
  obtain ⟨e, k', _, _, hdd⟩ := summary_ok hd
  have hb : body summary = d := by
    rw [← h, hdd]
    simp [body]
  exact ⟨k, sig, hk, hs, by rw [hb]; exact hd, by rw [hb, hc]; exact hv⟩

/-- **C54** The contents do not depend on the order in which files were added. -/
theorem C54_order (C : Curve Sk Pk) (s : Signer Sk) (files : Dict Json) (hn : s.files.Keys) (hp : s.files.Perm files) :
    ({ s with files := files } : Signer Sk).summary C = s.summary C := by
  have : files.sorted = s.files.sorted := (sorted_perm hn hp).symm
  simp only [Signer.summary]
  rw [this]
  rfl

/-- **C54** A version that was not signed has no summary. -/
theorem C54_not_signed (E : Env) (C : Curve Sk Pk) (s : Signer Sk) {e : Entry Sk} {version : String} {key : Sk} (he : s.entry = .ok e)
    (hv : s.scopeName "version" = .ok version) (hk : s.signingKey = .ok key) (hn : e.versions.lookup version = none) :
    s.summarize E C = .error .packageNotSigned := by
  simp only [Signer.entry, bind_eq_ok, get_ok] at he
  obtain ⟨db, hdb, package, hp, he⟩ := he
  simp only [Signer.summarize, Signer.checksum, Signer.summary, Signer.entry, Signer.signature, hdb, hp, hv, hk, bind, Except.bind, Dict.get, he, Option.bind_some, hn]

/-- **C54** Connecting to a database keeps what it has for all packages, and adds an empty entry for a package that it does not have. -/
theorem C54_connect (s : Signer Sk) {package : String} (hp : s.scopeName "package" = .ok package) (stored : Dict (Entry Sk)) :
    ∃ db, s.connect stored = .ok { s with db := some db } ∧ (∀ p e, stored.lookup p = some e → db.lookup p = some e) ∧
      (stored.lookup package = none → db.lookup package = some {}) ∧ (∀ p, p ≠ package → db.lookup p = stored.lookup p) := by
  have hset : ∀ (d : Dict (Entry Sk)) (p : String) (v : Entry Sk), p ≠ package → (d.set package v).lookup p = d.lookup p := by
    intro d p v hne
    induction d with
    | nil =>
      have : (p == package) = false := by simpa using hne
      simp [Dict.set, List.lookup, this]
    | cons x d ih =>
      obtain ⟨k, w⟩ := x
      simp only [Dict.set]
      by_cases hk : k = package
      · subst hk
        have : (p == k) = false := by simpa using hne
        simp [List.lookup, this]
      · rw [if_neg hk]
        simp only [List.lookup]
        cases hpk : p == k with
        | true => rfl
        | false => exact ih
  simp only [Signer.connect, hp, bind, Except.bind]
  cases hl : stored.lookup package with
  | some e => exact ⟨stored, rfl, fun _ _ h => h, by simp, fun _ _ => rfl⟩
  | none =>
    refine ⟨stored.set package {}, rfl, ?_, fun _ => set_self _ _ _, fun p hne => hset _ _ _ hne⟩
    intro p e h
    have hne : p ≠ package := by rintro rfl; rw [hl] at h; cases h
    rw [hset _ _ _ hne]; exact h

/-- **C54** The key of a signer is the one that was set last; the rest stays. -/
theorem C54_update_key (C : Curve Sk Pk) (s : Signer Sk) {e : Entry Sk} (he : s.entry = .ok e) (given : Given Sk) {key : Sk} (hg : C.processSecret given = .ok key) :
    ∃ s', s.updateKey C given = .ok s' ∧ s'.signingKey = .ok key ∧ s'.entry = .ok { e with key := some key } ∧ s'.files = s.files ∧ s'.scope = s.scope := by
  simp only [Signer.entry, bind_eq_ok, get_ok] at he
  obtain ⟨db, hdb, package, hp, he⟩ := he
  refine ⟨{ s with db := some (db.set package { e with key := some key }) }, ?_, ?_, ?_, rfl, rfl⟩
  · simp only [Signer.updateKey, Signer.change, hg, hdb, hp, bind, Except.bind, Dict.get, he]
  · have hp' : Signer.scopeName { s with db := some (db.set package { e with key := some key }) } "package" = .ok package := hp
    simp only [Signer.signingKey, Signer.connected, hp', bind, Except.bind, set_self, Option.bind]
  · have hp' : Signer.scopeName { s with db := some (db.set package { e with key := some key }) } "package" = .ok package := hp
    simp only [Signer.entry, Signer.connected, hp', bind, Except.bind, Dict.get, set_self]

/-! ### beside the property -/

/-- The verifier does not read the spelling of the checksum and the signature: both can be respelled (upper case, spaces) without the key. -/
theorem C54_respelled (E : Env) (C : Curve Sk Pk) (key : Pk) (read : Option (String → Except Err Bytes)) (checksum checksum' signature signature' : Json) (rest : Dict Json)
    (hr : ∀ item ∈ rest, item.1 ≠ "checksum" ∧ item.1 ≠ "signature") (hc : fromHex checksum = fromHex checksum') (hs : fromHex signature = fromHex signature') :
    verifySummary E C key read (("checksum", checksum) :: ("signature", signature) :: rest) =
      verifySummary E C key read (("checksum", checksum') :: ("signature", signature') :: rest) := by
  have e1 : ∀ a b : Json, (("checksum", a) :: ("signature", b) :: rest : Dict Json).lookup "signing_key" = rest.lookup "signing_key" := by
    intro a b; simp [List.lookup]
  have e2 : ∀ a b : Json, (("checksum", a) :: ("signature", b) :: rest : Dict Json).lookup "checksums" = rest.lookup "checksums" := by
    intro a b; simp [List.lookup]
  have e3 : ∀ a b : Json, Dict.without (("checksum", a) :: ("signature", b) :: rest : Dict Json) "checksum" = ("signature", b) :: rest := by
    intro a b
    have h1 : rest.filter (fun item => decide (item.1 ≠ "checksum")) = rest := List.filter_eq_self.2 (fun item hi => by simpa using (hr item hi).1)
    simp only [Dict.without, List.filter_cons]
    rw [h1]
    simp
  have e4 : ∀ b : Json, Dict.without (("signature", b) :: rest : Dict Json) "signature" = rest := by
    intro b
    have h1 : rest.filter (fun item => decide (item.1 ≠ "signature")) = rest := List.filter_eq_self.2 (fun item hi => by simpa using (hr item hi).2)
    simp only [Dict.without, List.filter_cons]
    rw [h1]
    simp
  have e5 : ∀ a b : Json, Dict.get (("checksum", a) :: ("signature", b) :: rest : Dict Json) "checksum" = .ok a := by
    intro a b; simp [Dict.get, List.lookup]
  have e6 : ∀ b : Json, Dict.get (("signature", b) :: rest : Dict Json) "signature" = .ok b := by
    intro b; simp [Dict.get, List.lookup]
  simp only [verifySummary, importSummary, e3, e4, e5, e6, hc, hs, bind, Except.bind]
  simp only [Dict.get, e1, e2]

/-- A summary that anyone can make who knows the public key: it lists one file. -/
def forged (E : Env) (C : Curve Sk Pk) (key : Pk) (file : String) (digest : Bytes) : Dict Json :=
  let rest : Dict Json := [("checksums", .obj [(file, .str (hex digest))]), ("signing_key", .str (hex (C.rawPublic key)))]
  ("checksum", .str (hex (E.hash (E.dumps rest)))) :: ("signature", .str "") :: rest

/-- The files that a summary lists are read before its signature is checked: what the call raises for a forged summary tells if some file has some digest. -/
theorem C54_unsigned_probe (E : Env) (C : Curve Sk Pk) (key : Pk) (hv : ∀ m, C.verify key [] m = false) (read : String → Except Err Bytes) (file : String) (data digest : Bytes)
    (hr : read file = .ok data) : verifySummary E C key (some read) (forged E C key file digest) = .error (if E.hash data = digest then .invalidSignature else .invalidDigest) := by
  have h0 : fromHex (.str "") = .ok [] := rfl
  have hcf : checkFiles E read [(file, Json.str (hex digest))] = if E.hash data = digest then .ok () else .error .invalidDigest := by
    simp only [checkFiles, checkFile, fromHex_hex, hr, bind, Except.bind, raiseIf]
    by_cases e : E.hash data = digest
    · simp [e]
    · have e' : ¬ digest = E.hash data := fun h => e h.symm
      simp [e, e']
  simp only [verifySummary, importSummary, forged, Dict.get, Dict.without, List.lookup, List.filter_cons, List.filter_nil, itemsOf, bind, Except.bind, raiseIf]
  by_cases e : E.hash data = digest
  · subst e
    simp [fromHex_hex, h0, hcf, hv]
  · simp [fromHex_hex, h0, hcf, e]

/-- Some file names cannot be added: the files are held in a namespace. -/
theorem C54_file_names (E : Env) (s : Signer Sk) (data : Bytes) (name : String) (h : name = "keys" ∨ name = "values" ∨ name = "items" ∨ name = "update" ∨ name = "clear") :
    s.addFile E name data = .error .permission := by
  simp [Signer.addFile, settable, raiseIf, h, bind, Except.bind]

/-! ### samples -/

def sampleEnv : Env := ⟨fun b => b.take 4, fun d => List.replicate d.length 7⟩

def sampleSigner : Signer UInt8 :=
  { scope := [("package", .str "p"), ("version", .str "1"), ("date", .other 3)], db := some [("p", { key := some 5, versions := [], credentials := [("mail", .str "x")] })] }

theorem toy_signs : ∀ k m, toy.verify (toy.publicOf k) (toy.sign k m) m = true := by
  intro k m
  simp [toy]

example : ∃ s1 s2 summary, sampleSigner.addFiles sampleEnv [("b.py", [1, 2]), ("a.py", [3])] = .ok s1 ∧ s1.signPackage sampleEnv toy = .ok s2 ∧
    s2.summarize sampleEnv toy = .ok summary ∧
    verifySummary sampleEnv toy 5 (some fun f => if f = "a.py" then .ok [3] else if f = "b.py" then .ok [1, 2] else .error .fileNotFound) summary = .ok () := by
  have h1 : ∃ s1, sampleSigner.addFiles sampleEnv [("b.py", [1, 2]), ("a.py", [3])] = .ok s1 := ⟨_, rfl⟩
  obtain ⟨s1, h1⟩ := h1
  have h2 : ∃ s2, s1.signPackage sampleEnv toy = .ok s2 ∧ s2.signingKey = .ok 5 := by
    injection h1 with h1
    subst h1
    exact ⟨_, rfl, rfl⟩
  obtain ⟨s2, h2, hk⟩ := h2
  obtain ⟨summary, h3, h4⟩ := C54_end_to_end sampleEnv toy toy_signs sampleSigner s1 s2 rfl _ h1 h2 hk
    (fun f => if f = "a.py" then .ok [3] else if f = "b.py" then .ok [1, 2] else .error .fileNotFound) (by
      intro f data hm
      simp only [List.mem_cons, List.not_mem_nil, or_false, Prod.mk.injEq] at hm
      rcases hm with ⟨rfl, rfl⟩ | ⟨rfl, rfl⟩ <;> rfl)
  exact ⟨s1, s2, summary, h1, h2, h3, h4⟩

example : fromHex (.str "0aFF") = fromHex (.str "0A ff ") := by decide

example : (∀ m, toy.verify 5 [] m = false) ∧
    verifySummary sampleEnv toy 5 (some fun _ => .ok [1, 2]) (forged sampleEnv toy 5 "secret" [1, 2]) = .error .invalidSignature ∧
    verifySummary sampleEnv toy 5 (some fun _ => .ok [1, 2]) (forged sampleEnv toy 5 "secret" [1, 3]) = .error .invalidDigest := by
  have hv : ∀ m, toy.verify 5 [] m = false := fun m => rfl
  refine ⟨hv, ?_, ?_⟩ <;> rw [C54_unsigned_probe sampleEnv toy 5 hv _ "secret" [1, 2] _ rfl] <;> rfl

example : sampleSigner.summarize sampleEnv toy = .error .packageNotSigned :=
  C54_not_signed sampleEnv toy sampleSigner (e := { key := some 5, versions := [], credentials := [("mail", .str "x")] }) rfl rfl rfl rfl

example : ∃ s', sampleSigner.updateKey toy (.key 9) = .ok s' ∧ s'.signingKey = .ok 9 := by
  obtain ⟨s', h1, h2, _⟩ := C54_update_key toy sampleSigner rfl (.key 9) (key := 9) rfl
  exact ⟨s', h1, h2⟩

end Aiootp.Package
