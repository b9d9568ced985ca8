import Verif.Lemmas.Profile

/-!
C64: user profiles. A profile is opened with credentials and a passphrase; what is opened is the database with the key that is returned.
-/

namespace Aiootp.Profile

open Canon Passcrypt

/-! ### histories -/

/-- The draws of a history are `token_bytes(32)`. -/
def Draws (events : List Event) : Prop := ∀ l a b, Event.login l a b ∈ events → a.length = 32 ∧ b.length = 32

/-- The salt files of a directory were all made by the code. -/
def Disk.Made (d : Disk) : Prop := d.admin.Made ∧ d.salts.Made

/-- An empty directory. -/
def Disk.empty : Disk := ⟨fun _ => none, fun _ => none, fun _ => false⟩

theorem Disk.empty_made : Disk.empty.Made := ⟨fun _ _ h => (by cases h), fun _ _ h => (by cases h)⟩

theorem step_made {E : Env} {d : Disk} {e : Event} (hd : d.Made) (he : ∀ l a b, e = .login l a b → a.length = 32 ∧ b.length = 32) : (step E d e).Made := by
  cases e with
  | login l a b =>
    obtain ⟨h1, h2⟩ := he l a b rfl
    exact openProfile_made h1 h2 hd
  | delete o =>
    refine ⟨hd.1, ?_⟩
    intro n s hn
    simp only [step, deleteProfile, Dir.set] at hn
    split at hn
    · cases hn
    · exact hd.2 n s hn

/-- **C64** The directory stays one whose salts were made by the code. -/
theorem C64_made {E : Env} {d : Disk} (hd : d.Made) {events : List Event} (he : Draws events) : (run E d events).Made := by
  induction events generalizing d with
  | nil => exact hd
  | cons e es ih =>
    refine ih (step_made hd ?_) (fun l a b h => he l a b (List.mem_cons_of_mem _ h))
    rintro l a b rfl
    exact he l a b List.mem_cons_self

theorem run_keeps {E : Env} {d : Disk} {path root : Name} {events : List Event} (hev : ∀ o', Event.delete o' ∈ events → o'.saltPath ≠ path) :
    (∀ n s, d.admin n = some s → (run E d events).admin n = some s) ∧ (∀ s, d.salts path = some s → (run E d events).salts path = some s) ∧
    ((∀ o', Event.delete o' ∈ events → E.root o'.key ≠ root) → d.roots root = true → (run E d events).roots root = true) := by
  induction events generalizing d with
  | nil => exact ⟨fun _ _ h => h, fun _ h => h, fun _ h => h⟩
  | cons e es ih =>
    obtain ⟨h1, h2, h3⟩ := ih (d := step E d e) (fun o' h => hev o' (List.mem_cons_of_mem _ h))
    cases e with
    | login l a b =>
      obtain ⟨k1, k2, k3⟩ := openProfile_keeps E d l a b
      exact ⟨fun n s h => h1 n s (k1 n s h), fun s h => h2 s (k2 _ s h), fun hr h => h3 (fun o' ho => hr o' (List.mem_cons_of_mem _ ho)) (k3 _ h)⟩
    | delete o =>
      have hne := hev o List.mem_cons_self
      refine ⟨fun n s h => h1 n s h, fun s h => h2 s ?_, fun hr h => h3 (fun o' ho => hr o' (List.mem_cons_of_mem _ ho)) ?_⟩
      · simp only [step, deleteProfile, Dir.set]
        rw [if_neg (fun e => hne e.symm)]
        exact h
      · have := hr o List.mem_cons_self
        simp only [step, deleteProfile]
        rw [if_neg (fun e => this e.symm)]
        exact h

/-! ### the same login -/

/-- **C64** A profile stays: whatever else is done in the directory (by other users, with wrong passphrases, calls that raise), the same login opens the same
database, unless a profile with the same salt file is deleted. -/
theorem C64_same_key {E : Env} {d : Disk} {l : Login} {a b : Bytes} {o : Opened} (ha : a.length = 32) (hb : b.length = 32) (h : (openProfile E d l a b).1 = .ok o)
    {events : List Event} (hev : ∀ o', Event.delete o' ∈ events → o'.saltPath ≠ o.saltPath) (a' b' : Bytes) :
    ∃ created, (openProfile E (run E (openProfile E d l a b).2 events) l a' b').1 = .ok ⟨o.key, o.saltPath, created⟩ ∧
      ((∀ o', Event.delete o' ∈ events → E.root o'.key ≠ E.root o.key) → created = false) := by
  obtain ⟨dn, device, admin, gist, salt, salts, h1, h2, h3, h4, h5⟩ := openProfile_ok.1 h
  have hdisk := openProfile_disk h1 h2 h3 h4
  obtain ⟨k1, k2, k3⟩ := run_keeps (E := E) (d := (openProfile E d l a b).2) (path := o.saltPath) (root := E.root o.key) hev
  have s1 := k1 dn device (by rw [hdisk]; exact summonSalt_stored h1)
  have s2 := k2 salt (by rw [hdisk]; exact summonSalt_stored h3)
  have l1 : 32 ≤ device.length := by
    rcases (summonSalt_ok.1 h1).2 with ⟨_, rfl, _⟩ | ⟨_, h, _⟩
    · omega
    · exact h
  have l2 : 32 ≤ salt.length := by
    rcases (summonSalt_ok.1 h3).2 with ⟨_, rfl, _⟩ | ⟨_, h, _⟩
    · omega
    · exact h
  refine ⟨!(run E (openProfile E d l a b).2 events).roots (E.root o.key), openProfile_ok.2 ⟨dn, device, _, gist, salt, _,
    summonSalt_ok.2 ⟨(summonSalt_ok.1 h1).1, .inr ⟨s1, l1, rfl⟩⟩, h2, summonSalt_ok.2 ⟨(summonSalt_ok.1 h3).1, .inr ⟨s2, l2, rfl⟩⟩, h4, rfl⟩, ?_⟩
  intro hr
  rw [k3 hr (by rw [hdisk]; simp)]
  rfl

/-! ### other logins -/

/-- **C64** Different logins open different databases: two logins, in one directory or in two, that open databases with the same key have the same credentials,
user name, salt, aad, passphrase and settings, and read the same salts. (Otherwise something that they hash is a collision.) -/
theorem C64_separate {E : Env} {d d' : Disk} {l l' : Login} {a b a' b' : Bytes} {o o' : Opened} (hd : d.Made) (hd' : d'.Made) (ha : a.length = 32) (hb : b.length = 32)
    (ha' : a'.length = 32) (hb' : b'.length = 32) (h : (openProfile E d l a b).1 = .ok o) (h' : (openProfile E d' l' a' b').1 = .ok o') (hk : o.key = o'.key) :
    (l = l' ∧ o.saltPath = o'.saltPath ∧ (openProfile E d l a b).2.salts o.saltPath = (openProfile E d' l' a' b').2.salts o'.saltPath) ∨
    LoginsCollide E d l a b d' l' a' b' := by
  obtain ⟨dn, device, admin, gist, salt, salts, h1, h2, h3, h4, h5⟩ := openProfile_ok.1 h
  obtain ⟨dn', device', admin', gist', salt', salts', h1', h2', h3', h4', h5'⟩ := openProfile_ok.1 h'
  have m1 := (summonSalt_made h1 hd.1 ha).2
  have m2 := (summonSalt_made h1' hd'.1 ha').2
  have m3 := (summonSalt_made h3 hd.2 hb).2
  have m4 := (summonSalt_made h3' hd'.2 hb').2
  rw [← hk] at h4'
  have look : ∀ {d : Disk} {l : Login} {a b device gist salt key : Bytes} {dn path : Name} {admin salts : Dir}, summonSalt E d.admin E.deviceSalt a = .ok (dn, device, admin) →
      gistOf E device l = .ok gist → summonSalt E d.salts gist b = .ok (path, salt, salts) → loginKey E l gist salt = .ok key →
      ∃ m p ss, gistMessage E device l = .ok m ∧ gist = E.sha512 m ∧ prekeyMessage E l gist salt = .ok p ∧ loginSessions E l p salt = .ok ss ∧ LoginHashes E d l a b m p ss := by
    intro d l a b device gist salt key dn path admin salts h1 h2 h3 h4
    simp only [gistOf, bind_eq_ok] at h2
    obtain ⟨m, hm, h2⟩ := h2
    injection h2 with h2
    simp only [loginKey, Passcrypt.new, bind_eq_ok] at h4
    obtain ⟨_, _, p, hp, ss, hss, _⟩ := h4
    subst h2
    exact ⟨m, p, ss, hm, rfl, hp, hss, ⟨_, _, _, h1, hm⟩, ⟨_, _, _, h3, hp, hss⟩⟩
  obtain ⟨gm, pm, ss, lg, lg2, lp, lss, lh⟩ := look h1 h2 h3 h4
  obtain ⟨gm', pm', ss', lg', lg2', lp', lss', lh'⟩ := look h1' h2' h3' h4'
  rcases loginKey_inj (by rw [gistOf_length h2, gistOf_length h2']) (by rw [m3, m4]) h4 h4' with ⟨e1, e2, e3, e4, e5, e6⟩ | ⟨p, p', s, s', hp, hp', hs, hs', hcol⟩
  · subst e3
    rcases gistOf_inj (by rw [m1, m2]) h2 h2' with ⟨g1, g2, g3, g4, g5⟩ | ⟨m, m', hm, hm', hcol⟩
    · refine .inl ⟨?_, ?_, ?_⟩
      · cases l
        cases l'
        simp only at e1 e4 e5 e6 g2 g3 g4 g5
        simp only [e1, e4, e5, e6, g2, g3, g4, g5]
      · have := (summonSalt_ok.1 h3).1.symm.trans (summonSalt_ok.1 h3').1
        injection this
      · rw [openProfile_disk h1 h2 h3 h4, openProfile_disk h1' h2' h3' h4']
        show salts o.saltPath = salts' o'.saltPath
        rw [summonSalt_stored h3, summonSalt_stored h3', e2]
    · cases lg.symm.trans hm
      cases lg'.symm.trans hm'
      exact .inr ⟨_, _, _, _, _, _, lh, lh', .inl hcol⟩
  · cases lp.symm.trans hp
    cases lp'.symm.trans hp'
    cases lss.symm.trans hs
    cases lss'.symm.trans hs'
    exact .inr ⟨_, _, _, _, _, _, lh, lh', .inr hcol⟩

/-! ### every passphrase is accepted -/

/-- Arguments of ordinary size and settings in range. -/
structure Ordinary (E : Env) (l : Login) : Prop where
  mb : 1 ≤ l.mb ∧ l.mb ≤ 256 ^ 3
  cpu : 1 ≤ l.cpu ∧ l.cpu ≤ 256
  cores : 1 ≤ l.cores ∧ l.cores ≤ 256
  credentials : l.credentials.length < 2 ^ 60 ∧ ∀ c ∈ l.credentials, c.length < 2 ^ 60
  username : l.username.length < 2 ^ 60
  salt : l.salt.length < 2 ^ 60
  aad : l.aad.length < 2 ^ 60
  passphrase : l.passphrase.length < 2 ^ 60

/-- The constants have ordinary sizes. -/
structure Env.Ordinary (E : Env) : Prop where
  domain : E.passcrypt.domain.length < 2 ^ 60
  metadata : E.metadata.length < 2 ^ 60
  gist : E.gist.length < 2 ^ 60
  prekey : E.prekey.length < 2 ^ 60
  sizes : E.loginKey.length + E.pepper.length < 2 ^ 60
  deviceSalt : 16 ≤ E.deviceSalt.length

theorem hash_total {items : List Bytes} {key : Bytes} (h0 : key ≠ []) (h1 : key.length < 2 ^ 60) (h2 : items.length < 2 ^ 61) (h3 : ∀ i ∈ items, i.length < 2 ^ 60) :
    ∃ x, hashBytesInput items 72 64 [0] none (some key) = .ok x := by
  have hb : 0 < 72 ∧ 72 < 256 ^ 8 := by decide
  refine ⟨keyed 72 0 key ++ packed 72 0 (beDigits 8 64 :: items), ?_⟩
  rw [hashBytesInput_ok]
  refine ⟨_, _, (encodeKey_iff hb).2 ⟨⟨h0, by omega⟩, rfl⟩, by decide, (canonicalPack_iff hb).2 ⟨⟨?_, ?_⟩, rfl⟩, rfl⟩
  · simp only [List.length_cons]; omega
  · intro i hi
    rcases List.mem_cons.1 hi with rfl | hi
    · simp [effectiveSize]
    · have := h3 i hi
      omega

theorem gistOf_total {E : Env} (hE : E.Ordinary) {l : Login} (hl : Ordinary E l) {device : Bytes} (hd : device.length = 32) : ∃ g, gistOf E device l = .ok g := by
  obtain ⟨x, hx⟩ := hash_total (items := [E.gist, device, l.salt, l.aad, l.username] ++ l.credentials) (key := device) (by rintro rfl; simp at hd) (by omega)
    (by have := hl.credentials.1; simp only [List.length_append, List.length_cons, List.length_nil]; omega) (by
      intro i hi
      simp only [List.mem_append, List.mem_cons, List.not_mem_nil, or_false] at hi
      rcases hi with (rfl | rfl | rfl | rfl | rfl) | hi
      · exact hE.gist
      · omega
      · exact hl.salt
      · exact hl.aad
      · exact hl.username
      · exact hl.credentials.2 i hi)
  refine ⟨E.sha512 x, ?_⟩
  simp only [gistOf, bind_eq_ok]
  exact ⟨x, hx, rfl⟩

theorem loginKey_total {E : Env} (hE : E.Ordinary) {l : Login} (hl : Ordinary E l) (hp : l.passphrase ≠ []) {gist salt : Bytes} (hg : gist.length = 64) (hs : salt.length = 32) :
    ∃ k, loginKey E l gist salt = .ok k := by
  obtain ⟨x, hx⟩ := hash_total (items := [E.prekey, salt, gist]) (key := l.passphrase) hp hl.passphrase (by simp) (by
      intro i hi
      simp only [List.mem_cons, List.not_mem_nil, or_false] at hi
      rcases hi with rfl | rfl | rfl
      · exact hE.prekey
      · omega
      · omega)
  have hlen := E.length_sha512 x
  have hk := hE.sizes
  have hmb := hl.mb
  have hsp : Spawnable (E.sha512 x) salt E.loginKey E.pepper l.mb l.cpu l.cores 64 :=
    ⟨by omega, by omega, (C49_cores (M := E.metadata) ⟨hl.mb, hl.cpu⟩ hl.cores).1.mb, hl.cpu, hl.cores, by decide, by omega, by omega⟩
  obtain ⟨k, hc⟩ := collect_total (E := E.passcrypt) (M := E.metadata) hl.mb hsp (by have := hE.sizes; omega) (by decide) hE.domain hE.metadata
  refine ⟨k, ?_⟩
  simp only [loginKey, bind_eq_ok, validateSettings_ok, Passcrypt.new]
  exact ⟨(), ⟨hl.mb, hl.cpu, hl.cores, by simp [spec], by simp [spec]⟩, x, hx, _, (spawn_iff hl.cores.1).2 ⟨⟨by omega, hsp⟩, rfl⟩, hc⟩

/-- **C64** Every passphrase that is not empty is accepted: a wrong passphrase raises nothing, it opens another database. (Passphrases that `Passcrypt` would refuse as
too short are accepted too.) -/
theorem C64_accepts {E : Env} (hE : E.Ordinary) {d : Disk} (hd : d.Made) {l : Login} (hl : Ordinary E l) (hp : l.passphrase ≠ []) {a b : Bytes} (ha : a.length = 32)
    (hb : b.length = 32) : ∃ o, (openProfile E d l a b).1 = .ok o := by
  obtain ⟨dn, device, admin, h1⟩ := summonSalt_total (E := E) a hE.deviceSalt hd.1
  have m1 := (summonSalt_made h1 hd.1 ha).2
  obtain ⟨gist, h2⟩ := gistOf_total hE hl m1
  have hg := gistOf_length h2
  obtain ⟨path, salt, salts, h3⟩ := summonSalt_total (E := E) (key := gist) b (by omega) hd.2
  have m3 := (summonSalt_made h3 hd.2 hb).2
  obtain ⟨k, h4⟩ := loginKey_total hE hl hp hg m3
  exact ⟨⟨k, path, !d.roots (E.root k)⟩, openProfile_ok.2 ⟨dn, device, admin, gist, salt, salts, h1, h2, h3, h4, rfl⟩⟩

/-- **C64** With an empty passphrase the call raises `ValueError`, and leaves a salt file behind. -/
theorem C64_empty_passphrase {E : Env} (hE : E.Ordinary) {d : Disk} (hd : d.Made) {l : Login} (hl : Ordinary E l) (hp : l.passphrase = []) {a b : Bytes}
    (ha : a.length = 32) : (openProfile E d l a b).1 = .error .value ∧ ∃ path salt, (openProfile E d l a b).2.salts path = some salt := by
  obtain ⟨dn, device, admin, h1⟩ := summonSalt_total (E := E) a hE.deviceSalt hd.1
  have m1 := (summonSalt_made h1 hd.1 ha).2
  obtain ⟨gist, h2⟩ := gistOf_total hE hl m1
  have hg := gistOf_length h2
  obtain ⟨path, salt, salts, h3⟩ := summonSalt_total (E := E) (key := gist) b (by omega) hd.2
  have hv : (spec E.metadata).validateSettings l.mb l.cpu l.cores 64 8 = .ok () := validateSettings_ok.2 ⟨hl.mb, hl.cpu, hl.cores, by simp [spec], by simp [spec]⟩
  have h4 : loginKey E l gist salt = .error .value := by
    rw [loginKey, hv, hp]
    rfl
  unfold openProfile
  simp only [h1, h2, h3, h4, true_and]
  exact ⟨path, salt, summonSalt_stored h3⟩

/-! ### wrong passphrases -/

/-- **C64** A wrong passphrase opens a database with another key, whose salt file is the one of the right passphrase. -/
theorem C64_wrong_passphrase {E : Env} {d : Disk} {l : Login} {p : Bytes} {a b a' b' : Bytes} {o o' : Opened} (hd : d.Made) (ha : a.length = 32) (hb : b.length = 32)
    (ha' : a'.length = 32) (hb' : b'.length = 32) (h : (openProfile E d l a b).1 = .ok o)
    (h' : (openProfile E (openProfile E d l a b).2 { l with passphrase := p } a' b').1 = .ok o') (hp : p ≠ l.passphrase) :
    o'.saltPath = o.saltPath ∧ (o'.key ≠ o.key ∨
      LoginsCollide E (openProfile E d l a b).2 { l with passphrase := p } a' b' d l a b) := by
  constructor
  · obtain ⟨dn, device, admin, gist, salt, salts, h1, h2, h3, h4, h5⟩ := openProfile_ok.1 h
    obtain ⟨dn', device', admin', gist', salt', salts', h1', h2', h3', h4', h5'⟩ := openProfile_ok.1 h'
    have hn : dn' = dn := by
      have := (summonSalt_ok.1 h1').1.symm.trans (summonSalt_ok.1 h1).1
      injection this
    have hs := summonSalt_stored h1
    rw [openProfile_disk h1 h2 h3 h4] at h1'
    have hdev : device' = device := by
      rcases (summonSalt_ok.1 h1').2 with ⟨e, _, _⟩ | ⟨e, _, _⟩
      · rw [hn] at e
        have e : admin dn = none := e
        rw [hs] at e; cases e
      · rw [hn] at e
        have e : admin dn = some device' := e
        rw [hs] at e
        injection e with e
        exact e.symm
    subst hdev
    have hg : gist' = gist := by
      have : gistOf E device' l = .ok gist' := h2'
      rw [h2] at this
      injection this with this
      exact this.symm
    subst hg
    have := (summonSalt_ok.1 h3').1.symm.trans (summonSalt_ok.1 h3).1
    injection this
  · by_cases hk : o'.key = o.key
    · rcases C64_separate (openProfile_made ha hb hd) hd ha' hb' ha hb h' h hk with ⟨e, _⟩ | hcol
      · have : p = l.passphrase := congrArg Login.passphrase e
        exact absurd this hp
      · exact .inr hcol
    · exact .inl hk

/-- **C64** (a defect) Whoever opens a profile with a wrong passphrase, and deletes the database that they get, deletes the salt of the right passphrase: from then on
the right passphrase opens another database, and the first one cannot be opened any more. -/
theorem C64_wrong_delete {E : Env} {d : Disk} {l : Login} {p : Bytes} {a b a' b' a'' b'' : Bytes} {o o' o'' : Opened} (hd : d.Made) (ha : a.length = 32) (hb : b.length = 32)
    (ha' : a'.length = 32) (hb' : b'.length = 32) (ha'' : a''.length = 32) (hb'' : b''.length = 32)
    (h : (openProfile E d l a b).1 = .ok o) (h' : (openProfile E (openProfile E d l a b).2 { l with passphrase := p } a' b').1 = .ok o')
    (hp : p ≠ l.passphrase)
    (h'' : (openProfile E (run E d [.login l a b, .login { l with passphrase := p } a' b', .delete o']) l a'' b'').1 = .ok o'')
    (hfresh : (openProfile E d l a b).2.salts o.saltPath ≠ some b'') :
    o''.key ≠ o.key ∨ LoginsCollide E (run E d [.login l a b, .login { l with passphrase := p } a' b', .delete o']) l a'' b'' d l a b := by
  obtain ⟨hpath, _⟩ := C64_wrong_passphrase hd ha hb ha' hb' h h' hp
  by_cases hk : o''.key = o.key
  · have hmade : (run E d [.login l a b, .login { l with passphrase := p } a' b', .delete o']).Made := by
      refine C64_made hd ?_
      intro l a b hm
      simp only [List.mem_cons, Event.login.injEq, List.not_mem_nil, or_false, reduceCtorEq] at hm
      rcases hm with ⟨_, rfl, rfl⟩ | ⟨_, rfl, rfl⟩
      · exact ⟨ha, hb⟩
      · exact ⟨ha', hb'⟩
    rcases C64_separate hmade hd ha'' hb'' ha hb h'' h hk with ⟨_, e2, e3⟩ | hcol
    · exfalso
      obtain ⟨dn, device, admin, gist, salt, salts, h1, h2, h3, h4, h5⟩ := openProfile_ok.1 h''
      rw [openProfile_disk h1 h2 h3 h4] at e3
      have e3 : salts o''.saltPath = _ := e3
      rw [summonSalt_stored h3] at e3
      have hnone : (run E d [.login l a b, .login { l with passphrase := p } a' b', .delete o']).salts o''.saltPath = none := by
        simp only [run, List.foldl_cons, List.foldl_nil, step, deleteProfile, Dir.set]
        rw [if_pos (by rw [e2, hpath])]
      rcases (summonSalt_ok.1 h3).2 with ⟨_, e, _⟩ | ⟨e, _, _⟩
      · rw [e] at e3
        exact hfresh e3.symm
      · rw [hnone] at e; cases e
    · exact .inr hcol
  · exact .inl hk

/-! ### concrete cases -/

/-- Hash functions that keep the start of the message. -/
def toyEnv : Env where
  sha512 m := (m ++ List.replicate 64 0).take 64
  length_sha512 m := by simp
  sha256 m := (m ++ List.replicate 32 0).take 32
  length_sha256 m := by simp
  passcrypt := ⟨⟨fun m n => (m ++ List.replicate n 0).take n, by intro m n; simp⟩, [1], [2]⟩
  metadata := [3]
  pepper := []
  gist := [4]
  prekey := [5]
  loginKey := [6]
  deviceSalt := List.replicate 20 7
  root key := key.map UInt8.toNat

theorem toyEnv_ordinary : toyEnv.Ordinary := ⟨by decide, by decide, by decide, by decide, by decide, by decide⟩

/-- A login, and the same with another passphrase. -/
def toyLogin : Login := ⟨[[1, 2], []], [3], [4], [], [5], 1, 1, 2⟩

theorem toyLogin_ordinary (p : Bytes) (hp : p.length < 2 ^ 60) : Ordinary toyEnv { toyLogin with passphrase := p } :=
  ⟨by simp [toyLogin], by simp [toyLogin], by simp [toyLogin], by simp [toyLogin], by simp [toyLogin], by simp [toyLogin], by simp [toyLogin], hp⟩

/-- A profile is opened, someone tries a wrong passphrase and deletes what they get: all this is possible. -/
theorem toy_history : ∃ o o' o'', (openProfile toyEnv .empty toyLogin (List.replicate 32 1) (List.replicate 32 2)).1 = .ok o ∧
    (openProfile toyEnv (openProfile toyEnv .empty toyLogin (List.replicate 32 1) (List.replicate 32 2)).2 { toyLogin with passphrase := [9] }
      (List.replicate 32 1) (List.replicate 32 2)).1 = .ok o' ∧
    (openProfile toyEnv (run toyEnv .empty [.login toyLogin (List.replicate 32 1) (List.replicate 32 2),
      .login { toyLogin with passphrase := [9] } (List.replicate 32 1) (List.replicate 32 2), .delete o']) toyLogin (List.replicate 32 1) (List.replicate 32 3)).1 = .ok o'' ∧
    (openProfile toyEnv .empty toyLogin (List.replicate 32 1) (List.replicate 32 2)).2.salts o.saltPath ≠ some (List.replicate 32 3) := by
  obtain ⟨o, h⟩ := C64_accepts toyEnv_ordinary Disk.empty_made (toyLogin_ordinary toyLogin.passphrase (by decide)) (by decide) (a := List.replicate 32 1)
    (b := List.replicate 32 2) (by decide) (by decide)
  have h : (openProfile toyEnv .empty toyLogin (List.replicate 32 1) (List.replicate 32 2)).1 = .ok o := h
  have m1 : (openProfile toyEnv .empty toyLogin (List.replicate 32 1) (List.replicate 32 2)).2.Made := openProfile_made (by decide) (by decide) Disk.empty_made
  obtain ⟨o', h'⟩ := C64_accepts toyEnv_ordinary m1 (toyLogin_ordinary [9] (by decide)) (by decide) (a := List.replicate 32 1) (b := List.replicate 32 2) (by decide) (by decide)
  have m2 : (run toyEnv .empty [.login toyLogin (List.replicate 32 1) (List.replicate 32 2),
      .login { toyLogin with passphrase := [9] } (List.replicate 32 1) (List.replicate 32 2), .delete o']).Made := by
    refine C64_made Disk.empty_made ?_
    intro l a b hm
    simp only [List.mem_cons, Event.login.injEq, List.not_mem_nil, or_false, reduceCtorEq] at hm
    rcases hm with ⟨_, rfl, rfl⟩ | ⟨_, rfl, rfl⟩ <;> exact ⟨by decide, by decide⟩
  obtain ⟨o'', h''⟩ := C64_accepts toyEnv_ordinary m2 (toyLogin_ordinary toyLogin.passphrase (by decide)) (by decide) (a := List.replicate 32 1)
    (b := List.replicate 32 3) (by decide) (by decide)
  refine ⟨o, o', o'', h, h', h'', ?_⟩
  obtain ⟨dn, device, admin, gist, salt, salts, h1, h2, h3, h4, _⟩ := openProfile_ok.1 h
  rw [openProfile_disk h1 h2 h3 h4]
  show salts o.saltPath ≠ _
  rw [summonSalt_stored h3]
  rcases (summonSalt_ok.1 h3).2 with ⟨_, rfl, _⟩ | ⟨e, _, _⟩
  · decide
  · cases e

example : ∃ o o' o'' : Opened, (o''.key ≠ o.key ∨ ∃ d d' l a b a' b', LoginsCollide toyEnv d l a b d' l a' b') ∧ o'.saltPath = o.saltPath := by
  obtain ⟨o, o', o'', h, h', h'', hf⟩ := toy_history
  exact ⟨o, o', o'', (C64_wrong_delete Disk.empty_made (by decide) (by decide) (by decide) (by decide) (by decide) (by decide) h h' (by decide) h'' hf).imp id
      (fun hc => ⟨_, _, _, _, _, _, _, hc⟩),
    (C64_wrong_passphrase Disk.empty_made (by decide) (by decide) (by decide) (by decide) h h' (by decide)).1⟩

example : ∃ (o : Opened) (c : Bool), (openProfile toyEnv (run toyEnv (openProfile toyEnv .empty toyLogin (List.replicate 32 1) (List.replicate 32 2)).2
      [.login { toyLogin with passphrase := [9] } [] [], .login { toyLogin with passphrase := [] } [] []]) toyLogin [] []).1 = .ok ⟨o.key, o.saltPath, c⟩ ∧ c = false := by
  obtain ⟨o, _, _, h, _⟩ := toy_history
  obtain ⟨c, h1, h2⟩ := C64_same_key (by decide) (by decide) h (events := [.login { toyLogin with passphrase := [9] } [] [], .login { toyLogin with passphrase := [] } [] []])
    (by simp) [] []
  exact ⟨o, c, h1, h2 (by simp)⟩

end Aiootp.Profile
