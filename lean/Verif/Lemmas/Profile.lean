import Verif.Spec.Profile
import Verif.Model.Profile
import Verif.Lemmas.Perm
import Verif.Props.Text
import Verif.Props.PasscryptVerify

/-!
Lemmas about user profiles.
-/

namespace Aiootp.Profile

open Canon Passcrypt

/-! ### names of salt files -/

theorem xiMix_total (hash : Bytes) (size : Nat) (hs : 0 < size) : ∃ r, xiMix hash size = .ok r := by
  have key : ∀ (chunks : List Bytes), (∀ c ∈ chunks, c.length ≤ size) → ∀ n < 256 ^ size, chunks.foldl (fun result chunk => result ^^^ fromBE chunk) n < 256 ^ size := by
    intro chunks
    induction chunks with
    | nil => intro _ n hn; exact hn
    | cons c cs ih =>
      intro h n hn
      rw [List.foldl_cons]
      refine ih (fun c hc => h c (List.mem_cons_of_mem _ hc)) _ (Perm.xor_lt hn ?_)
      exact Nat.lt_of_lt_of_le (fromBE_lt c) (Nat.pow_le_pow_right (by decide) (h c List.mem_cons_self))
  have hall : ∀ c ∈ Text.batch size hash, c.length ≤ size := by
    intro c hc
    rw [Text.batch_eq_map size hs] at hc
    obtain ⟨i, _, rfl⟩ := List.mem_map.1 hc
    simp only [List.length_take]
    omega
  exact ⟨_, toBytesBE_ok.2 ⟨key _ hall 0 (Nat.pow_pos (by decide)), rfl⟩⟩

theorem deniableFilename_total (E : Env) {key : Bytes} (h : 16 ≤ key.length) : ∃ n, deniableFilename E key = .ok n := by
  obtain ⟨m, hm⟩ := xiMix_total key 8 (by decide)
  obtain ⟨n, hn, _⟩ := Text.bytesToFilename_spec ((E.sha256 m).take 24)
  refine ⟨n, ?_⟩
  simp only [deniableFilename, bind_eq_ok, raiseIf_ok]
  exact ⟨(), by omega, m, hm, by rw [hn]; rfl⟩

/-! ### salt files -/

theorem summonSalt_ok {E : Env} {dir : Dir} {key draw : Bytes} {name : Name} {salt : Bytes} {dir' : Dir} :
    summonSalt E dir key draw = .ok (name, salt, dir') ↔
    deniableFilename E key = .ok name ∧
      ((dir name = none ∧ salt = draw ∧ dir' = dir.set name (some draw)) ∨ (dir name = some salt ∧ 32 ≤ salt.length ∧ dir' = dir)) := by
  simp only [summonSalt, bind_eq_ok]
  constructor
  · rintro ⟨n, hn, h⟩
    cases hd : dir n with
    | none =>
      rw [hd] at h
      cases h
      exact ⟨hn, .inl ⟨hd, rfl, rfl⟩⟩
    | some s =>
      rw [hd] at h
      simp only [bind_eq_ok, raiseIf_ok] at h
      obtain ⟨_, h1, h2⟩ := h
      cases h2
      exact ⟨hn, .inr ⟨hd, by omega, rfl⟩⟩
  · rintro ⟨hn, h⟩
    refine ⟨name, hn, ?_⟩
    rcases h with ⟨h1, rfl, rfl⟩ | ⟨h1, h2, rfl⟩
    · rw [h1]
    · rw [h1]
      simp only [bind_eq_ok, raiseIf_ok]
      exact ⟨(), by omega, trivial⟩

/-- Salt files are never replaced. -/
theorem summonSalt_keeps {E : Env} {dir : Dir} {key draw : Bytes} {name : Name} {salt : Bytes} {dir' : Dir} (h : summonSalt E dir key draw = .ok (name, salt, dir'))
    {n : Name} {s : Bytes} (hn : dir n = some s) : dir' n = some s := by
  rcases (summonSalt_ok.1 h).2 with ⟨h1, _, rfl⟩ | ⟨_, _, rfl⟩
  · simp only [Dir.set]
    split
    · rename_i e
      rw [e, h1] at hn
      cases hn
    · exact hn
  · exact hn

theorem summonSalt_stored {E : Env} {dir : Dir} {key draw : Bytes} {name : Name} {salt : Bytes} {dir' : Dir} (h : summonSalt E dir key draw = .ok (name, salt, dir')) :
    dir' name = some salt := by
  rcases (summonSalt_ok.1 h).2 with ⟨_, rfl, rfl⟩ | ⟨h1, _, rfl⟩
  · simp [Dir.set]
  · exact h1

/-- All files of a directory have the size of salts made by the code. -/
def Dir.Made (dir : Dir) : Prop := ∀ n s, dir n = some s → s.length = 32

theorem summonSalt_made {E : Env} {dir : Dir} {key draw : Bytes} {name : Name} {salt : Bytes} {dir' : Dir} (h : summonSalt E dir key draw = .ok (name, salt, dir'))
    (hd : dir.Made) (hdraw : draw.length = 32) : dir'.Made ∧ salt.length = 32 := by
  rcases (summonSalt_ok.1 h).2 with ⟨_, rfl, rfl⟩ | ⟨h1, _, rfl⟩
  · refine ⟨?_, hdraw⟩
    intro n s hn
    simp only [Dir.set] at hn
    split at hn
    · injection hn with hn; rw [← hn]; exact hdraw
    · exact hd n s hn
  · exact ⟨hd, hd _ _ h1⟩

theorem summonSalt_total {E : Env} {dir : Dir} {key : Bytes} (draw : Bytes) (hk : 16 ≤ key.length) (hd : dir.Made) :
    ∃ name salt dir', summonSalt E dir key draw = .ok (name, salt, dir') := by
  obtain ⟨n, hn⟩ := deniableFilename_total E hk
  cases h : dir n with
  | none => exact ⟨n, draw, _, summonSalt_ok.2 ⟨hn, .inl ⟨h, rfl, rfl⟩⟩⟩
  | some s => exact ⟨n, s, _, summonSalt_ok.2 ⟨hn, .inr ⟨h, by rw [hd _ _ h], rfl⟩⟩⟩

/-! ### opening a profile -/

theorem openProfile_ok {E : Env} {d : Disk} {l : Login} {a b : Bytes} {o : Opened} :
    (openProfile E d l a b).1 = .ok o ↔ ∃ dn device admin gist salt salts,
      summonSalt E d.admin E.deviceSalt a = .ok (dn, device, admin) ∧ gistOf E device l = .ok gist ∧
      summonSalt E d.salts gist b = .ok (o.saltPath, salt, salts) ∧ loginKey E l gist salt = .ok o.key ∧ o.created = !d.roots (E.root o.key) := by
  unfold openProfile
  constructor
  · intro h
    split at h
    · cases h
    · rename_i dn device admin h1
      simp only at h
      split at h
      · cases h
      · rename_i gist h2
        split at h
        · cases h
        · rename_i path salt salts h3
          split at h
          · cases h
          · rename_i key h4
            simp only at h
            injection h with h
            subst h
            exact ⟨dn, device, admin, gist, salt, salts, h1, h2, h3, h4, rfl⟩
  · rintro ⟨dn, device, admin, gist, salt, salts, h1, h2, h3, h4, h5⟩
    simp only [h1, h2, h3, h4]
    rw [← h5]

theorem openProfile_disk {E : Env} {d : Disk} {l : Login} {a b : Bytes} {dn : Name} {device : Bytes} {admin : Dir} {gist : Bytes} {path : Name} {salt : Bytes} {salts : Dir}
    {key : Bytes} (h1 : summonSalt E d.admin E.deviceSalt a = .ok (dn, device, admin)) (h2 : gistOf E device l = .ok gist)
    (h3 : summonSalt E d.salts gist b = .ok (path, salt, salts)) (h4 : loginKey E l gist salt = .ok key) :
    (openProfile E d l a b).2 = ⟨admin, salts, fun n => if n = E.root key then true else d.roots n⟩ := by
  simp only [openProfile, h1, h2, h3, h4]

/-- A call, also one that raises, replaces no salt and removes no database. -/
theorem openProfile_keeps (E : Env) (d : Disk) (l : Login) (a b : Bytes) :
    (∀ n s, d.admin n = some s → (openProfile E d l a b).2.admin n = some s) ∧ (∀ n s, d.salts n = some s → (openProfile E d l a b).2.salts n = some s) ∧
    (∀ n, d.roots n = true → (openProfile E d l a b).2.roots n = true) := by
  unfold openProfile
  split
  · exact ⟨fun _ _ h => h, fun _ _ h => h, fun _ h => h⟩
  · rename_i dn device admin h1
    simp only
    split
    · exact ⟨fun _ _ h => summonSalt_keeps h1 h, fun _ _ h => h, fun _ h => h⟩
    · rename_i gist h2
      split
      · exact ⟨fun _ _ h => summonSalt_keeps h1 h, fun _ _ h => h, fun _ h => h⟩
      · rename_i path salt salts h3
        split
        · exact ⟨fun _ _ h => summonSalt_keeps h1 h, fun _ _ h => summonSalt_keeps h3 h, fun _ h => h⟩
        · refine ⟨fun _ _ h => summonSalt_keeps h1 h, fun _ _ h => summonSalt_keeps h3 h, fun n h => ?_⟩
          simp only
          split
          · rfl
          · exact h

theorem openProfile_made {E : Env} {d : Disk} {l : Login} {a b : Bytes} (ha : a.length = 32) (hb : b.length = 32) (hd : d.admin.Made ∧ d.salts.Made) :
    (openProfile E d l a b).2.admin.Made ∧ (openProfile E d l a b).2.salts.Made := by
  unfold openProfile
  split
  · exact hd
  · rename_i dn device admin h1
    simp only
    split
    · exact ⟨(summonSalt_made h1 hd.1 ha).1, hd.2⟩
    · rename_i gist h2
      split
      · exact ⟨(summonSalt_made h1 hd.1 ha).1, hd.2⟩
      · rename_i path salt salts h3
        split
        · exact ⟨(summonSalt_made h1 hd.1 ha).1, (summonSalt_made h3 hd.2 hb).1⟩
        · exact ⟨(summonSalt_made h1 hd.1 ha).1, (summonSalt_made h3 hd.2 hb).1⟩

/-! ### keys -/

theorem keyed72_inj {key key' : Bytes} (h : keyed 72 0 key = keyed 72 0 key') : key.length = key'.length := by
  have hle : ∀ key key' : Bytes, keyed 72 0 key = keyed 72 0 key' → ¬ key.length < key'.length := by
    intro key key' h hlt
    have form : ∀ k : Bytes, ∃ n, keyed 72 0 k = (k ++ leDigits 8 k.length) ++ (72 :: (List.replicate 7 0 ++ List.replicate n 0)) := by
      intro k
      refine ⟨1 + (72 * ceilDiv (rawKey 72 0 k).length 72 - (rawKey 72 0 k).length), ?_⟩
      have e : leDigits 8 72 = 72 :: List.replicate 7 0 := by decide
      rw [List.replicate_add]
      simp [keyed, padding, rawKey, e]
    obtain ⟨n, hn⟩ := form key
    obtain ⟨m, hm⟩ := form key'
    have e1 : (keyed 72 0 key')[key'.length + 8]? = some 72 := by
      rw [hm, List.getElem?_append_right (by simp)]
      simp
    obtain ⟨d, hd⟩ : ∃ d, key'.length = key.length + d + 1 := ⟨key'.length - key.length - 1, by omega⟩
    rw [← h, hn, List.getElem?_append_right (by simp; omega)] at e1
    have e2 : key'.length + 8 - (key ++ leDigits 8 key.length).length = d + 1 := by simp; omega
    rw [e2, List.getElem?_cons_succ] at e1
    have := List.mem_of_getElem? e1
    simp only [List.mem_append, List.mem_replicate] at this
    rcases this with ⟨_, h⟩ | ⟨_, h⟩ <;> exact absurd h (by decide)
  have h1 := hle _ _ h
  have h2 := hle _ _ h.symm
  omega

theorem body_length_congr {items items' : List Bytes} (h : items.map List.length = items'.map List.length) : (body items).length = (body items').length := by
  induction items generalizing items' with
  | nil =>
    cases items' with
    | nil => rfl
    | cons => cases h
  | cons i is ih =>
    cases items' with
    | nil => cases h
    | cons j js =>
      simp only [List.map_cons, List.cons.injEq] at h
      simp only [body_cons, List.length_append, length_beDigits, h.1, ih h.2]

theorem packed_length_congr {b : Nat} {p : UInt8} {items items' : List Bytes} (h : items.map List.length = items'.map List.length) :
    (packed b p items).length = (packed b p items').length := by
  have hu : (unpadded b p items).length = (unpadded b p items').length := by
    have hl : items.length = items'.length := by simpa using congrArg List.length h
    simp only [unpadded, List.length_append, length_beDigits]
    rw [body_length_congr (items := beDigits 8 b :: [p] :: items) (items' := beDigits 8 b :: [p] :: items') (by simp [h])]
  simp only [packed, List.length_append, padding, List.length_replicate, hu]

/-- With items of fixed sizes, the messages hashed with two keys of any sizes are different. -/
theorem prekey_inj {prekey salt gist salt' gist' p p' x : Bytes} (hs : salt.length = salt'.length) (hg : gist.length = gist'.length)
    (h : hashBytesInput [prekey, salt, gist] 72 64 [0] none (some p) = .ok x) (h' : hashBytesInput [prekey, salt', gist'] 72 64 [0] none (some p') = .ok x) :
    p = p' ∧ salt = salt' ∧ gist = gist' := by
  have hb : 0 < 72 ∧ 72 < 256 ^ 8 := by decide
  have hlen : p.length = p'.length := by
    obtain ⟨pre, pk, h1, _, h2, h3⟩ := hashBytesInput_ok.1 h
    obtain ⟨pre', pk', h1', _, h2', h3'⟩ := hashBytesInput_ok.1 h'
    have h1 : encodeKey p 72 [0] = .ok pre := h1
    have h1' : encodeKey p' 72 [0] = .ok pre' := h1'
    rw [encodeKey_iff hb] at h1 h1'
    rw [canonicalPack_iff hb] at h2 h2'
    obtain ⟨_, rfl⟩ := h1
    obtain ⟨_, rfl⟩ := h1'
    obtain ⟨_, rfl⟩ := h2
    obtain ⟨_, rfl⟩ := h2'
    have := List.append_inj' (h3.symm.trans h3') (packed_length_congr (by simp [hs, hg]))
    exact keyed72_inj this.1
  obtain ⟨h1, _, _, h2⟩ := C05_same_key_length_partial h h' (by simp [hlen])
  simp only [Option.some.injEq] at h1
  simp only [List.cons.injEq, and_true, true_and] at h2
  exact ⟨h1, h2⟩

theorem session_ext {s s' : Session} (h0 : s.passphrase = s'.passphrase) (h1 : s.salt = s'.salt) (h2 : s.aad = s'.aad) (h3 : s.mb = s'.mb) (h4 : s.cpu = s'.cpu)
    (h5 : s.cores = s'.cores) (h6 : s.tagSize = s'.tagSize) : s = s' := by
  cases s
  cases s'
  simp only at h0 h1 h2 h3 h4 h5 h6
  subst h0 h1 h2 h3 h4 h5 h6
  rfl

/-- Sessions with passphrases, salts and aads of one length and one message are equal. -/
theorem sessionMessage_inj {E : Passcrypt.Env} {M : Bytes} {s s' : Session} (hf : Fits E M s) (hf' : Fits E M s')
    (hp : s.passphrase.length = s'.passphrase.length) (hs : s.salt.length = s'.salt.length) (ha : s.aad.length = s'.aad.length)
    (h : sessionMessage E M s = sessionMessage E M s') : s = s' := by
  have h1 := parametersMessage_iff.2 ⟨hf, rfl⟩
  have h2 := parametersMessage_iff.2 ⟨hf', rfl⟩
  rw [h] at h1
  simp only [parametersMessage, bind_eq_ok, toBytesBE_ok] at h1 h2
  obtain ⟨_, ⟨m1, rfl⟩, _, ⟨m2, rfl⟩, _, ⟨m3, rfl⟩, _, ⟨m4, rfl⟩, h1⟩ := h1
  obtain ⟨_, ⟨n1, rfl⟩, _, ⟨n2, rfl⟩, _, ⟨n3, rfl⟩, _, ⟨n4, rfl⟩, h2⟩ := h2
  obtain ⟨k, _, _, e⟩ := C05_same_key_length_partial h1 h2 (by simp [hp, hs, ha])
  simp only [Option.some.injEq] at k
  simp only [List.cons.injEq, and_true, true_and] at e
  obtain ⟨e1, e2, e3, e4, e5, e6⟩ := e
  have d3 := beDigits_inj m1 n1 e3
  have d4 := beDigits_inj m2 n2 e4
  have d5 := beDigits_inj m3 n3 e5
  have d6 := beDigits_inj m4 n4 e6
  have e0 : s.passphrase = s'.passphrase := by
    rw [List.append_assoc, List.append_assoc] at k
    exact (List.append_inj k hp).1
  exact session_ext e0 e1 e2 d3 d4 d5 d6

/-- Tags of one size, of passphrases and salts of one size: the inputs and settings are the same, or what is hashed is a collision. -/
theorem new_inj {E : Passcrypt.Env} {M p p' s s' aad pepper k : Bytes} {mb mb' cpu cpu' cores cores' tagSize : Nat} (hcores : 1 ≤ cores) (hcores' : 1 ≤ cores')
    (hp : p.length = p'.length) (hs : s.length = s'.length)
    (h : Passcrypt.new E (spec M) ⟨mb, cpu, cores, tagSize, 8, pepper⟩ p s aad = .ok k)
    (h' : Passcrypt.new E (spec M) ⟨mb', cpu', cores', tagSize, 8, pepper⟩ p' s' aad = .ok k) :
    (p = p' ∧ s = s' ∧ mb = mb' ∧ cpu = cpu' ∧ cores = cores') ∨
    ∃ ss ss', spawn (spec M) p s aad pepper mb cpu cores tagSize = .ok ss ∧ spawn (spec M) p' s' aad pepper mb' cpu' cores' tagSize = .ok ss' ∧
      CollideIn E.xof (Hashes E (spec M) ss tagSize) (Hashes E (spec M) ss' tagSize) := by
  simp only [Passcrypt.new, bind_eq_ok] at h h'
  obtain ⟨ss, hss, hc⟩ := h
  obtain ⟨ss', hss', hc'⟩ := h'
  have found := fun hcol => (⟨ss, ss', hss, hss', hcol⟩ : ∃ ss ss', spawn (spec M) p s aad pepper mb cpu cores tagSize = .ok ss ∧
    spawn (spec M) p' s' aad pepper mb' cpu' cores' tagSize = .ok ss' ∧ CollideIn E.xof (Hashes E (spec M) ss tagSize) (Hashes E (spec M) ss' tagSize))
  obtain ⟨⟨hmb, hok⟩, rfl⟩ := (spawn_iff hcores).1 hss
  obtain ⟨⟨hmb', hok'⟩, rfl⟩ := (spawn_iff hcores').1 hss'
  simp only [collect, bind_eq_ok] at hc hc'
  obtain ⟨rs, hrs, m, hm, hd⟩ := hc
  obtain ⟨rs', hrs', m', hm', hd'⟩ := hc'
  injection hd with hd
  injection hd' with hd'
  by_cases em : m = m'
  · subst em
    obtain ⟨n, rfl⟩ : ∃ n, cores = n + 1 := ⟨cores - 1, by omega⟩
    obtain ⟨n', rfl⟩ : ∃ n, cores' = n + 1 := ⟨cores' - 1, by omega⟩
    rw [mapM_ok, List.range_succ_eq_map, List.map_cons] at hrs hrs'
    cases hrs with
    | @cons _ r1 _ rest1 hr1 hrest1 =>
      cases hrs' with
      | @cons _ r2 _ rest2 hr2 hrest2 =>
        have hl : ∀ {s : Session} {r : Bytes}, passcrypt E (spec M) s = .ok r → r.length = 168 := by
          intro s r hr
          simp only [passcrypt, bind_eq_ok] at hr
          obtain ⟨_, _, _, _, hr⟩ := hr
          injection hr with hr
          rw [← hr, E.xof.length_digest]
        simp only [tagMessage] at hm hm'
        obtain ⟨this, _, _, hall⟩ := C05_same_key_length_partial hm hm' (by simp [hl hr1, hl hr2])
        injection this with this
        subst this
        rcases passcrypt_same hr1 hr2 with he | hcol
        · left
          have hf1 := passcrypt_fits hr1
          have hf2 := passcrypt_fits hr2
          have e := sessionMessage_inj hf1 hf2 hp hs (by
            show (coreAad pepper aad mb 0).length = (coreAad pepper aad mb' 0).length
            rw [coreAad_length, coreAad_length]) he
          simp only [coreSession, Session.mk.injEq] at e
          obtain ⟨e1, e2, e3, e4, e5, e6, _⟩ := e
          refine ⟨e1, e2, ?_, e5, e6⟩
          rw [coreAad_form, coreAad_form] at e3
          have e3 := List.append_cancel_left (List.append_cancel_left (List.append_cancel_left e3))
          simp only [coreTail] at e3
          exact beDigits_inj hmb hmb' (List.append_cancel_left (List.append_cancel_left (List.append_cancel_left e3)))
        · obtain ⟨i, x, y, hx, hy, hcol⟩ := hcol
          exact .inr (found ⟨i, x, y, .session (List.mem_map.2 ⟨0, by simp, rfl⟩) hx, .session (List.mem_map.2 ⟨0, by simp, rfl⟩) hy, hcol⟩)
  · exact .inr (found ⟨tagSize, m, m', .tag hrs hm, .tag hrs' hm', em, hd.trans hd'.symm⟩)

theorem loginKey_inj {E : Env} {l l' : Login} {g g' s s' k : Bytes} (hg : g.length = g'.length) (hs : s.length = s'.length)
    (h : loginKey E l g s = .ok k) (h' : loginKey E l' g' s' = .ok k) :
    (l.passphrase = l'.passphrase ∧ s = s' ∧ g = g' ∧ l.mb = l'.mb ∧ l.cpu = l'.cpu ∧ l.cores = l'.cores) ∨
    ∃ m m' ss ss', prekeyMessage E l g s = .ok m ∧ prekeyMessage E l' g' s' = .ok m' ∧ loginSessions E l m s = .ok ss ∧ loginSessions E l' m' s' = .ok ss' ∧
      (Collide E.sha512 m m' ∨ CollideIn E.passcrypt.xof (Hashes E.passcrypt (spec E.metadata) ss 64) (Hashes E.passcrypt (spec E.metadata) ss' 64)) := by
  simp only [loginKey, bind_eq_ok, validateSettings_ok] at h h'
  obtain ⟨_, ⟨_, _, c, _⟩, m, hm, hk⟩ := h
  obtain ⟨_, ⟨_, _, c', _⟩, m', hm', hk'⟩ := h'
  rcases new_inj c.1 c'.1 (by rw [E.length_sha512, E.length_sha512]) hs hk hk' with ⟨e1, e2, e3, e4, e5⟩ | ⟨ss, ss', hss, hss', hcol⟩
  · by_cases em : m = m'
    · subst em
      obtain ⟨p, q, r⟩ := prekey_inj hs hg hm hm'
      exact .inl ⟨p, q, r, e3, e4, e5⟩
    · simp only [Passcrypt.new, bind_eq_ok] at hk hk'
      obtain ⟨ss, hss, _⟩ := hk
      obtain ⟨ss', hss', _⟩ := hk'
      exact .inr ⟨m, m', ss, ss', hm, hm', hss, hss', .inl ⟨em, e1⟩⟩
  · exact .inr ⟨m, m', ss, ss', hm, hm', hss, hss', .inr hcol⟩

theorem gistOf_inj {E : Env} {l l' : Login} {device device' g : Bytes} (hd : device.length = device'.length) (h : gistOf E device l = .ok g) (h' : gistOf E device' l' = .ok g) :
    (device = device' ∧ l.salt = l'.salt ∧ l.aad = l'.aad ∧ l.username = l'.username ∧ l.credentials = l'.credentials) ∨
    ∃ m m', gistMessage E device l = .ok m ∧ gistMessage E device' l' = .ok m' ∧ Collide E.sha512 m m' := by
  simp only [gistOf, bind_eq_ok] at h h'
  obtain ⟨m, hm, h⟩ := h
  obtain ⟨m', hm', h'⟩ := h'
  injection h with h
  injection h' with h'
  by_cases em : m = m'
  · subst em
    obtain ⟨_, _, _, e⟩ := C05_same_key_length_partial hm hm' (by simp [hd])
    simp only [List.cons_append, List.nil_append, List.cons.injEq, true_and] at e
    exact .inl e
  · exact .inr ⟨m, m', hm, hm', em, h.trans h'.symm⟩

theorem gistOf_length {E : Env} {device g : Bytes} {l : Login} (h : gistOf E device l = .ok g) : g.length = 64 := by
  simp only [gistOf, bind_eq_ok] at h
  obtain ⟨m, _, h⟩ := h
  injection h with h
  rw [← h, E.length_sha512]

end Aiootp.Profile
