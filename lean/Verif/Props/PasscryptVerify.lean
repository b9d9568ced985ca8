import Verif.Lemmas.PasscryptMessage
import Verif.Props.PasscryptHash
import Verif.Props.PasscryptWalk
import Verif.Props.Clock

/-!
C48: `hash_passphrase` and `verify`, with the settings and limits of `passcrypt_spec`.
-/

namespace Aiootp.Passcrypt

open Canon

/-! ### the sessions of a call -/

theorem mapM_ok {α β : Type} {f : α → Except Err β} {l : List α} {r : List β} : l.mapM f = .ok r ↔ List.Forall₂ (fun a b => f a = .ok b) l r := by
  induction l generalizing r with
  | nil =>
    simp only [List.mapM_nil, pure, Except.pure]
    constructor
    · intro h; injection h with h; subst h; exact .nil
    · intro h; cases h; rfl
  | cons a l ih =>
    simp only [List.mapM_cons, bind_eq_ok, pure, Except.pure]
    constructor
    · rintro ⟨b, hb, bs, hbs, h⟩
      injection h with h
      subst h
      exact .cons hb (ih.1 hbs)
    · intro h
      cases h with
      | cons hb hbs => exact ⟨_, hb, _, ih.2 hbs, rfl⟩

theorem mapM_map {α β : Type} {f : α → Except Err β} {g : α → β} {l : List α} (h : ∀ a ∈ l, f a = .ok (g a)) : l.mapM f = .ok (l.map g) := by
  rw [mapM_ok]
  induction l with
  | nil => exact .nil
  | cons a l ih => exact .cons (h a List.mem_cons_self) (ih fun b hb => h b (List.mem_cons_of_mem _ hb))

theorem mapM_eq_map {α β : Type} {f : α → Except Err β} {g : α → β} {l : List α} {r : List β} (h : ∀ a ∈ l, ∀ b, f a = .ok b → b = g a)
    (hr : l.mapM f = .ok r) : r = l.map g := by
  rw [mapM_ok] at hr
  induction hr with
  | nil => rfl
  | cons hb _ ih => rw [List.map_cons, h _ List.mem_cons_self _ hb, ih fun a ha => h a (List.mem_cons_of_mem _ ha)]

/-- The aad of the session of a core. -/
def coreAad (pepper aad : Bytes) (mb core : Nat) : Bytes := packed 1 0 [pepper, aad, beDigits 8 core, beDigits 8 mb]

/-- The session of a core. -/
def coreSession (p s aad pepper : Bytes) (mb cpu cores tagSize core : Nat) : Session :=
  ⟨p, s, coreAad pepper aad mb core, ceilTrueDiv mb cores, cpu, cores, tagSize⟩

/-- What is checked for all sessions. -/
structure Spawnable (p s aad pepper : Bytes) (mb cpu cores tagSize : Nat) : Prop where
  passphrase : 12 ≤ p.length
  salt : 4 ≤ s.length ∧ s.length ≤ 256
  mb : 1 ≤ ceilTrueDiv mb cores ∧ ceilTrueDiv mb cores ≤ 256 ^ 3
  cpu : 1 ≤ cpu ∧ cpu ≤ 256
  cores : 1 ≤ cores ∧ cores ≤ 256
  tagSize : 16 ≤ tagSize
  pepper : pepper.length < 256 ^ 8
  aad : aad.length < 256 ^ 8

theorem make_iff {M : Bytes} {s r : Session} : Session.make (spec M) s = .ok r ↔ (12 ≤ s.passphrase.length ∧ (4 ≤ s.salt.length ∧ s.salt.length ≤ 256) ∧
    (1 ≤ s.mb ∧ s.mb ≤ 256 ^ 3) ∧ (1 ≤ s.cpu ∧ s.cpu ≤ 256) ∧ (1 ≤ s.cores ∧ s.cores ≤ 256) ∧ 16 ≤ s.tagSize) ∧ r = s := by
  simp only [Session.make, bind_eq_ok, Config.validateInputs, raiseIf_ok, validateSettings_ok, Decidable.not_not, exists_const]
  show ((12 ≤ _ ∧ 4 ≤ _ ∧ _ ≤ 256) ∧ ((1 ≤ _ ∧ _ ≤ 256 ^ 3) ∧ (1 ≤ _ ∧ _ ≤ 256) ∧ (1 ≤ _ ∧ _ ≤ 256) ∧ 16 ≤ _ ∧ 4 ≤ _ ∧ _ ≤ 256) ∧ _) ↔ _
  constructor
  · rintro ⟨⟨h1, h2⟩, ⟨h3, h4, h5, h6, _⟩, h7⟩
    injection h7 with h7
    exact ⟨⟨h1, h2, h3, h4, h5, h6⟩, h7.symm⟩
  · rintro ⟨⟨h1, h2, h3, h4, h5, h6⟩, rfl⟩
    exact ⟨⟨h1, h2⟩, ⟨h3, h4, h5, h6, h2⟩, rfl⟩

theorem spawn_one {M p s aad pepper : Bytes} {mb cpu cores tagSize core : Nat} {r : Session} :
    (do
      let core ← toBytesBE 8 core
      let coreAad ← canonicalPack [pepper, aad, core, beDigits 8 mb] 1 [0] 8
      Session.make (spec M) ⟨p, s, coreAad, ceilTrueDiv mb cores, cpu, cores, tagSize⟩ : Except Err Session) = .ok r ↔
    (core < 256 ^ 8 ∧ Spawnable p s aad pepper mb cpu cores tagSize) ∧ r = coreSession p s aad pepper mb cpu cores tagSize core := by
  simp only [bind_eq_ok, toBytesBE_ok, canonicalPack_iff (b := 1) (p := 0) (by decide), make_iff]
  constructor
  · rintro ⟨_, ⟨h1, rfl⟩, _, ⟨⟨_, h2⟩, rfl⟩, ⟨h3, h4, h5, h6, h7, h8⟩, rfl⟩
    exact ⟨⟨h1, h3, h4, h5, h6, h7, h8, h2 _ (by simp), h2 _ (by simp)⟩, rfl⟩
  · rintro ⟨⟨h1, h⟩, rfl⟩
    refine ⟨_, ⟨h1, rfl⟩, _, ⟨⟨by simp, ?_⟩, rfl⟩, ⟨h.passphrase, h.salt, h.mb, h.cpu, h.cores, h.tagSize⟩, rfl⟩
    intro i hi
    simp only [List.mem_cons, List.not_mem_nil, or_false] at hi
    rcases hi with rfl | rfl | rfl | rfl
    · exact h.pepper
    · exact h.aad
    · simp
    · simp

theorem spawn_iff {M p s aad pepper : Bytes} {mb cpu cores tagSize : Nat} {r : List Session} (hc : 1 ≤ cores) :
    spawn (spec M) p s aad pepper mb cpu cores tagSize = .ok r ↔
    (mb < 256 ^ 8 ∧ Spawnable p s aad pepper mb cpu cores tagSize) ∧ r = (List.range cores).map (coreSession p s aad pepper mb cpu cores tagSize) := by
  simp only [spawn, bind_eq_ok, toBytesBE_ok]
  constructor
  · rintro ⟨_, ⟨h1, rfl⟩, h⟩
    have hr := mapM_eq_map (g := coreSession p s aad pepper mb cpu cores tagSize) (fun core _ b hb => (spawn_one.1 hb).2) h
    refine ⟨⟨h1, ?_⟩, hr⟩
    obtain ⟨n, rfl⟩ : ∃ n, cores = n + 1 := ⟨cores - 1, by omega⟩
    rw [mapM_ok, List.range_succ_eq_map] at h
    cases h with
    | cons hb _ => exact (spawn_one.1 hb).1.2
  · rintro ⟨⟨h1, h⟩, rfl⟩
    refine ⟨_, ⟨h1, rfl⟩, mapM_map fun core hcore => spawn_one.2 ⟨⟨?_, h⟩, rfl⟩⟩
    have := List.mem_range.1 hcore
    have := h.cores
    omega

/-! ### what `verify` does before any work -/

theorem verifyParts_ok {M hash : Bytes} {reading : Int} {ttl : Option Int} {mbA cpuA coresA : Nat → Bool} {h : Hash} :
    verifyParts (spec M) hash reading ttl mbA cpuA coresA = .ok h ↔
    importHash (spec M) hash = .ok h ∧ Clock.testTimestamp reading h.timestamp (ttl.map (ttlUnits (spec M))) .big = .ok () ∧
      mbA h.mb = true ∧ cpuA h.cpu = true ∧ coresA h.cores = true := by
  simp only [verifyParts, bind_eq_ok, inAllowedRanges, raiseIf_ok, validateSettings_ok, Decidable.not_not, exists_const]
  constructor
  · rintro ⟨parts, h1, _, h2, ⟨h3, h4, h5⟩, _, h6⟩
    injection h6 with h6
    subst h6
    exact ⟨h1, h2, h3, h4, h5⟩
  · rintro ⟨h1, h2, h3, h4, h5⟩
    have hv := ((C47_import (spec_wf M) hash h).1 h1).1
    exact ⟨h, h1, (), h2, ⟨h3, h4, h5⟩, ⟨hv.mb, hv.cpu, hv.cores, hv.tag, by simp [spec], by simp [spec]⟩, rfl⟩

/-- **C48** If `verify` starts any session, then the settings in the hash are in the allowed ranges and the hash has not expired; there is one session
for each core, with the settings in the hash. -/
theorem C48_ranges (E : Env) (M pepper hash passphrase aad : Bytes) (reading : Int) (ttl : Option Int) (mbA cpuA coresA : Nat → Bool)
    (hs : (verify E (spec M) pepper hash passphrase aad reading ttl mbA cpuA coresA).started ≠ []) :
    ∃ h : Hash, h.Valid (spec M) ∧ Layout (spec M) h hash ∧ mbA h.mb = true ∧ cpuA h.cpu = true ∧ coresA h.cores = true ∧
      (∀ t, ttl = some t → reading - fromBE h.timestamp ≤ ttlUnits (spec M) t) ∧
      (verify E (spec M) pepper hash passphrase aad reading ttl mbA cpuA coresA).started.length = h.cores ∧
      ∀ s ∈ (verify E (spec M) pepper hash passphrase aad reading ttl mbA cpuA coresA).started,
        s.passphrase = passphrase ∧ s.salt = h.salt ∧ s.cpu = h.cpu ∧ s.cores = h.cores ∧ s.mb = ceilDiv h.mb h.cores := by
  unfold verify at hs ⊢
  cases hp : verifyParts (spec M) hash reading ttl mbA cpuA coresA with
  | error e => rw [hp] at hs; exact absurd rfl hs
  | ok h =>
    rw [hp] at hs
    simp only at hs ⊢
    obtain ⟨h1, h2, h3, h4, h5⟩ := verifyParts_ok.1 hp
    obtain ⟨hv, hts, hl⟩ := (C47_import (spec_wf M) hash h).1 h1
    cases hsp : spawn (spec M) passphrase h.salt (h.timestamp ++ aad) pepper h.mb h.cpu h.cores h.tag.length with
    | error e => rw [hsp] at hs; exact absurd rfl hs
    | ok sessions =>
      have hcores : 1 ≤ h.cores := hv.cores.1
      obtain ⟨_, rfl⟩ := (spawn_iff hcores).1 hsp
      refine ⟨h, hv, hl, h3, h4, h5, ?_, by simp, ?_⟩
      · rintro t rfl
        simp only [Option.map_some, Clock.testTimestamp] at h2
        split at h2
        · cases h2
        · rename_i hd
          simp only [Clock.delta, Clock.readTimestamp] at hd
          omega
      · intro s hs
        simp only [List.mem_map] at hs
        obtain ⟨core, _, rfl⟩ := hs
        have hmb : h.mb ≤ 256 ^ 3 := hv.mb.2
        exact ⟨rfl, rfl, rfl, rfl, ceilTrueDiv_eq (by omega) (by omega)⟩

/-! ### hashes of one's own -/

/-- What a made hash consists of. -/
theorem hashPassphrase_ok {E : Env} {M : Bytes} {t : Settings} {made : Int} {draw p aad hash : Bytes} (h : hashPassphrase E (spec M) t made draw p aad = .ok hash) :
    ∃ ts tag sessions, Clock.makeTimestamp made 8 .big = .ok ts ∧ spawn (spec M) p draw (ts ++ aad) t.pepper t.mb t.cpu t.cores t.tagSize = .ok sessions ∧
      collect E (spec M) sessions t.tagSize = .ok tag ∧ tag.length = t.tagSize ∧ importHash (spec M) hash = .ok ⟨ts, t.mb, t.cpu, t.cores, draw, tag⟩ := by
  simp only [hashPassphrase, new, bind_eq_ok, make_ok] at h
  obtain ⟨_, _, ts, hts, tag, ⟨sessions, hs, hc⟩, hh, ⟨hv, rfl⟩, he⟩ := h
  obtain ⟨b, hb, hl⟩ := C47_export (spec_wf M) hv
  rw [he] at hb
  injection hb with hb
  subst hb
  refine ⟨ts, tag, sessions, hts, hs, hc, ?_, ?_⟩
  · simp only [collect, bind_eq_ok] at hc
    obtain ⟨_, _, m, _, hc⟩ := hc
    injection hc with hc
    rw [← hc, E.xof.length_digest]
  · exact (C47_import (spec_wf M) _ _).2 ⟨hv, ((Clock.C19_timestamp_round_trip made 8 .big).1 ts hts).1, hl⟩

/-- **C48** `verify` accepts the passphrase and aad a hash was made of, within the ttl and if its settings are allowed. -/
theorem C48_accepts {E : Env} {M : Bytes} {t : Settings} {made : Int} {draw p aad hash : Bytes} (h : hashPassphrase E (spec M) t made draw p aad = .ok hash)
    {now : Int} {ttl : Option Int} (httl : ∀ u, ttl = some u → now - made ≤ ttlUnits (spec M) u)
    {mbA cpuA coresA : Nat → Bool} (hmb : mbA t.mb = true) (hcpu : cpuA t.cpu = true) (hcores : coresA t.cores = true) :
    (verify E (spec M) t.pepper hash p aad now ttl mbA cpuA coresA).result = .ok () := by
  obtain ⟨ts, tag, sessions, hts, hs, hc, hlen, hi⟩ := hashPassphrase_ok h
  have hp : verifyParts (spec M) hash now ttl mbA cpuA coresA = .ok ⟨ts, t.mb, t.cpu, t.cores, draw, tag⟩ := by
    refine verifyParts_ok.2 ⟨hi, ?_, hmb, hcpu, hcores⟩
    rw [Clock.C19_ttl_exact hts]
    cases ttl with
    | none => rfl
    | some u => simp only [Option.map_some]; rw [if_pos (httl u rfl)]
  simp only [verify, hp, hlen, hs, bind_eq_ok, raiseIf_ok]
  exact ⟨tag, hc, by simp⟩

/-- **C48** After the ttl `verify` raises, and starts nothing. -/
theorem C48_expired {E : Env} {M : Bytes} {t : Settings} {made : Int} {draw p aad hash : Bytes} (h : hashPassphrase E (spec M) t made draw p aad = .ok hash)
    {now u : Int} (httl : now - made > ttlUnits (spec M) u) (pepper p' aad' : Bytes) (mbA cpuA coresA : Nat → Bool) :
    verify E (spec M) pepper hash p' aad' now (some u) mbA cpuA coresA = ⟨[], .error (.timestampExpired (now - made - ttlUnits (spec M) u))⟩ := by
  obtain ⟨ts, tag, sessions, hts, hs, hc, hlen, hi⟩ := hashPassphrase_ok h
  have hp : verifyParts (spec M) hash now (some u) mbA cpuA coresA = .error (.timestampExpired (now - made - ttlUnits (spec M) u)) := by
    have := Clock.C19_ttl_exact (now := now) hts (some (ttlUnits (spec M) u))
    simp only at this
    rw [if_neg (by omega)] at this
    simp only [verifyParts, hi, bind, Except.bind, Option.map_some, this]
  simp only [verify, hp]

/-- **C48** If a setting is not allowed `verify` raises, and starts nothing. -/
theorem C48_not_allowed {E : Env} {M : Bytes} {hash : Bytes} {h : Hash} (hi : importHash (spec M) hash = .ok h) {now : Int} {mbA cpuA coresA : Nat → Bool}
    (hr : mbA h.mb = false ∨ cpuA h.cpu = false ∨ coresA h.cores = false) (pepper p' aad' : Bytes) :
    verify E (spec M) pepper hash p' aad' now none mbA cpuA coresA = ⟨[], .error .resource⟩ := by
  have hp : verifyParts (spec M) hash now none mbA cpuA coresA = .error .resource := by
    simp only [verifyParts, hi, bind, Except.bind, Option.map_none, Clock.testTimestamp, inAllowedRanges, raiseIf]
    by_cases h1 : mbA h.mb = true
    · by_cases h2 : cpuA h.cpu = true
      · by_cases h3 : coresA h.cores = true
        · simp [h1, h2, h3] at hr
        · simp [h1, h2, h3]
      · simp [h1, h2]
    · simp [h1]
  simp only [verify, hp]

theorem toDouble_exact {m k : Nat} (h : m ≤ 2 ^ 53) : toDouble (m * 2 ^ k) = m * 2 ^ k := by
  unfold toDouble
  by_cases h0 : m * 2 ^ k < 1
  · rw [Clock.intTrueDiv, if_pos h0]; omega
  · rw [Clock.intTrueDiv_of_le h0]
    simp only [Nat.div_one, Nat.one_mul]
    split
    · rw [Clock.roundHalfEven_exact (by decide) (Nat.mod_one _), Nat.div_one, Nat.mul_div_cancel _ (Nat.two_pow_pos _)]
    · rename_i he
      have hd : 2 ^ (Nat.log2 (m * 2 ^ k) - 52) ∣ m * 2 ^ k := by
        by_cases hk : Nat.log2 (m * 2 ^ k) - 52 ≤ k
        · exact Nat.dvd_trans (Nat.pow_dvd_pow 2 hk) (Nat.dvd_mul_left _ _)
        · have h1 : 2 ^ Nat.log2 (m * 2 ^ k) ≤ m * 2 ^ k := Nat.log2_self_le (by omega)
          have h2 : m * 2 ^ k ≤ 2 ^ (53 + k) := by rw [Nat.pow_add]; exact Nat.mul_le_mul_right _ h
          have h3 : Nat.log2 (m * 2 ^ k) ≤ 53 + k := (Nat.pow_le_pow_iff_right (by decide)).1 (Nat.le_trans h1 h2)
          have h4 : Nat.log2 (m * 2 ^ k) = 53 + k := by omega
          rw [h4] at h1
          have h5 : m * 2 ^ k = 2 ^ (53 + k) := Nat.le_antisymm h2 h1
          rw [h4]
          rw [h5]
          exact Nat.pow_dvd_pow 2 (by omega)
      rw [Clock.roundHalfEven_exact (Nat.two_pow_pos _) (Nat.mod_eq_zero_of_dvd hd), Nat.div_mul_cancel hd]

/-- **C48** For a ttl of up to 146 years the product with the number of nanoseconds is exact. -/
theorem C48_ttl_exact (M : Bytes) (ttl : Int) (h : ttl.natAbs * 1953125 ≤ 2 ^ 53) : ttlUnits (spec M) ttl = ttl * 10 ^ 9 := by
  have h1 : toDouble ttl.natAbs = ttl.natAbs := by
    have := toDouble_exact (m := ttl.natAbs) (k := 0) (by omega)
    simpa using this
  have h2 : toDouble (ttl.natAbs * (spec M).unitsPerSecond) = ttl.natAbs * 10 ^ 9 := by
    have := toDouble_exact (k := 9) h
    have e : ttl.natAbs * 1953125 * 2 ^ 9 = ttl.natAbs * 10 ^ 9 := by rw [Nat.mul_assoc]; rfl
    rw [e] at this
    exact this
  unfold ttlUnits
  simp only [h1, h2]
  split <;> omega

/-! ### the forms of the messages -/

theorem padding_one (p : UInt8) (n : Nat) : padding 1 p n = [] := by
  have : ceilDiv n 1 = n := by simp [ceilDiv]
  simp [padding, this]

/-- The start of the aad of a session. -/
def coreHead (pepper : Bytes) : Bytes :=
  beDigits 1 8 ++ (beDigits 8 6 ++ (beDigits 8 8 ++ (beDigits 8 1 ++ (beDigits 8 1 ++ ([0] ++ (beDigits 8 pepper.length ++ pepper))))))

theorem coreHead_length (pepper : Bytes) : (coreHead pepper).length = 42 + pepper.length := by
  simp only [coreHead, List.length_append, length_beDigits, List.length_cons, List.length_nil]
  omega

/-- The end of the aad of a session. -/
def coreTail (mb core : Nat) : Bytes := beDigits 8 8 ++ (beDigits 8 core ++ (beDigits 8 8 ++ beDigits 8 mb))

theorem coreTail_length (mb core : Nat) : (coreTail mb core).length = 32 := by
  simp only [coreTail, List.length_append, length_beDigits]

theorem coreAad_form (pepper aad : Bytes) (mb core : Nat) :
    coreAad pepper aad mb core = coreHead pepper ++ (beDigits 8 aad.length ++ (aad ++ coreTail mb core)) := by
  simp only [coreAad, packed, padding_one, List.append_nil, unpadded, body, List.flatMap_cons, List.flatMap_nil, length_beDigits, List.length_cons, List.length_nil,
    coreHead, coreTail, List.append_assoc]

theorem coreAad_length (pepper aad : Bytes) (mb core : Nat) : (coreAad pepper aad mb core).length = 82 + pepper.length + aad.length := by
  rw [coreAad_form]
  simp only [List.length_append, coreHead_length, coreTail_length, length_beDigits]
  omega

/-- The start of the packed parameters, up to the aad. -/
def msgHead (E : Env) (M salt : Bytes) : Bytes :=
  beDigits 1 8 ++ (beDigits 8 11 ++ (beDigits 8 8 ++ (beDigits 8 168 ++ (beDigits 8 1 ++ ([0xf2] ++ (beDigits 8 8 ++ (beDigits 8 336 ++
    (beDigits 8 E.domain.length ++ (E.domain ++ (beDigits 8 M.length ++ (M ++ (beDigits 8 salt.length ++ salt))))))))))))

/-- The end of the packed parameters, after the aad. -/
def msgTail (mb cpu cores tagSize : Nat) : Bytes :=
  beDigits 8 8 ++ (beDigits 8 mb ++ (beDigits 8 8 ++ (beDigits 8 cpu ++ (beDigits 8 8 ++ (beDigits 8 cores ++ (beDigits 8 8 ++ beDigits 8 tagSize))))))

theorem unpadded_form (E : Env) (M : Bytes) (s : Session) :
    unpadded 168 0xf2 [beDigits 8 336, E.domain, M, s.salt, s.aad, beDigits 8 s.mb, beDigits 8 s.cpu, beDigits 8 s.cores, beDigits 8 s.tagSize] =
      msgHead E M s.salt ++ (beDigits 8 s.aad.length ++ (s.aad ++ msgTail s.mb s.cpu s.cores s.tagSize)) := by
  simp only [unpadded, body, List.flatMap_cons, List.flatMap_nil, length_beDigits, List.length_cons, List.length_nil, msgHead, msgTail, List.append_assoc, List.append_nil]

/-- The whole message: what is padded in the end is padded to whole blocks. -/
theorem sessionMessage_form (E : Env) (M : Bytes) (s : Session) :
    sessionMessage E M s =
      (keyed 168 0xf2 (s.passphrase ++ s.salt ++ s.aad) ++ (msgHead E M s.salt ++ (beDigits 8 s.aad.length ++ (s.aad ++ msgTail s.mb s.cpu s.cores s.tagSize)))) ++
      padding 168 0xf2 (keyed 168 0xf2 (s.passphrase ++ s.salt ++ s.aad) ++
        (msgHead E M s.salt ++ (beDigits 8 s.aad.length ++ (s.aad ++ msgTail s.mb s.cpu s.cores s.tagSize)))).length := by
  rw [List.length_append, padding_add (by decide) (keyed_aligned (by decide)), sessionMessage, packed, unpadded_form]
  exact (List.append_assoc _ _ _).symm

/-- Two lists first differ in one place only. -/
theorem first_difference {u v x y z x' y' z' : Bytes} {c d c' d' : UInt8} (hu : u = x ++ c :: y) (hv : v = x ++ d :: z) (hu' : u = x' ++ c' :: y') (hv' : v = x' ++ d' :: z')
    (hne : c ≠ d) (hne' : c' ≠ d') : x.length = x'.length := by
  have key : ∀ {u v x y z x' y' z' : Bytes} {c d c' d' : UInt8}, u = x ++ c :: y → v = x ++ d :: z → u = x' ++ c' :: y' → v = x' ++ d' :: z' → c ≠ d →
      ¬ x.length < x'.length := by
    intro u v x y z x' y' z' c d c' d' hu hv hu' hv' hne hlt
    have e1 : u[x.length]? = some c := by rw [hu, List.getElem?_append_right (Nat.le_refl _)]; simp
    have e2 : v[x.length]? = some d := by rw [hv, List.getElem?_append_right (Nat.le_refl _)]; simp
    rw [hu', List.getElem?_append_left hlt] at e1
    rw [hv', List.getElem?_append_left hlt] at e2
    rw [e1] at e2
    injection e2 with e2
    exact hne e2
  have h1 := key hu hv hu' hv' hne
  have h2 := key hu' hv' hu hv hne'
  omega

/-- The messages of the first two cores first differ in the number of the core. -/
theorem coreMessages_form (E : Env) (M p salt b pepper : Bytes) (mb cpu cores tagSize : Nat) :
    ∃ x y z, sessionMessage E M (coreSession p salt b pepper mb cpu cores tagSize 0) = x ++ 0 :: y ∧
      sessionMessage E M (coreSession p salt b pepper mb cpu cores tagSize 1) = x ++ 1 :: z ∧
      x.length = p.length + salt.length + pepper.length + b.length + 65 := by
  have form : ∀ core, ∃ y, sessionMessage E M (coreSession p salt b pepper mb cpu cores tagSize core) =
      p ++ (salt ++ (coreHead pepper ++ (beDigits 8 b.length ++ (b ++ (beDigits 8 8 ++ (beDigits 8 core ++ y)))))) := by
    intro core
    refine ⟨beDigits 8 8 ++ (beDigits 8 mb ++ (leDigits 8 (p ++ salt ++ coreAad pepper b mb core).length ++ (leDigits 8 168 ++ ([0xf2] ++ (
      padding 168 0xf2 (rawKey 168 0xf2 (p ++ salt ++ coreAad pepper b mb core)).length ++
      packed 168 0xf2 [beDigits 8 336, E.domain, M, salt, coreAad pepper b mb core, beDigits 8 (ceilTrueDiv mb cores), beDigits 8 cpu, beDigits 8 cores,
        beDigits 8 tagSize]))))), ?_⟩
    have e : p ++ salt ++ coreAad pepper b mb core =
        p ++ (salt ++ (coreHead pepper ++ (beDigits 8 b.length ++ (b ++ (beDigits 8 8 ++ (beDigits 8 core ++ (beDigits 8 8 ++ beDigits 8 mb))))))) := by
      rw [coreAad_form, coreTail]
      simp only [List.append_assoc]
    show keyed 168 0xf2 (p ++ salt ++ coreAad pepper b mb core) ++ packed 168 0xf2 _ = _
    rw [keyed, rawKey]
    rw [show (p ++ salt ++ coreAad pepper b mb core ++ leDigits 8 (p ++ salt ++ coreAad pepper b mb core).length) =
      (p ++ (salt ++ (coreHead pepper ++ (beDigits 8 b.length ++ (b ++ (beDigits 8 8 ++ (beDigits 8 core ++ (beDigits 8 8 ++ beDigits 8 mb))))))) ++
        leDigits 8 (p ++ salt ++ coreAad pepper b mb core).length) from by rw [← e]]
    simp only [List.append_assoc]
    rfl
  obtain ⟨y, hy⟩ := form 0
  obtain ⟨z, hz⟩ := form 1
  have e0 : beDigits 8 0 = List.replicate 7 0 ++ [0] := by decide
  have e1 : beDigits 8 1 = List.replicate 7 0 ++ [1] := by decide
  refine ⟨p ++ (salt ++ (coreHead pepper ++ (beDigits 8 b.length ++ (b ++ (beDigits 8 8 ++ List.replicate 7 0))))), y, z, ?_, ?_, ?_⟩
  · rw [hy, e0]
    simp only [List.append_assoc, List.singleton_append]
  · rw [hz, e1]
    simp only [List.append_assoc, List.singleton_append]
  · simp only [List.length_append, length_beDigits, coreHead_length, List.length_replicate]
    omega

/-- With two cores and more, all inputs are bound. -/
theorem two_cores {E : Env} {M p p' salt b b' pepper : Bytes} {mb cpu cores tagSize : Nat}
    (h0 : sessionMessage E M (coreSession p salt b pepper mb cpu cores tagSize 0) = sessionMessage E M (coreSession p' salt b' pepper mb cpu cores tagSize 0))
    (h1 : sessionMessage E M (coreSession p salt b pepper mb cpu cores tagSize 1) = sessionMessage E M (coreSession p' salt b' pepper mb cpu cores tagSize 1))
    (hb : (coreAad pepper b mb 0).length < 256 ^ 8) (hb' : (coreAad pepper b' mb 0).length < 256 ^ 8) : p = p' ∧ b = b' := by
  obtain ⟨x, y, z, hx, hx1, hl⟩ := coreMessages_form E M p salt b pepper mb cpu cores tagSize
  obtain ⟨x', y', z', hx', hx1', hl'⟩ := coreMessages_form E M p' salt b' pepper mb cpu cores tagSize
  have hlen := first_difference hx hx1 (h0.trans hx') (h1.trans hx1') (by decide) (by decide)
  have hk : (p ++ salt ++ coreAad pepper b mb 0).length = (p' ++ salt ++ coreAad pepper b' mb 0).length := by
    simp only [List.length_append, coreAad_length]
    omega
  have h0' : keyed 168 0xf2 (p ++ salt ++ coreAad pepper b mb 0) ++ packed 168 0xf2 _ = keyed 168 0xf2 (p' ++ salt ++ coreAad pepper b' mb 0) ++ packed 168 0xf2 _ := h0
  have ek : p ++ salt ++ coreAad pepper b mb 0 = p' ++ salt ++ coreAad pepper b' mb 0 := by
    simp only [keyed, rawKey, List.append_assoc] at h0'
    simp only [← List.append_assoc (as := p), ← List.append_assoc (as := p'), ← List.append_assoc (as := p ++ salt), ← List.append_assoc (as := p' ++ salt)] at h0'
    exact (List.append_inj h0' hk).1
  rw [ek] at h0'
  have h0' := List.append_cancel_left h0'
  rw [packed, packed, unpadded_form E M (coreSession p salt b pepper mb cpu cores tagSize 0),
    unpadded_form E M (coreSession p' salt b' pepper mb cpu cores tagSize 0)] at h0'
  simp only [List.append_assoc] at h0'
  have h0' := List.append_cancel_left (as := msgHead E M salt) h0'
  have hbe := (List.append_inj h0' (by simp)).1
  have hal : (coreAad pepper b mb 0).length = (coreAad pepper b' mb 0).length := beDigits_inj hb hb' hbe
  have hbl : b.length = b'.length := by
    rw [coreAad_length, coreAad_length] at hal
    omega
  have e1 := List.append_inj ek (by simp only [List.length_append] at hk ⊢; omega)
  refine ⟨List.append_cancel_right e1.1, ?_⟩
  have e2 := e1.2
  rw [coreAad_form, coreAad_form, hbl] at e2
  have e2 := List.append_cancel_left (List.append_cancel_left e2)
  exact (List.append_inj e2 hbl).1

theorem passcrypt_fits {E : Env} {M r : Bytes} {s : Session} (h : passcrypt E (spec M) s = .ok r) : Fits E M s := by
  simp only [passcrypt, prepare, bind_eq_ok] at h
  obtain ⟨_, ⟨m, hm, _⟩, _⟩ := h
  exact (parametersMessage_iff.1 hm).1

/-! ### other passphrases -/

theorem coreAad_eq {pepper aad : Bytes} {mb core : Nat} (h1 : aad.length < 256 ^ 8) (hp : pepper.length < 256 ^ 8) :
    canonicalPack [pepper, aad, beDigits 8 core, beDigits 8 mb] 1 [0] 8 = .ok (coreAad pepper aad mb core) := by
  rw [canonicalPack_iff (by decide)]
  refine ⟨⟨by simp, ?_⟩, rfl⟩
  intro i hi
  simp only [List.mem_cons, List.not_mem_nil, or_false] at hi
  rcases hi with rfl | rfl | rfl | rfl
  · exact hp
  · exact h1
  · simp
  · simp

/-- **C48** (part) Whatever else `verify` accepts for a made hash shows a collision between what the two calls hash, if the aad is the right one, or the passphrase
has the right length, or there is more than one core. The remaining case is `C48_collision`. -/
theorem C48_refuses_partial {E : Env} {M : Bytes} {t : Settings} {made : Int} {draw p aad hash : Bytes} (h : hashPassphrase E (spec M) t made draw p aad = .ok hash)
    {now : Int} {ttl : Option Int} {mbA cpuA coresA : Nat → Bool} {p' aad' : Bytes} (hcase : aad' = aad ∨ p'.length = p.length ∨ 2 ≤ t.cores)
    (hv : (verify E (spec M) t.pepper hash p' aad' now ttl mbA cpuA coresA).result = .ok ()) :
    (p' = p ∧ aad' = aad) ∨
    ∃ ts sessions, Clock.makeTimestamp made 8 .big = .ok ts ∧ spawn (spec M) p draw (ts ++ aad) t.pepper t.mb t.cpu t.cores t.tagSize = .ok sessions ∧
      CollideIn E.xof (Hashes E (spec M) sessions t.tagSize)
        (Hashes E (spec M) (verify E (spec M) t.pepper hash p' aad' now ttl mbA cpuA coresA).started t.tagSize) := by
  obtain ⟨ts, tag, sessions, hts, hs, hc, hlen, hi⟩ := hashPassphrase_ok h
  unfold verify at hv ⊢
  cases hp : verifyParts (spec M) hash now ttl mbA cpuA coresA with
  | error e => rw [hp] at hv; cases hv
  | ok parts =>
    rw [hp] at hv
    have e := (verifyParts_ok.1 hp).1
    rw [hi] at e
    injection e with e
    subst e
    simp only [hlen] at hv ⊢
    have hcores : 1 ≤ t.cores := ((C47_import (spec_wf M) _ _).1 hi).1.cores.1
    cases hsp : spawn (spec M) p' draw (ts ++ aad') t.pepper t.mb t.cpu t.cores t.tagSize with
    | error e => rw [hsp] at hv; cases hv
    | ok sessions' =>
      rw [hsp] at hv
      simp only [bind_eq_ok, raiseIf_ok, Decidable.not_not] at hv ⊢
      obtain ⟨_, hc', rfl⟩ := hv
      have found := fun hcol => (⟨ts, sessions, hts, hs, hcol⟩ : ∃ ts sessions, Clock.makeTimestamp made 8 .big = .ok ts ∧
        spawn (spec M) p draw (ts ++ aad) t.pepper t.mb t.cpu t.cores t.tagSize = .ok sessions ∧
        CollideIn E.xof (Hashes E (spec M) sessions t.tagSize) (Hashes E (spec M) sessions' t.tagSize))
      obtain ⟨⟨_, hok⟩, rfl⟩ := (spawn_iff hcores).1 hs
      obtain ⟨⟨_, hok'⟩, rfl⟩ := (spawn_iff hcores).1 hsp
      simp only [collect, bind_eq_ok] at hc hc'
      obtain ⟨rs, hrs, m, hm, hd⟩ := hc
      obtain ⟨rs', hrs', m', hm', hd'⟩ := hc'
      injection hd with hd
      injection hd' with hd'
      have lift : ∀ i N, t.cores = N → i < N → CollideIn E.xof (SessionHashes E (spec M) (coreSession p draw (ts ++ aad) t.pepper t.mb t.cpu N t.tagSize i))
          (SessionHashes E (spec M) (coreSession p' draw (ts ++ aad') t.pepper t.mb t.cpu N t.tagSize i)) →
          CollideIn E.xof (Hashes E (spec M) ((List.range t.cores).map (coreSession p draw (ts ++ aad) t.pepper t.mb t.cpu t.cores t.tagSize)) t.tagSize)
            (Hashes E (spec M) ((List.range t.cores).map (coreSession p' draw (ts ++ aad') t.pepper t.mb t.cpu t.cores t.tagSize)) t.tagSize) := by
        rintro i N rfl hi ⟨n, x, y, hx, hy, hcol⟩
        exact ⟨n, x, y, .session (List.mem_map.2 ⟨i, List.mem_range.2 hi, rfl⟩) hx, .session (List.mem_map.2 ⟨i, List.mem_range.2 hi, rfl⟩) hy, hcol⟩
      by_cases em : m = m'
      · subst em
        obtain ⟨n, hn⟩ : ∃ n, t.cores = n + 1 := ⟨t.cores - 1, by omega⟩
        rw [mapM_ok, hn, List.range_succ_eq_map, List.map_cons] at hrs hrs'
        cases hrs with
        | @cons _ r1 _ rest1 hr1 hrest1 =>
          cases hrs' with
          | @cons _ r2 _ rest2 hr2 hrest2 =>
            have hl : ∀ {s : Session} {r : Bytes}, passcrypt E (spec M) s = .ok r → r.length = 168 := by
              intro s r hr
              simp only [passcrypt, bind_eq_ok] at hr
              obtain ⟨_, _, _, _, hr⟩ := hr
              injection hr with hr
              rw [← hr, E.xof.length_digest]
            simp only [tagMessage] at hm hm'
            obtain ⟨this, _, _, hall⟩ := C05_same_key_length_partial hm hm' (by simp [hl hr1, hl hr2])
            injection this with this
            subst this
            rcases passcrypt_same hr1 hr2 with he | hcol
            · rcases hcase with rfl | hl | h2
              · have := sessionMessage_passphrase (s := coreSession p draw (ts ++ aad') t.pepper t.mb t.cpu (n + 1) t.tagSize 0) (p' := p') he
                exact .inl ⟨this.symm, rfl⟩
              · obtain ⟨h1, h2⟩ := sessionMessage_aad (s := coreSession p draw (ts ++ aad) t.pepper t.mb t.cpu (n + 1) t.tagSize 0) (p' := p')
                  (coreAad_eq hok.aad hok.pepper) (coreAad_eq hok'.aad hok'.pepper) hl.symm he
                simp only [List.cons.injEq, and_true, true_and] at h2
                exact .inl ⟨h1.symm, (List.append_cancel_left h2).symm⟩
              · obtain ⟨k, rfl⟩ : ∃ k, n = k + 1 := ⟨n - 1, by omega⟩
                injection hall with _ hall
                subst hall
                rw [List.range_succ_eq_map, List.map_cons, List.map_cons] at hrest1 hrest2
                cases hrest1 with
                | cons hq1 _ =>
                  cases hrest2 with
                  | cons hq2 _ =>
                    rcases passcrypt_same hq1 hq2 with he2 | hcol
                    · have b1 := (passcrypt_fits hr1).key
                      have b2 := (passcrypt_fits hr2).key
                      rw [List.length_append] at b1 b2
                      have b1 : (p ++ draw).length + (coreAad t.pepper (ts ++ aad) t.mb 0).length < 256 ^ 8 := b1
                      have b2 : (p' ++ draw).length + (coreAad t.pepper (ts ++ aad') t.mb 0).length < 256 ^ 8 := b2
                      obtain ⟨r1, r2⟩ := two_cores he he2 (by omega) (by omega)
                      exact .inl ⟨r1.symm, (List.append_cancel_left r2).symm⟩
                    · exact .inr (found (lift 1 _ hn (by omega) hcol))
            · exact .inr (found (lift 0 _ hn (by omega) hcol))
      · exact .inr (found ⟨t.tagSize, m, m', .tag hrs hm, .tag hrs' hm', em, hd.trans hd'.symm⟩)

/-! ### hashes can be made -/

/-- The inputs of `hash_passphrase` that are valid and of ordinary size. -/
structure Ordinary (E : Env) (M : Bytes) (t : Settings) (made : Int) (draw p aad : Bytes) : Prop where
  mb : 1 ≤ t.mb ∧ t.mb ≤ 256 ^ 3
  cpu : 1 ≤ t.cpu ∧ t.cpu ≤ 256
  cores : 1 ≤ t.cores ∧ t.cores ≤ 256
  tagSize : 16 ≤ t.tagSize ∧ t.tagSize < 2 ^ 29
  saltSize : 4 ≤ t.saltSize ∧ t.saltSize ≤ 256
  draw : draw.length = t.saltSize
  made : 0 ≤ made ∧ made < 256 ^ 8
  passphrase : 12 ≤ p.length
  sizes : p.length + aad.length + t.pepper.length < 2 ^ 60
  domain : E.domain.length < 2 ^ 60
  metadata : M.length < 2 ^ 60

theorem passcrypt_total {E : Env} {M : Bytes} {s : Session} (h : InRange s.mb s.cpu) (hf : Fits E M s) :
    ∃ r, passcrypt E (spec M) s = .ok r ∧ r.length = 168 := by
  have hm := parametersMessage_iff.2 ⟨hf, rfl⟩
  have hp : prepare E (spec M) s = .ok (allocate E ⟨[], E.proofSalt ++ E.xof.digest (sessionMessage E M s) 336, []⟩ (totalSize (spec M) s.mb s.cpu)) := by
    rw [prepare, bind_eq_ok]
    exact ⟨_, hm, rfl⟩
  obtain ⟨_, q, hq, _⟩ := C49_prover E s h hp
  refine ⟨E.xof.digest q.absorbed 168, ?_, E.xof.length_digest _ _⟩
  simp only [passcrypt, bind_eq_ok]
  exact ⟨_, hp, _, hq, rfl⟩

theorem tagMessage_total {rs : List Bytes} {tagSize : Nat} (h0 : rs ≠ []) (h1 : ∀ r ∈ rs, r.length = 168) (hl : rs.length ≤ 256) (ht : tagSize < 2 ^ 29) :
    ∃ m, tagMessage rs tagSize = .ok m := by
  have hb : 0 < 168 ∧ 168 < 256 ^ 8 := by decide
  cases rs with
  | nil => exact absurd rfl h0
  | cons r rs =>
    have hr := h1 r List.mem_cons_self
    refine ⟨keyed 168 0 r ++ packed 168 0 (beDigits 8 (effectiveSize (some tagSize) 0) :: r :: rs), ?_⟩
    simp only [tagMessage]
    rw [hashBytesInput_ok]
    have hsz : effectiveSize (some tagSize) 0 < 256 ^ 8 := by
      unfold effectiveSize
      have e : (some tagSize).getD 0 = tagSize := rfl
      rw [e]
      split <;> omega
    refine ⟨_, _, (encodeKey_iff hb).2 ⟨⟨?_, by omega⟩, rfl⟩, hsz, (canonicalPack_iff hb).2 ⟨⟨?_, ?_⟩, rfl⟩, rfl⟩
    · rintro rfl; simp at hr
    · simp only [List.length_cons] at hl ⊢
      omega
    · intro i hi
      rcases List.mem_cons.1 hi with rfl | hi
      · simp
      · rw [h1 i hi]; decide

/-- The sessions of an ordinary call run. -/
theorem collect_total {E : Env} {M p s aad pepper : Bytes} {mb cpu cores tagSize : Nat} (hmb : 1 ≤ mb ∧ mb ≤ 256 ^ 3) (hs : Spawnable p s aad pepper mb cpu cores tagSize)
    (hsz : p.length + aad.length + pepper.length < 2 ^ 61) (ht : tagSize < 2 ^ 29) (hd : E.domain.length < 2 ^ 60) (hM : M.length < 2 ^ 60) :
    ∃ tag, collect E (spec M) ((List.range cores).map (coreSession p s aad pepper mb cpu cores tagSize)) tagSize = .ok tag := by
  have hrun : ∀ core, ∃ r, passcrypt E (spec M) (coreSession p s aad pepper mb cpu cores tagSize core) = .ok r ∧ r.length = 168 := by
    intro core
    refine passcrypt_total (C49_cores (M := M) ⟨hmb, hs.cpu⟩ hs.cores).1 ?_
    have h1 := hs.passphrase
    have h2 := hs.salt
    have h3 := hs.mb
    have h4 := hs.cpu
    have h5 := hs.cores
    have hk : (p ++ s ++ coreAad pepper aad mb core).length = p.length + s.length + (82 + pepper.length + aad.length) := by
      simp only [List.length_append, coreAad_length]
    refine ⟨?_, ?_, by omega, by omega, ?_, ?_, ?_, ?_⟩
    · intro h
      have h : p ++ s ++ coreAad pepper aad mb core = [] := h
      rw [h] at hk
      simp only [List.length_nil] at hk
      omega
    · show (p ++ s ++ coreAad pepper aad mb core).length < 256 ^ 8
      rw [hk]; omega
    · show ceilTrueDiv mb cores < _; omega
    · show cpu < _; omega
    · show cores < _; omega
    · show tagSize < _; omega
  choose f hf hlen using hrun
  have hm := mapM_map (f := fun core => passcrypt E (spec M) (coreSession p s aad pepper mb cpu cores tagSize core)) (g := f) (l := List.range cores) (fun core _ => hf core)
  have hcores := hs.cores
  obtain ⟨m, hmsg⟩ := tagMessage_total (rs := (List.range cores).map f) (tagSize := tagSize) (by
      intro h
      have := congrArg List.length h
      simp at this
      omega) (by
      intro r hr
      obtain ⟨core, _, rfl⟩ := List.mem_map.1 hr
      exact hlen core) (by simpa using hcores.2) ht
  refine ⟨E.xof.digest m tagSize, ?_⟩
  simp only [collect, bind_eq_ok]
  refine ⟨_, ?_, m, hmsg, rfl⟩
  rw [mapM_ok] at hm ⊢
  rw [List.forall₂_map_left_iff]
  exact hm

theorem ordinary_spawnable {E : Env} {M : Bytes} {t : Settings} {made : Int} {draw p aad : Bytes} (h : Ordinary E M t made draw p aad) {ts : Bytes} (hts : ts.length = 8) :
    Spawnable p draw (ts ++ aad) t.pepper t.mb t.cpu t.cores t.tagSize := by
  have h1 := h.saltSize
  have h2 := h.draw
  have h3 := h.sizes
  refine ⟨h.passphrase, by omega, (C49_cores (M := M) ⟨h.mb, h.cpu⟩ h.cores).1.mb, h.cpu, h.cores, h.tagSize.1, by omega, ?_⟩
  rw [List.length_append, hts]
  omega

/-- **C48** Valid inputs of ordinary size have a hash. -/
theorem C48_hash_total {E : Env} {M : Bytes} {t : Settings} {made : Int} {draw p aad : Bytes} (h : Ordinary E M t made draw p aad) :
    ∃ hash, hashPassphrase E (spec M) t made draw p aad = .ok hash := by
  obtain ⟨ts, hts⟩ := (Clock.C19_timestamp_round_trip made 8 .big).2.2 h.made
  have htl := ((Clock.C19_timestamp_round_trip made 8 .big).1 ts hts).1
  have hsp := ordinary_spawnable h htl
  have hsz := h.sizes
  obtain ⟨tag, htag⟩ := collect_total (E := E) (M := M) h.mb hsp (by rw [List.length_append, htl]; omega) h.tagSize.2 h.domain h.metadata
  have hmb := h.mb
  have hs := (spawn_iff (M := M) h.cores.1).2 ⟨⟨by omega, hsp⟩, rfl⟩
  have htlen : tag.length = t.tagSize := by
    simp only [collect, bind_eq_ok] at htag
    obtain ⟨_, _, m, _, htag⟩ := htag
    injection htag with htag
    rw [← htag, E.xof.length_digest]
  have hv : Hash.Valid (spec M) ⟨ts, t.mb, t.cpu, t.cores, draw, tag⟩ := by
    have := h.draw
    refine ⟨h.mb, h.cpu, h.cores, ?_, ?_⟩
    · show 16 ≤ tag.length
      rw [htlen]; exact h.tagSize.1
    · show 4 ≤ draw.length ∧ draw.length ≤ 256
      rw [this]; exact h.saltSize
  obtain ⟨b, hb, _⟩ := C47_export (spec_wf M) hv
  refine ⟨b, ?_⟩
  simp only [hashPassphrase, bind_eq_ok, new, make_ok, validateSettings_ok]
  exact ⟨(), ⟨h.mb, h.cpu, h.cores, h.tagSize.1, h.saltSize⟩, ts, hts, tag, ⟨_, hs, htag⟩, _, ⟨hv, rfl⟩, hb⟩

/-- **C48** If sessions are started, `verify` ends with success or `InvalidPassphrase`, for inputs of ordinary size. -/
theorem C48_outcome (E : Env) (M pepper hash p aad : Bytes) (now : Int) (ttl : Option Int) (mbA cpuA coresA : Nat → Bool)
    (hs : (verify E (spec M) pepper hash p aad now ttl mbA cpuA coresA).started ≠ [])
    (hsz : p.length + aad.length + pepper.length < 2 ^ 60) (hh : hash.length < 2 ^ 29) (hD : E.domain.length < 2 ^ 60) (hM : M.length < 2 ^ 60) :
    (verify E (spec M) pepper hash p aad now ttl mbA cpuA coresA).result = .ok () ∨
    (verify E (spec M) pepper hash p aad now ttl mbA cpuA coresA).result = .error .passcrypt := by
  unfold verify at hs ⊢
  cases hp : verifyParts (spec M) hash now ttl mbA cpuA coresA with
  | error e => rw [hp] at hs; exact absurd rfl hs
  | ok h =>
    rw [hp] at hs
    simp only at hs ⊢
    obtain ⟨h1, _⟩ := verifyParts_ok.1 hp
    obtain ⟨hv, hts, hl⟩ := (C47_import (spec_wf M) hash h).1 h1
    cases hsp : spawn (spec M) p h.salt (h.timestamp ++ aad) pepper h.mb h.cpu h.cores h.tag.length with
    | error e => rw [hsp] at hs; exact absurd rfl hs
    | ok sessions =>
      have hcores : 1 ≤ h.cores := hv.cores.1
      obtain ⟨⟨_, hok⟩, rfl⟩ := (spawn_iff hcores).1 hsp
      have htag : h.tag.length < 2 ^ 29 := by
        obtain ⟨_, _, _, _, rfl, _⟩ := hl
        simp only [List.length_append] at hh
        omega
      have hts8 : h.timestamp.length = 8 := hts
      obtain ⟨tag, ht⟩ := collect_total (E := E) (M := M) hv.mb hok (by rw [List.length_append, hts8]; omega) htag hD hM
      simp only [ht, bind, Except.bind, raiseIf]
      split
      · exact .inr rfl
      · exact .inl rfl

/-! ### a passphrase of another length with another aad -/

theorem rawKey_length (b : Nat) (p : UInt8) (key : Bytes) : (rawKey b p key).length = key.length + 17 := by
  simp only [rawKey, List.length_append, length_leDigits, List.length_cons, List.length_nil]

theorem padding_bound {n : Nat} {p : UInt8} : (padding 168 p n).length < 168 := by
  have : ¬ ceilDiv n 168 ≤ ceilDiv n 168 - 1 ∨ ceilDiv n 168 = 0 := by omega
  rw [padding, List.length_replicate]
  rcases this with h | h
  · rw [ceilDiv_le_iff (by decide), Nat.sub_mul] at h
    omega
  · rw [h]; omega

/-- The sizes of the construction. -/
theorem session_collision (E : Env) (M : Bytes) (p salt pepper ts b' : Bytes) (mb cpu tagSize : Nat) :
    ∃ p' aad,
      sessionMessage E M (coreSession p salt (ts ++ aad) pepper mb cpu 1 tagSize 0) = sessionMessage E M (coreSession p' salt b' pepper mb cpu 1 tagSize 0) ∧
      p.length < p'.length ∧
      aad.length ≤ 1000 + 2 * salt.length + 2 * pepper.length + 2 * b'.length + E.domain.length + M.length + pepper.length ∧
      p'.length ≤ 1000 + p.length + 2 * salt.length + 2 * pepper.length + ts.length + ts.length + E.domain.length + M.length + aad.length := by
  -- the parts with known lengths
  obtain ⟨Hw, hHw⟩ : ∃ Hw, Hw = msgHead E M salt := ⟨_, rfl⟩
  obtain ⟨Ha, hHa⟩ : ∃ Ha, Ha = coreHead pepper := ⟨_, rfl⟩
  obtain ⟨Ta, hTa⟩ : ∃ Ta, Ta = coreTail mb 0 := ⟨_, rfl⟩
  obtain ⟨a', ha'⟩ : ∃ a', a' = coreAad pepper b' mb 0 := ⟨_, rfl⟩
  have fa' : a' = Ha ++ (beDigits 8 b'.length ++ (b' ++ Ta)) := by rw [ha', coreAad_form, hHa, hTa]
  have lHa : Ha.length = 42 + pepper.length := by rw [hHa, coreHead_length]
  have lTa : Ta.length = 32 := by rw [hTa, coreTail_length]
  have lHw : Hw.length = 74 + E.domain.length + M.length + salt.length := by
    rw [hHw]
    simp only [msgHead, List.length_append, length_beDigits, List.length_cons, List.length_nil]
    omega
  have la' : a'.length = 82 + pepper.length + b'.length := by rw [ha', coreAad_length]
  -- the lengths
  obtain ⟨c0, hc0⟩ : ∃ c0, c0 = Hw.length + (8 + (Ha.length + (8 + ts.length))) + (salt.length + a'.length) := ⟨_, rfl⟩
  obtain ⟨pad', hpad'⟩ : ∃ pad', pad' = padding 168 (0xf2 : UInt8) (c0 + 17) := ⟨_, rfl⟩
  have lpad' : pad'.length < 168 := by rw [hpad']; exact padding_bound
  obtain ⟨L, hL⟩ : ∃ L, L = salt.length + (a'.length + (8 + (8 + (1 + (pad'.length + (Hw.length + (8 + (Ha.length + (8 + b'.length))))))))) := ⟨_, rfl⟩
  obtain ⟨lenA, hlenA⟩ : ∃ lenA, lenA = 82 + pepper.length + (ts.length + L) := ⟨_, rfl⟩
  obtain ⟨lenK, hlenK⟩ : ∃ lenK, lenK = p.length + salt.length + lenA := ⟨_, rfl⟩
  obtain ⟨lenQ, hlenQ⟩ : ∃ lenQ, lenQ = lenK + 17 + (padding 168 (0xf2 : UInt8) (lenK + 17)).length := ⟨_, rfl⟩
  obtain ⟨lenK', hlenK'⟩ : ∃ lenK', lenK' = lenQ + c0 := ⟨_, rfl⟩
  -- the aad and the other passphrase
  obtain ⟨aad, haad⟩ : ∃ aad, aad = salt ++ (a' ++ (leDigits 8 lenK' ++ (leDigits 8 168 ++ ([0xf2] ++ (pad' ++ (Hw ++ (beDigits 8 a'.length ++ (Ha ++ (beDigits 8 b'.length ++ b'))))))))) :=
    ⟨_, rfl⟩
  have laad : aad.length = L := by
    rw [haad, hL]
    simp only [List.length_append, length_beDigits, length_leDigits, List.length_cons, List.length_nil]
  obtain ⟨a, ha⟩ : ∃ a, a = coreAad pepper (ts ++ aad) mb 0 := ⟨_, rfl⟩
  have fa : a = Ha ++ (beDigits 8 (ts.length + L) ++ (ts ++ (aad ++ Ta))) := by
    rw [ha, coreAad_form, hHa, hTa, List.length_append, laad, List.append_assoc]
  have la : a.length = lenA := by rw [ha, coreAad_length, List.length_append, laad, hlenA]
  obtain ⟨Q, hQ⟩ : ∃ Q, Q = keyed 168 0xf2 (p ++ salt ++ a) := ⟨_, rfl⟩
  have lK : (p ++ salt ++ a).length = lenK := by rw [List.length_append, List.length_append, la, hlenK]
  have lQ : Q.length = lenQ := by
    rw [hQ, keyed, List.length_append, rawKey_length, lK, hlenQ]
  have aQ : lenQ % 168 = 0 := by
    rw [hlenQ]
    exact padding_length (by decide)
  have lQ' : lenQ < lenK + 17 + 168 := by
    have := padding_bound (n := lenK + 17) (p := 0xf2)
    omega
  obtain ⟨p', hp'⟩ : ∃ p', p' = Q ++ (Hw ++ (beDigits 8 a.length ++ (Ha ++ (beDigits 8 (ts.length + L) ++ ts)))) := ⟨_, rfl⟩
  have lp' : p'.length = lenQ + (Hw.length + (8 + (Ha.length + (8 + ts.length)))) := by
    rw [hp', List.length_append, lQ]
    simp only [List.length_append, length_beDigits]
  have lK' : (p' ++ salt ++ a').length = lenK' := by
    rw [List.length_append, List.length_append, lp', hlenK', hc0]
    omega
  have fK' : keyed 168 0xf2 (p' ++ salt ++ a') = p' ++ (salt ++ (a' ++ (leDigits 8 lenK' ++ (leDigits 8 168 ++ ([0xf2] ++ pad'))))) := by
    rw [keyed, rawKey_length, lK', hlenK', Nat.add_assoc, padding_add (by decide) aQ, ← hpad', rawKey, lK', hlenK']
    simp only [List.append_assoc]
  have main : Q ++ (Hw ++ (beDigits 8 a.length ++ (a ++ msgTail (ceilTrueDiv mb 1) cpu 1 tagSize))) =
      keyed 168 0xf2 (p' ++ salt ++ a') ++ (Hw ++ (beDigits 8 a'.length ++ (a' ++ msgTail (ceilTrueDiv mb 1) cpu 1 tagSize))) := by
    rw [fK', hp']
    rw [show a ++ msgTail (ceilTrueDiv mb 1) cpu 1 tagSize = Ha ++ (beDigits 8 (ts.length + L) ++ (ts ++ (aad ++ Ta))) ++ msgTail (ceilTrueDiv mb 1) cpu 1 tagSize from by rw [← fa]]
    rw [show Hw ++ (beDigits 8 a'.length ++ (a' ++ msgTail (ceilTrueDiv mb 1) cpu 1 tagSize)) =
      Hw ++ (beDigits 8 a'.length ++ (Ha ++ (beDigits 8 b'.length ++ (b' ++ Ta)) ++ msgTail (ceilTrueDiv mb 1) cpu 1 tagSize)) from by rw [← fa']]
    rw [haad]
    simp only [List.append_assoc]
  refine ⟨p', aad, ?_, ?_, ?_, ?_⟩
  · rw [sessionMessage_form, sessionMessage_form]
    simp only [coreSession, ← ha, ← ha', ← hHw, ← hQ]
    rw [main]
  · omega
  · omega
  · omega

/-- Of a single session nothing but the message matters. -/
theorem passcrypt_of_message {E : Env} {M : Bytes} {s s' : Session} (h : sessionMessage E M s = sessionMessage E M s') (hf : Fits E M s) (hf' : Fits E M s')
    (hmb : s.mb = s'.mb) (hcpu : s.cpu = s'.cpu) : passcrypt E (spec M) s = passcrypt E (spec M) s' := by
  have h1 : parametersMessage E (spec M) s = parametersMessage E (spec M) s' := by
    rw [parametersMessage_iff.2 ⟨hf, rfl⟩, parametersMessage_iff.2 ⟨hf', rfl⟩, h]
  simp only [passcrypt, prepare, h1, hmb, hcpu]

/-- **C48** The negation, for one core: whatever the hash function, the passphrase and the aad that is given to `verify`, the hash of that passphrase and some
other aad is accepted for a longer passphrase. -/
theorem C48_collision (E : Env) (M : Bytes) (t : Settings) (made : Int) (draw p aad' : Bytes) (h : Ordinary E M t made draw p aad') (h1 : t.cores = 1)
    (hp : p.length < 2 ^ 50) (haad' : aad'.length < 2 ^ 50) (hpepper : t.pepper.length < 2 ^ 50) (hD : E.domain.length < 2 ^ 50) (hM : M.length < 2 ^ 50) :
    ∃ p' aad hash, p' ≠ p ∧ hashPassphrase E (spec M) t made draw p aad = .ok hash ∧
      ∀ now, (verify E (spec M) t.pepper hash p' aad' now none (· ≤ t.mb) (· ≤ t.cpu) (· ≤ t.cores)).result = .ok () := by
  obtain ⟨ts, hts⟩ := (Clock.C19_timestamp_round_trip made 8 .big).2.2 h.made
  have htl := ((Clock.C19_timestamp_round_trip made 8 .big).1 ts hts).1
  obtain ⟨p', aad, hmsg, hlt, hl1, hl2⟩ := session_collision E M p draw t.pepper ts (ts ++ aad') t.mb t.cpu t.tagSize
  have hdraw := h.draw
  have hss := h.saltSize
  have hpass := h.passphrase
  simp only [List.length_append, htl] at hl1 hl2
  have ho : Ordinary E M t made draw p aad := { h with sizes := by omega }
  have ho' : Ordinary E M t made draw p' aad' := { h with sizes := by omega, passphrase := by omega }
  obtain ⟨hash, hh⟩ := C48_hash_total ho
  refine ⟨p', aad, hash, ?_, hh, fun now => ?_⟩
  · rintro rfl; omega
  obtain ⟨ts2, tag, sessions, hts2, hs, hc, hlen, hi⟩ := hashPassphrase_ok hh
  rw [hts] at hts2
  injection hts2 with hts2
  subst hts2
  have hsp := ordinary_spawnable ho htl
  have hsp' := ordinary_spawnable ho' htl
  obtain ⟨⟨hmb, _⟩, rfl⟩ := (spawn_iff h.cores.1).1 hs
  have hs' := (spawn_iff (M := M) h.cores.1).2 ⟨⟨hmb, hsp'⟩, rfl⟩
  have hp : verifyParts (spec M) hash now none (· ≤ t.mb) (· ≤ t.cpu) (· ≤ t.cores) = .ok ⟨ts, t.mb, t.cpu, t.cores, draw, tag⟩ :=
    verifyParts_ok.2 ⟨hi, rfl, by simp, by simp, by simp⟩
  simp only [verify, hp, hlen, hs', bind_eq_ok, raiseIf_ok]
  refine ⟨tag, ?_, by simp⟩
  have fits : ∀ q c, Ordinary E M t made draw q c → Fits E M (coreSession q draw (ts ++ c) t.pepper t.mb t.cpu 1 t.tagSize 0) := by
    intro q c ho
    have := ordinary_spawnable ho htl
    have k1 := this.mb
    have k2 := this.cpu
    have k3 := ho.tagSize
    have k4 := ho.sizes
    have k5 := ho.passphrase
    rw [h1] at k1
    have hk : (q ++ draw ++ coreAad t.pepper (ts ++ c) t.mb 0).length = q.length + draw.length + (82 + t.pepper.length + (8 + c.length)) := by
      simp only [List.length_append, coreAad_length, htl]
    refine ⟨?_, ?_, by omega, by omega, ?_, ?_, ?_, ?_⟩
    · intro h
      have h : q ++ draw ++ coreAad t.pepper (ts ++ c) t.mb 0 = [] := h
      rw [h] at hk
      simp only [List.length_nil] at hk
      omega
    · show (q ++ draw ++ coreAad t.pepper (ts ++ c) t.mb 0).length < 256 ^ 8
      rw [hk]; omega
    · show ceilTrueDiv t.mb 1 < _; omega
    · show t.cpu < _; omega
    · show 1 < _; omega
    · show t.tagSize < _; omega
  have he := passcrypt_of_message hmsg (fits _ _ ho) (fits _ _ ho') rfl rfl
  rw [h1] at hc ⊢
  have hr : List.range 1 = [0] := rfl
  simp only [collect, hr, List.map_cons, List.map_nil, List.mapM_cons, List.mapM_nil, he] at hc ⊢
  exact hc

/-! ### samples -/

def sampleEnv : Env := ⟨sampleXof, [1, 2], [3]⟩

def sampleSettings : Settings := ⟨64, 1, 1, 24, 8, [5, 6]⟩

theorem sample_ordinary : Ordinary sampleEnv [4] sampleSettings 1000 [1, 2, 3, 4, 5, 6, 7, 8] (List.replicate 20 97) [9] := by
  constructor <;> simp [sampleEnv, sampleSettings]

example : ∃ hash, hashPassphrase sampleEnv (spec [4]) sampleSettings 1000 [1, 2, 3, 4, 5, 6, 7, 8] (List.replicate 20 97) [9] = .ok hash ∧
    (verify sampleEnv (spec [4]) [5, 6] hash (List.replicate 20 97) [9] 2000 (some 1) (· ≤ 64) (· ≤ 1) (· ≤ 1)).result = .ok () ∧
    (verify sampleEnv (spec [4]) [5, 6] hash (List.replicate 20 97) [9] 1000001001 (some 1) (· ≤ 64) (· ≤ 1) (· ≤ 1)).started = [] := by
  obtain ⟨hash, hh⟩ := C48_hash_total sample_ordinary
  have e := C48_ttl_exact [4] 1 (by decide)
  refine ⟨hash, hh, ?_, ?_⟩
  · exact C48_accepts hh (by rintro u ⟨⟩; rw [e]; decide) rfl rfl rfl
  · rw [C48_expired hh (by rw [e]; decide)]

example : ∃ p' aad hash, p' ≠ List.replicate 20 97 ∧
    hashPassphrase sampleEnv (spec [4]) sampleSettings 1000 [1, 2, 3, 4, 5, 6, 7, 8] (List.replicate 20 97) aad = .ok hash ∧
    ∀ now, (verify sampleEnv (spec [4]) [5, 6] hash p' [9] now none (· ≤ 64) (· ≤ 1) (· ≤ 1)).result = .ok () :=
  C48_collision sampleEnv [4] sampleSettings 1000 _ _ _ sample_ordinary rfl (by simp) (by simp) (by simp [sampleSettings]) (by simp [sampleEnv]) (by simp)

end Aiootp.Passcrypt
