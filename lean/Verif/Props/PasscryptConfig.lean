import Verif.Props.PasscryptVerify

/-!
C121: `hash_passphrase` and `verify` with a config of one's own. `verify` makes a `Passcrypt` object with the default size of salts, 8 bytes, whatever the
size of the salt in the hash.
-/

namespace Aiootp.Passcrypt

/-! ### any config -/

/-- What `export_hash` returns has the format, whatever the limits are. -/
theorem exportHash_layout {c : Config} {h : Hash} {b : Bytes} (he : exportHash c h = .ok b) : Layout c h b := by
  simp only [exportHash, bind_eq_ok, predToBytes_ok] at he
  obtain ⟨mb, hmb, cpu, hcpu, cores, hcores, _, _, size, hsize, he⟩ := he
  injection he with he
  exact ⟨mb, cpu, cores, size, he.symm, hmb, hcpu, hcores, hsize⟩

/-- What a hash consists of that was made with any config. -/
theorem hashPassphrase_any {E : Env} {c : Config} {t : Settings} {made : Int} {draw p aad hash : Bytes} (h : hashPassphrase E c t made draw p aad = .ok hash) :
    ∃ ts tag sessions, Clock.makeTimestamp made c.timestampBytes .big = .ok ts ∧
      spawn c p draw (ts ++ aad) t.pepper t.mb t.cpu t.cores t.tagSize = .ok sessions ∧ collect E c sessions t.tagSize = .ok tag ∧ tag.length = t.tagSize ∧
      (⟨ts, t.mb, t.cpu, t.cores, draw, tag⟩ : Hash).Valid c ∧ importHash c hash = .ok ⟨ts, t.mb, t.cpu, t.cores, draw, tag⟩ := by
  simp only [hashPassphrase, new, bind_eq_ok, make_ok] at h
  obtain ⟨_, _, ts, hts, tag, ⟨sessions, hs, hc⟩, hh, ⟨hv, rfl⟩, he⟩ := h
  refine ⟨ts, tag, sessions, hts, hs, hc, ?_, hv, importHash_layout hv ((Clock.C19_timestamp_round_trip made c.timestampBytes .big).1 ts hts).1 (exportHash_layout he)⟩
  simp only [collect, bind_eq_ok] at hc
  obtain ⟨_, _, m, _, hc⟩ := hc
  injection hc with hc
  rw [← hc, E.xof.length_digest]

/-- **C121** With any config that allows salts of 8 bytes, `verify` accepts the passphrase and aad a hash was made of, within the ttl and if its settings
are allowed. -/
theorem C121_accepts_partial {E : Env} {c : Config} {t : Settings} {made : Int} {draw p aad hash : Bytes}
    (h : hashPassphrase E c t made draw p aad = .ok hash) (h8 : c.minSaltSize ≤ 8 ∧ 8 ≤ c.maxSaltSize)
    {now : Int} {ttl : Option Int} (httl : ∀ u, ttl = some u → now - made ≤ ttlUnits c u)
    {mbA cpuA coresA : Nat → Bool} (hmb : mbA t.mb = true) (hcpu : cpuA t.cpu = true) (hcores : coresA t.cores = true) :
    (verify E c t.pepper hash p aad now ttl mbA cpuA coresA).result = .ok () := by
  obtain ⟨ts, tag, sessions, hts, hs, hc, hlen, hv, hi⟩ := hashPassphrase_any h
  have hp : verifyParts c hash now ttl mbA cpuA coresA = .ok ⟨ts, t.mb, t.cpu, t.cores, draw, tag⟩ := by
    simp only [verifyParts, bind_eq_ok, inAllowedRanges, raiseIf_ok, validateSettings_ok, Decidable.not_not, exists_const]
    refine ⟨_, hi, (), ?_, ⟨hmb, hcpu, hcores⟩, ⟨hv.mb, hv.cpu, hv.cores, hv.tag, h8⟩, rfl⟩
    rw [Clock.C19_ttl_exact hts]
    cases ttl with
    | none => rfl
    | some u => simp only [Option.map_some]; rw [if_pos (httl u rfl)]
  simp only [verify, hp, hlen, hs, bind_eq_ok, raiseIf_ok]
  exact ⟨tag, hc, by simp⟩

/-- **C121** With any other config, `verify` accepts nothing: every call raises and no session is started. -/
theorem C121_never (E : Env) {c : Config} (h8 : ¬ (c.minSaltSize ≤ 8 ∧ 8 ≤ c.maxSaltSize)) (pepper hash p aad : Bytes) (now : Int) (ttl : Option Int)
    (mbA cpuA coresA : Nat → Bool) :
    ∃ e, verify E c pepper hash p aad now ttl mbA cpuA coresA = ⟨[], .error e⟩ := by
  cases hp : verifyParts c hash now ttl mbA cpuA coresA with
  | error e => exact ⟨e, by simp only [verify, hp]⟩
  | ok h =>
    simp only [verifyParts, bind_eq_ok, validateSettings_ok] at hp
    obtain ⟨_, _, _, _, _, _, _, ⟨_, _, _, _, h5⟩, _⟩ := hp
    exact absurd h5 h8

/-- **C121** The right passphrase and aad then give `ValueError`, not `InvalidPassphrase`. -/
theorem C121_never_value {E : Env} {c : Config} {t : Settings} {made : Int} {draw p aad hash : Bytes}
    (h : hashPassphrase E c t made draw p aad = .ok hash) (h8 : ¬ (c.minSaltSize ≤ 8 ∧ 8 ≤ c.maxSaltSize))
    {now : Int} {ttl : Option Int} (httl : ∀ u, ttl = some u → now - made ≤ ttlUnits c u)
    {mbA cpuA coresA : Nat → Bool} (hmb : mbA t.mb = true) (hcpu : cpuA t.cpu = true) (hcores : coresA t.cores = true) (p' aad' pepper' : Bytes) :
    verify E c pepper' hash p' aad' now ttl mbA cpuA coresA = ⟨[], .error .value⟩ := by
  obtain ⟨ts, tag, sessions, hts, hs, hc, hlen, hv, hi⟩ := hashPassphrase_any h
  have ht : Clock.testTimestamp now ts (ttl.map (ttlUnits c)) .big = .ok () := by
    rw [Clock.C19_ttl_exact hts]
    cases ttl with
    | none => rfl
    | some u => simp only [Option.map_some]; rw [if_pos (httl u rfl)]
  have hr : inAllowedRanges ⟨ts, t.mb, t.cpu, t.cores, draw, tag⟩ mbA cpuA coresA = .ok () := by
    simp only [inAllowedRanges, bind_eq_ok, raiseIf_ok, Decidable.not_not, exists_const]
    exact ⟨hmb, hcpu, hcores⟩
  have hb : c.validateSettings t.mb t.cpu t.cores tag.length 8 = .error .value := by
    cases hx : c.validateSettings t.mb t.cpu t.cores tag.length 8 with
    | error e => rw [validateSettings_error hx]
    | ok u => exact absurd (validateSettings_ok.1 hx).2.2.2.2 h8
  have hp : verifyParts c hash now ttl mbA cpuA coresA = .error .value := by
    simp only [verifyParts, hi, bind, Except.bind, ht, hr, hb]
  simp only [verify, hp]

/-! ### a stricter config -/

/-- A config like `passcrypt_spec` with `MIN_SALT_SIZE = n`. -/
def strict (M : Bytes) (n : Nat) : Config := { spec M with minSaltSize := n }

theorem strict_spawn {M p s aad pepper : Bytes} {n mb cpu cores tagSize : Nat} {r : List Session} (hn : n ≤ s.length)
    (h : spawn (spec M) p s aad pepper mb cpu cores tagSize = .ok r) : spawn (strict M n) p s aad pepper mb cpu cores tagSize = .ok r := by
  simp only [spawn, bind_eq_ok, mapM_ok] at h ⊢
  obtain ⟨b, hb, h⟩ := h
  refine ⟨b, hb, h.imp ?_⟩
  rintro core sess ⟨k, hk, ca, hca, hm⟩
  refine ⟨k, hk, ca, hca, ?_⟩
  have hm' := make_iff.1 hm
  simp only [Session.make, bind_eq_ok, Config.validateInputs, raiseIf_ok, validateSettings_ok, Decidable.not_not, exists_const]
  obtain ⟨⟨h1, h2, h3, h4, h5, h6⟩, rfl⟩ := hm'
  exact ⟨⟨h1, hn, h2.2⟩, ⟨h3, h4, h5, h6, hn, h2.2⟩, rfl⟩

/-- Salts that are long enough are hashed in the same way as with `passcrypt_spec`. -/
theorem strict_hash {E : Env} {M : Bytes} {n : Nat} {t : Settings} {made : Int} {draw p aad hash : Bytes} (hn : n ≤ t.saltSize) (hd : n ≤ draw.length)
    (h : hashPassphrase E (spec M) t made draw p aad = .ok hash) : hashPassphrase E (strict M n) t made draw p aad = .ok hash := by
  simp only [hashPassphrase, new, bind_eq_ok, make_ok, validateSettings_ok] at h ⊢
  obtain ⟨u, ⟨h1, h2, h3, h4, h5⟩, ts, hts, tag, ⟨sessions, hs, hc⟩, hh, ⟨hv, rfl⟩, he⟩ := h
  exact ⟨u, ⟨h1, h2, h3, h4, hn, h5.2⟩, ts, hts, tag, ⟨sessions, strict_spawn hd hs, hc⟩, _, ⟨⟨hv.mb, hv.cpu, hv.cores, hv.tag, hd, hv.salt.2⟩, rfl⟩, he⟩

/-- **C121** With `MIN_SALT_SIZE` from 9 to 256 hashes are made of all valid inputs of ordinary size, and no call of `verify` ever accepts one. -/
theorem C121_strict {E : Env} {M : Bytes} {n : Nat} {t : Settings} {made : Int} {draw p aad : Bytes} (ho : Ordinary E M t made draw p aad) (hn : 9 ≤ n)
    (hs : n ≤ t.saltSize) :
    ∃ hash, hashPassphrase E (strict M n) t made draw p aad = .ok hash ∧
      ∀ pepper p' aad' now ttl mbA cpuA coresA, (verify E (strict M n) pepper hash p' aad' now ttl mbA cpuA coresA).result ≠ .ok () := by
  obtain ⟨hash, hh⟩ := C48_hash_total ho
  refine ⟨hash, strict_hash hs (by rw [ho.draw]; exact hs) hh, ?_⟩
  intro pepper p' aad' now ttl mbA cpuA coresA hx
  obtain ⟨e, he⟩ := C121_never E (c := strict M n) (by rintro ⟨h, _⟩; have h : n ≤ 8 := h; omega) pepper hash p' aad' now ttl mbA cpuA coresA
  rw [he] at hx
  cases hx

/-! ### examples -/

/-- With `MIN_SALT_SIZE = 6`, a hash is made and accepted. -/
example : ∃ hash, hashPassphrase sampleEnv (strict [4] 6) sampleSettings 1000 [1, 2, 3, 4, 5, 6, 7, 8] (List.replicate 20 97) [9] = .ok hash ∧
    (verify sampleEnv (strict [4] 6) [5, 6] hash (List.replicate 20 97) [9] 2000 none (· ≤ 64) (· ≤ 1) (· ≤ 1)).result = .ok () := by
  obtain ⟨hash, hh⟩ := C48_hash_total sample_ordinary
  have hx := strict_hash (n := 6) (by decide) (by decide) hh
  exact ⟨hash, hx, C121_accepts_partial hx ⟨by decide, by decide⟩ (by rintro u ⟨⟩) rfl rfl rfl⟩

/-- Settings with salts of 16 bytes. -/
def longSalt : Settings := { sampleSettings with saltSize := 16 }

theorem longSalt_ordinary : Ordinary sampleEnv [4] longSalt 1000 (List.replicate 16 3) (List.replicate 20 97) [9] := by
  constructor <;> simp [longSalt, sampleSettings, sampleEnv]

/-- With `MIN_SALT_SIZE = 16`, a hash is made and refused. -/
example : ∃ hash, hashPassphrase sampleEnv (strict [4] 16) longSalt 1000 (List.replicate 16 3) (List.replicate 20 97) [9] = .ok hash ∧
    (verify sampleEnv (strict [4] 16) [5, 6] hash (List.replicate 20 97) [9] 2000 none (· ≤ 64) (· ≤ 1) (· ≤ 1)).result = .error .value := by
  obtain ⟨hash, hh⟩ := C48_hash_total longSalt_ordinary
  have hx := strict_hash (n := 16) (by decide) (by simp) hh
  refine ⟨hash, hx, ?_⟩
  rw [C121_never_value hx (by rintro ⟨h, _⟩; exact absurd h (by decide)) (by rintro u ⟨⟩) rfl rfl rfl]

end Aiootp.Passcrypt
